import Verif.Lemmas.StepControl

/-! Helper lemmas: the retry loop ends. -/

namespace Verif.StepControl

/-- The attempts `a n, …, a (n+m-1)`. -/
def seg (a : ℕ → Attempt) (n m : ℕ) : List Attempt := (List.range m).map fun i => a (n + i)

theorem seg_succ (a : ℕ → Attempt) (n m : ℕ) : seg a n (m + 1) = a n :: seg a (n + 1) m := by
  unfold seg
  rw [List.range_succ_eq_map]
  simp only [List.map_cons, List.map_map, Nat.add_zero]
  congr 1
  apply List.map_congr_left
  intro i _
  simp only [Function.comp_apply]
  congr 1
  omega

/-- The loop started at `l` with the outcomes from index `n` on ends. -/
def Ends (c : Cfg) (a : ℕ → Attempt) (l : Loop) (n : ℕ) : Prop :=
  ∃ m r, Exec c l (seg a n m) r

theorem Ends.of_retry {c : Cfg} {a : ℕ → Attempt} {l l' : Loop} {n : ℕ}
    (h : pass c l (a n) = .retry l') (h' : Ends c a l' (n + 1)) : Ends c a l n := by
  obtain ⟨m, r, hm⟩ := h'
  exact ⟨m + 1, r, by rw [seg_succ]; exact .retry h hm⟩

theorem Ends.of_accept {c : Cfg} {a : ℕ → Attempt} {l l' : Loop} {n code : ℕ}
    (h : pass c l (a n) = .accept l' code) : Ends c a l n :=
  ⟨1, _, by rw [seg_succ]; exact .accept h⟩

theorem Ends.of_raise {c : Cfg} {a : ℕ → Attempt} {l l' : Loop} {n : ℕ}
    (h : pass c l (a n) = .raise l') : Ends c a l n :=
  ⟨1, _, by rw [seg_succ]; exact .raise h⟩

/-- Outcomes are possible: an error that is a number is not negative. -/
def ErrNonneg (a : ℕ → Attempt) : Prop := ∀ i e, (a i).err = some e → 0 ≤ e

section
variable {c : Cfg} (hc : c.Valid) {a : ℕ → Attempt} (ha : ErrNonneg a) {k : ℕ}
include hc ha

/-- One pass: it ends the loop, is an instability, or an error rejection. -/
theorem ends_step (l : Loop) (n : ℕ)
    (hun : ∀ l', l'.cnt = l.cnt + 1 → l'.cnt ≠ 100 → Ends c a l' (n + 1))
    (hrej : ∀ l', l'.cnt = l.cnt → l.h ≠ c.minStep → BadErr (a n).err →
      l'.h = max c.minStep (l.h * shrink c (a n).err) → Ends c a l' (n + 1)) :
    Ends c a l n := by
  rcases pass_cases (rfl : pass c l (a n) = _) with ⟨loc, l', _, hl', h⟩ | ⟨_, e, _, _, _, l0, _, h⟩ |
    ⟨_, _, l0, _, h⟩ | ⟨_, hbad, l0, hl0, h⟩
  · rcases h with ⟨_, h⟩ | ⟨hne, h⟩
    · exact .of_raise h
    · exact .of_retry h (hun l' (by subst hl'; rfl) (by subst hl'; exact hne))
  · rcases h with ⟨_, h⟩ | ⟨_, h⟩ <;> exact .of_accept h
  · exact .of_accept h
  · rcases h with ⟨_, h⟩ | ⟨hne, h⟩
    · exact .of_accept h
    · refine .of_retry h (hrej _ ?_ hne ?_ rfl)
      · subst hl0; simp [foldl_report_cnt]
      · intro e he
        rcases hbad e he with h1 | h1
        · exact absurd h1 (not_lt.mpr (ha n e he))
        · exact h1

theorem ends_at_min {cnt : ℕ} (hun : ∀ l n, l.cnt = cnt + 1 → l.cnt ≠ 100 → Ends c a l n)
    (l : Loop) (n : ℕ) (hl : l.cnt = cnt) (hh : l.h = c.minStep) : Ends c a l n :=
  ends_step hc ha l n (fun l' h1 h2 => hun l' _ (by omega) h2) (fun _ _ hne => absurd hh hne)

theorem ends_le_min {cnt : ℕ} (hun : ∀ l n, l.cnt = cnt + 1 → l.cnt ≠ 100 → Ends c a l n)
    (l : Loop) (n : ℕ) (hl : l.cnt = cnt) (hh : l.h ≤ c.minStep) : Ends c a l n := by
  refine ends_step hc ha l n (fun l' h1 h2 => hun l' _ (by omega) h2) ?_
  intro l' h1 _ hb h2
  refine ends_at_min hc ha hun l' _ (by omega) ?_
  rw [h2]
  apply max_eq_left
  have hs := shrink_lt_one hc hb
  have hs' := shrink_pos hc (a n).err
  have := hc.min_pos
  by_cases h0 : 0 ≤ l.h <;> nlinarith

theorem ends_pow {cnt : ℕ} (hun : ∀ l n, l.cnt = cnt + 1 → l.cnt ≠ 100 → Ends c a l n) (N : ℕ) :
    ∀ (l : Loop) (n : ℕ), l.cnt = cnt → l.h * (max c.minFactor c.safety) ^ N ≤ c.minStep →
      Ends c a l n := by
  have hmin := hc.min_pos
  have hq0 : 0 < max c.minFactor c.safety := lt_of_lt_of_le hc.minFactor_pos (le_max_left _ _)
  have hq1 : max c.minFactor c.safety ≤ 1 := (max_lt hc.minFactor_lt hc.safety_lt).le
  induction N with
  | zero => intro l n hl h; exact ends_le_min hc ha hun l n hl (by simpa using h)
  | succ N ih =>
    intro l n hl h
    refine ends_step hc ha l n (fun l' h1 h2 => hun l' _ (by omega) h2) ?_
    intro l' h1 _ hb h2
    refine ih l' _ (by omega) ?_
    have hqN : 0 < (max c.minFactor c.safety) ^ N := pow_pos hq0 N
    have hqN1 : (max c.minFactor c.safety) ^ N ≤ 1 := pow_le_one₀ hq0.le hq1
    have hs := shrink_le hc hb
    have hs' := shrink_pos hc (a n).err
    rw [h2]
    rcases max_cases c.minStep (l.h * shrink c (a n).err) with ⟨h3, _⟩ | ⟨h3, h4⟩
    · rw [h3]; nlinarith
    · rw [h3]
      have hl0 : 0 < l.h := by
        by_contra hneg
        push Not at hneg
        nlinarith
      calc l.h * shrink c (a n).err * (max c.minFactor c.safety) ^ N
          ≤ l.h * max c.minFactor c.safety * (max c.minFactor c.safety) ^ N := by gcongr
        _ = l.h * (max c.minFactor c.safety) ^ (N + 1) := by ring
        _ ≤ c.minStep := h

theorem ends_cnt (l : Loop) (n : ℕ) (hl : l.cnt + (k + 1) = 100) : Ends c a l n := by
  have hmin := hc.min_pos
  induction k generalizing l n with
  | zero =>
    have hun : ∀ l' n', l'.cnt = l.cnt + 1 → l'.cnt ≠ 100 → Ends c a l' n' := by
      intro l' n' h1 h2; omega
    obtain ⟨N, hN⟩ := exists_pow_lt_of_lt_one (x := c.minStep / (|l.h| + 1))
      (y := max c.minFactor c.safety) (by positivity) (max_lt hc.minFactor_lt hc.safety_lt)
    refine ends_pow hc ha hun N l n rfl ?_
    have hq : 0 ≤ (max c.minFactor c.safety) ^ N :=
      pow_nonneg (hc.minFactor_pos.le.trans (le_max_left _ _)) N
    rw [lt_div_iff₀ (by positivity)] at hN
    have := le_abs_self l.h
    nlinarith
  | succ k ih =>
    have hun : ∀ l' n', l'.cnt = l.cnt + 1 → l'.cnt ≠ 100 → Ends c a l' n' := by
      intro l' n' h1 _; exact ih l' n' (by omega)
    obtain ⟨N, hN⟩ := exists_pow_lt_of_lt_one (x := c.minStep / (|l.h| + 1))
      (y := max c.minFactor c.safety) (by positivity) (max_lt hc.minFactor_lt hc.safety_lt)
    refine ends_pow hc ha hun N l n rfl ?_
    have hq : 0 ≤ (max c.minFactor c.safety) ^ N :=
      pow_nonneg (hc.minFactor_pos.le.trans (le_max_left _ _)) N
    rw [lt_div_iff₀ (by positivity)] at hN
    have := le_abs_self l.h
    nlinarith

end

end Verif.StepControl
