import Verif.Props.Chp
import Mathlib.Tactic.Linarith

/-! # C147: a CHP plant is not started too often -/

namespace Verif.Chp
variable {K : Type} [Field K] [LinearOrder K]

/-- How often a quantity has become nonzero within the first `n` steps. -/
def starts (x : ℕ → K) (n : ℕ) : ℕ :=
  ((List.range n).filter fun k => decide (x k = 0 ∧ x (k + 1) ≠ 0)).length

theorem starts_succ (x : ℕ → K) (n : ℕ) :
    starts x (n + 1) = starts x n + if x n = 0 ∧ x (n + 1) ≠ 0 then 1 else 0 := by
  unfold starts
  rw [List.range_succ, List.filter_append, List.length_append]
  congr 1
  by_cases h : x n = 0 ∧ x (n + 1) ≠ 0 <;> simp [h]

variable [IsStrictOrderedRing K]

theorem step_off_startup (p : Par K) (hp : p.Valid) (t : K) (pl : Plant K) (i : Input K) (h0 : pl.state = 0)
    (h1 : (step p t pl i).state = 0) : (step p t pl i).startupAt = pl.startupAt := by
  have hmod := hp.modLower_pos
  unfold step switch at *
  simp only at *
  by_cases hreq : i.req < p.modLower
  · simp_all
  · have hreq' : i.req ≠ 0 := (hmod.trans_le (not_lt.1 hreq)).ne'
    simp only [hreq, h0] at *
    by_cases hb : t + i.hFirst - pl.shutdownAt < p.minOff ∨ inletHot p i = true ∨ emergency p i = true
    · simp_all
    · push Not at hb
      obtain ⟨b1, b2, b3⟩ := hb
      rw [ne_eq, Bool.not_eq_true] at b2 b3
      simp [not_lt.2 b1, b2, b3, hreq'] at h1

/-- The start is at most `H` ahead and leaves room for all starts so far; `r` is the time a plant runs at
least. -/
theorem starts_invariant (p : Par K) (hp : p.Valid) (b : Bool) (inp : ℕ → Input K) (H : K)
    (hpos : ∀ n, 0 < (inp n).h ∧ 0 < (inp n).hFirst) (hexc : ∀ n, (inp n).hFirst ≤ (inp n).h + H) (r : K)
    (hr : ∀ n, state p b inp n ≠ 0 → state p b inp (n + 1) = 0 →
      (plant p b inp n).startupAt ≤ time inp n + H →
      r ≤ time inp n + (inp n).hFirst - (plant p b inp n).startupAt) (n : ℕ) :
    0 ≤ time inp n ∧ (state p b inp n ≠ 0 → 0 < starts (state p b inp) n) ∧
    (0 < starts (state p b inp) n →
      ((starts (state p b inp) n : K) - 1) * (r + p.minOff) ≤ (plant p b inp n).startupAt ∧
      (plant p b inp n).startupAt ≤ time inp n + H ∧
      (state p b inp n = 0 → (plant p b inp n).startupAt + r ≤ (plant p b inp n).shutdownAt)) := by
  induction n with
  | zero =>
    refine ⟨le_rfl, fun h => absurd (by cases b <;> rfl) h, fun h => absurd h (by simp [starts])⟩
  | succ n ih =>
    obtain ⟨t0, ion, i0⟩ := ih
    have ht : time inp (n + 1) = time inp n + (inp n).h := rfl
    have hp1 := hpos n
    have hs := starts_succ (state p b inp) n
    by_cases h0 : state p b inp n = 0
    · by_cases h1 : state p b inp (n + 1) = 0
      · rw [if_neg (fun h => h.2 h1), add_zero] at hs
        have a : (plant p b inp (n + 1)).startupAt = (plant p b inp n).startupAt :=
          step_off_startup p hp (time inp n) (plant p b inp n) (inp n) h0 h1
        have a' : (plant p b inp (n + 1)).shutdownAt = (plant p b inp n).shutdownAt :=
          step_stay_off p (time inp n) (plant p b inp n) (inp n) h0
        rw [hs, a, a', ht]
        refine ⟨by linarith, fun h => absurd h1 h, fun hk => ?_⟩
        obtain ⟨i1, i2, i3⟩ := i0 hk
        exact ⟨i1, by linarith, fun _ => i3 h0⟩
      · obtain ⟨a1, -, a3, -⟩ := step_startup p (time inp n) (plant p b inp n) (inp n) h0 h1
        have a1' : (plant p b inp (n + 1)).startupAt = time inp n + (inp n).hFirst := a1
        rw [if_pos ⟨h0, h1⟩] at hs
        rw [hs, a1', ht]
        refine ⟨by linarith, fun _ => Nat.succ_pos _, fun _ => ⟨?_, by linarith [hexc n], fun h => absurd h h1⟩⟩
        rcases Nat.eq_zero_or_pos (starts (state p b inp) n) with hz | hz
        · rw [hz]; simp; linarith
        · obtain ⟨i1, i2, i3⟩ := i0 hz
          have := i3 h0
          push_cast
          linarith
    · have a : (plant p b inp (n + 1)).startupAt = (plant p b inp n).startupAt :=
        step_stay_on p (time inp n) (plant p b inp n) (inp n) h0
      rw [if_neg (fun h => h0 h.1), add_zero] at hs
      have hk := ion h0
      obtain ⟨i1, i2, -⟩ := i0 hk
      rw [hs, a, ht]
      refine ⟨by linarith, fun _ => hk, fun _ => ⟨i1, by linarith, fun h1 => ?_⟩⟩
      have hlow : p.modLower ≤ (plant p b inp n).state :=
        (C44_state_zero_or_above_lower p hp b inp (fun n => (hpos n).2) n).resolve_left h0
      have a' : (plant p b inp (n + 1)).shutdownAt = time inp n + (inp n).hFirst :=
        (step_shutdown p hp (time inp n) (plant p b inp n) (inp n) hp1.2 hlow h1).1
      rw [a']
      linarith [hr n h0 h1 i2]

/-- **C147**, partial: whatever is requested and however hot the plant becomes, the minimum pause limits the
number of its starts.  `H` is by how much first attempts of a step may be longer than the accepted step, zero
if none is rejected.  Missing: the limit without `H` (`C147_fails_rejected_attempt`). -/
theorem C147_pause_partial (p : Par K) (hp : p.Valid) (b : Bool) (inp : ℕ → Input K) (H : K) (hH : 0 ≤ H)
    (hpos : ∀ n, 0 < (inp n).h ∧ 0 < (inp n).hFirst) (hexc : ∀ n, (inp n).hFirst ≤ (inp n).h + H) (n : ℕ) :
    ((starts (state p b inp) n : K) - 1) * (p.minOff - H) ≤ time inp n + H := by
  obtain ⟨t0, -, i0⟩ := starts_invariant p hp b inp H hpos hexc (-H)
    (fun k _ _ h => by linarith [(hpos k).2]) n
  have hm := hp.minOff_pos
  rcases Nat.eq_zero_or_pos (starts (state p b inp) n) with hz | hz
  · rw [hz]; simp; linarith
  · obtain ⟨i1, i2, -⟩ := i0 hz
    linarith

/-- **C147**, partial: as long as neither the inlet nor any cell becomes too hot, the minimum running time counts
too: at most one start more than minimum running time and minimum pause fit into the time.  Missing: as
above; however many attempts are rejected, the times differ by one attempt only. -/
theorem C147_cycle_partial (p : Par K) (hp : p.Valid) (b : Bool) (inp : ℕ → Input K) (H : K) (hH : 0 ≤ H)
    (hpos : ∀ n, 0 < (inp n).h ∧ 0 < (inp n).hFirst) (hexc : ∀ n, (inp n).hFirst ≤ (inp n).h + H)
    (hcool : ∀ n, (∀ T ∈ (inp n).T, T ≤ p.tEmergency) ∧ ∀ T, (inp n).T.head? = some T → T ≤ p.tInMax) (n : ℕ) :
    ((starts (state p b inp) n : K) - 1) * (p.minOn + p.minOff) ≤ time inp n + H := by
  obtain ⟨t0, -, i0⟩ := starts_invariant p hp b inp H hpos hexc p.minOn (fun k h0 h1 _ => by
    have hlow : p.modLower ≤ (plant p b inp k).state :=
      (C44_state_zero_or_above_lower p hp b inp (fun n => (hpos n).2) k).resolve_left h0
    rcases (step_shutdown p hp (time inp k) (plant p b inp k) (inp k) (hpos k).2 hlow h1).2 with h | h | h
    · simp only [emergency, List.any_eq_true, decide_eq_true_eq] at h
      obtain ⟨T, hT, hlt⟩ := h
      exact absurd ((hcool k).1 T hT) (not_le.2 hlt)
    · obtain ⟨T, hT, hlt⟩ := (inletHot_iff p _).1 h.1
      exact absurd ((hcool k).2 T hT) (not_le.2 hlt)
    · exact h.1) n
  have hm := hp.minOff_pos
  have hm' := hp.minOn_pos
  rcases Nat.eq_zero_or_pos (starts (state p b inp) n) with hz | hz
  · rw [hz]; simp; linarith
  · obtain ⟨i1, i2, -⟩ := i0 hz
    linarith

/-- Two starts in 2400 s with minimum times of 600 s each. -/
example : starts (state samplePar false sampleRun2) 6 = 2 ∧ time sampleRun2 6 = 2400 ∧
    (∀ n, 0 < (sampleRun2 n).h ∧ 0 < (sampleRun2 n).hFirst) ∧
    (∀ n, (sampleRun2 n).hFirst ≤ (sampleRun2 n).h + 0) ∧
    (∀ n, (∀ T ∈ (sampleRun2 n).T, T ≤ samplePar.tEmergency) ∧
      ∀ T, (sampleRun2 n).T.head? = some T → T ≤ samplePar.tInMax) := by
  refine ⟨by decide +kernel, by decide +kernel, fun n => ⟨by norm_num [sampleRun2], by norm_num [sampleRun2]⟩,
    fun n => by norm_num [sampleRun2], fun n => ⟨fun T hT => ?_, fun T hT => ?_⟩⟩
  · simp [sampleRun2] at hT
    rcases hT with rfl | rfl <;> norm_num [samplePar]
  · simp [sampleRun2] at hT
    subst hT; norm_num [samplePar]

/-- **C147** is false without allowance for rejected attempts, as the plant tests its times with the step that
was tried first: two attempts of 600 s, after which 1 s was accepted, and a plant with minimum times of 600 s
each starts for the second time after 603 s. -/
theorem C147_fails_rejected_attempt :
    ∃ (p : Par ℚ) (inp : ℕ → Input ℚ), p.Valid ∧ p.minOn = 600 ∧ p.minOff = 600 ∧
      (∀ n, 0 < (inp n).h ∧ (inp n).h ≤ (inp n).hFirst ∧ (inp n).hFirst ≤ 600) ∧
      (∀ n, ∀ T ∈ (inp n).T, T < p.tInMax ∧ T < p.tEmergency) ∧
      time inp 6 = 603 ∧ starts (state p false inp) 6 = 2 := by
  refine ⟨samplePar, fun n => if n = 0 then ⟨1, 1, 1, [60]⟩ else if n = 1 then ⟨600, 1, 0, [60]⟩ else
    if n < 5 then ⟨200, 200, 1, [60]⟩ else ⟨600, 1, 1, [60]⟩, samplePar_valid, rfl, rfl,
    fun n => ?_, fun n T hT => ?_, by decide +kernel, by decide +kernel⟩
  · dsimp only
    split_ifs <;> norm_num
  · have : T = 60 := by
      revert hT
      dsimp only
      split_ifs <;> simp
    subst this; norm_num [samplePar]

end Verif.Chp
