import Verif.Props.Controls
import Mathlib.Algebra.Order.Archimedean.Basic
import Mathlib.Tactic.NormNum
import Mathlib.Tactic.Positivity

/-!
# C162: a two-position controller keeps the process value in its band

The plant is arbitrary: all that is assumed is that the process value rises while the actuator is in one
position, falls while it is in the other, and changes by at most `Δ` from call to call.
-/

set_option linter.unusedSectionVars false

namespace Verif.Controls

variable {K : Type*} [Field K] [LinearOrder K] [IsStrictOrderedRing K]

/-- The value set below the band. -/
def below (H : K) (c : Cfg K) : K := if 0 ≤ H then c.satMax else c.off
/-- The value set above the band. -/
def above (H : K) (c : Cfg K) : K := if 0 ≤ H then c.off else c.satMax

/-- Specification: controller and plant in a loop.  Call `k` sees the process value `pv k` and leaves the state
`st (k + 1)`; until the next call the process value does not fall while the actuator has the position set below the
band, does not rise while it has the position set above the band, and changes by at most `Δ`. -/
structure Closed (c : Cfg K) (H sp Δ : K) (pv : ℕ → K) (inp : ℕ → Inp K) (st : ℕ → St K) : Prop where
  call : ∀ k, st (k + 1) = ctrl c (bangBang H c) (inp k) (st k)
  sees : ∀ k, (inp k).pv = pv k ∧ (inp k).sp = sp
  start : (st 0).cv = below H c ∨ (st 0).cv = above H c
  up : ∀ k, (st (k + 1)).act = clip c.llim c.ulim (below H c) → pv k ≤ pv (k + 1) ∧ pv (k + 1) ≤ pv k + Δ
  down : ∀ k, (st (k + 1)).act = clip c.llim c.ulim (above H c) → pv (k + 1) ≤ pv k ∧ pv k - Δ ≤ pv (k + 1)

variable {c : Cfg K} {H sp Δ : K} {pv : ℕ → K} {inp : ℕ → Inp K} {st : ℕ → St K}

theorem closed_law (h : Closed c H sp Δ pv inp st) (hi : c.invert = false) (hs : c.slope = none) (hm : c.sub = none)
    (k : ℕ) :
    (pv k < sp - |H| / 2 → (st (k + 1)).cv = below H c) ∧ (sp + |H| / 2 < pv k → (st (k + 1)).cv = above H c) ∧
      (sp - |H| / 2 ≤ pv k → pv k ≤ sp + |H| / 2 → (st (k + 1)).cv = (st k).cv) := by
  have := C38_hysteresis_partial H hi hs hm (inp k) (st k)
  rw [(h.sees k).1, (h.sees k).2] at this
  rw [h.call k]
  exact this

theorem closed_two (h : Closed c H sp Δ pv inp st) (hi : c.invert = false) (hs : c.slope = none) (hm : c.sub = none)
    (k : ℕ) : (st k).cv = below H c ∨ (st k).cv = above H c := by
  induction k with
  | zero => exact h.start
  | succ k ih =>
    obtain ⟨h1, h2, h3⟩ := closed_law h hi hs hm k
    by_cases hlo : pv k < sp - |H| / 2
    · exact .inl (h1 hlo)
    · by_cases hhi : sp + |H| / 2 < pv k
      · exact .inr (h2 hhi)
      · rw [h3 (not_lt.1 hlo) (not_lt.1 hhi)]
        exact ih

theorem closed_act (h : Closed c H sp Δ pv inp st) (k : ℕ) :
    (st (k + 1)).act = clip c.llim c.ulim (st (k + 1)).cv := by
  rw [h.call k]
  rfl

theorem closed_up (h : Closed c H sp Δ pv inp st) {k : ℕ} (hk : (st (k + 1)).cv = below H c) :
    pv k ≤ pv (k + 1) ∧ pv (k + 1) ≤ pv k + Δ :=
  h.up k (by rw [closed_act h, hk])

theorem closed_down (h : Closed c H sp Δ pv inp st) {k : ℕ} (hk : (st (k + 1)).cv = above H c) :
    pv (k + 1) ≤ pv k ∧ pv k - Δ ≤ pv (k + 1) :=
  h.down k (by rw [closed_act h, hk])

theorem closed_step (h : Closed c H sp Δ pv inp st) (hi : c.invert = false) (hs : c.slope = none) (hm : c.sub = none)
    (hΔ : 0 ≤ Δ) (k : ℕ) : |pv (k + 1) - pv k| ≤ Δ := by
  rw [abs_le]
  rcases closed_two h hi hs hm (k + 1) with h1 | h1
  · have := closed_up h h1
    constructor <;> linarith
  · have := closed_down h h1
    constructor <;> linarith

/-- **C162, band.** Once the process value is inside the band widened by the change of one step, it stays there. -/
theorem C162_stays_partial (h : Closed c H sp Δ pv inp st) (hi : c.invert = false) (hs : c.slope = none)
    (hm : c.sub = none) (hΔ : 0 ≤ Δ) {k : ℕ} (h0 : sp - |H| / 2 - Δ ≤ pv k ∧ pv k ≤ sp + |H| / 2 + Δ) :
    ∀ j, k ≤ j → sp - |H| / 2 - Δ ≤ pv j ∧ pv j ≤ sp + |H| / 2 + Δ := by
  intro j hj
  induction j, hj using Nat.le_induction with
  | base => exact h0
  | succ j _ ih =>
    have hH := abs_nonneg H
    obtain ⟨h1, h2, -⟩ := closed_law h hi hs hm j
    by_cases hlo : pv j < sp - |H| / 2
    · have := closed_up h (h1 hlo)
      constructor <;> linarith
    · by_cases hhi : sp + |H| / 2 < pv j
      · have := closed_down h (h2 hhi)
        constructor <;> linarith
      · have := abs_le.1 (closed_step h hi hs hm hΔ j)
        constructor <;> linarith [not_lt.1 hlo, not_lt.1 hhi]

/-- **C162, reaching the band.** If the process value really moves, by at least `δ` per step while it is outside the band,
it reaches the widened band from wherever it starts, and stays there. -/
theorem C162_reaches_partial [Archimedean K] (h : Closed c H sp Δ pv inp st) (hi : c.invert = false) (hs : c.slope = none)
    (hm : c.sub = none) (hΔ : 0 ≤ Δ) {δ : K} (hδ : 0 < δ)
    (hup : ∀ k, (st (k + 1)).act = clip c.llim c.ulim (below H c) → pv k < sp - |H| / 2 → pv k + δ ≤ pv (k + 1))
    (hdown : ∀ k, (st (k + 1)).act = clip c.llim c.ulim (above H c) → sp + |H| / 2 < pv k → pv (k + 1) ≤ pv k - δ) :
    ∃ N, ∀ j, N ≤ j → sp - |H| / 2 - Δ ≤ pv j ∧ pv j ≤ sp + |H| / 2 + Δ := by
  have hH := abs_nonneg H
  suffices hex : ∃ k, sp - |H| / 2 - Δ ≤ pv k ∧ pv k ≤ sp + |H| / 2 + Δ by
    obtain ⟨k, hk⟩ := hex
    exact ⟨k, C162_stays_partial h hi hs hm hΔ hk⟩
  by_contra hno
  push Not at hno
  rcases lt_or_ge (pv 0) (sp - |H| / 2) with h0 | h0
  · have key : ∀ k, pv 0 + k * δ ≤ pv k ∧ pv k < sp - |H| / 2 := by
      intro k
      induction k with
      | zero => simpa using h0
      | succ k ih =>
        have h1 := (closed_law h hi hs hm k).1 ih.2
        have h2 := hup k (by rw [closed_act h, h1]) ih.2
        have h3 := closed_up h h1
        refine ⟨by push_cast; linarith [ih.1], ?_⟩
        by_contra hge
        have := hno (k + 1) (by linarith [not_lt.1 hge])
        linarith [ih.2]
    obtain ⟨N, hN⟩ := Archimedean.arch (sp - |H| / 2 - pv 0) hδ
    rw [nsmul_eq_mul] at hN
    have := key N
    linarith
  · have hhi : sp + |H| / 2 + Δ < pv 0 := hno 0 (by linarith)
    have key : ∀ k, pv k ≤ pv 0 - k * δ ∧ sp + |H| / 2 + Δ < pv k := by
      intro k
      induction k with
      | zero => simpa using hhi
      | succ k ih =>
        have h1 := (closed_law h hi hs hm k).2.1 (by linarith [ih.2])
        have h2 := hdown k (by rw [closed_act h, h1]) (by linarith [ih.2])
        have h3 := closed_down h h1
        refine ⟨by push_cast; linarith [ih.1], ?_⟩
        exact hno (k + 1) (by linarith [ih.2])
    obtain ⟨N, hN⟩ := Archimedean.arch (pv 0 - (sp + |H| / 2 + Δ)) hδ
    rw [nsmul_eq_mul] at hN
    have := key N
    linarith

/-- **C162, switching.** Between two switchings of the controller the process value crosses the whole band: there are
more than `|H| / Δ` calls in between, so a wide hysteresis protects the actuator. -/
theorem C162_switching_partial (h : Closed c H sp Δ pv inp st) (hi : c.invert = false) (hs : c.slope = none)
    (hm : c.sub = none) (hΔ : 0 ≤ Δ) {a b : ℕ} (hab : a < b) (ha : (st (a + 1)).cv ≠ (st a).cv)
    (hb : (st (b + 1)).cv ≠ (st b).cv) (hkeep : ∀ k, a < k → k < b → (st (k + 1)).cv = (st k).cv) :
    |H| < (b - a : ℕ) * Δ := by
  have hH := abs_nonneg H
  have hdist : ∀ n, |pv (a + n) - pv a| ≤ n * Δ := by
    intro n
    induction n with
    | zero => simp
    | succ n ih =>
      have h1 := closed_step h hi hs hm hΔ (a + n)
      have h2 : pv (a + (n + 1)) - pv a = (pv (a + n + 1) - pv (a + n)) + (pv (a + n) - pv a) := by
        rw [← add_assoc]; ring
      rw [h2]
      refine (abs_add_le _ _).trans ?_
      push_cast
      linarith
  have hconst : (st b).cv = (st (a + 1)).cv := by
    have : ∀ k, a + 1 ≤ k → k ≤ b → (st k).cv = (st (a + 1)).cv := by
      intro k hk
      induction k, hk using Nat.le_induction with
      | base => intro _; rfl
      | succ k hk ih =>
        intro hkb
        rw [hkeep k (by omega) (by omega)]
        exact ih (by omega)
    exact this b (by omega) le_rfl
  have hd := abs_le.1 (hdist (b - a))
  rw [show a + (b - a) = b by omega] at hd
  obtain ⟨a1, a2, a3⟩ := closed_law h hi hs hm a
  obtain ⟨b1, b2, b3⟩ := closed_law h hi hs hm b
  rcases lt_or_ge (pv a) (sp - |H| / 2) with h1 | h1
  · rcases lt_or_ge (pv b) (sp - |H| / 2) with h2 | h2
    · exact absurd (by rw [b1 h2, hconst, a1 h1]) hb
    · rcases lt_or_ge (sp + |H| / 2) (pv b) with h3 | h3
      · linarith
      · exact absurd (b3 h2 h3) hb
  · rcases lt_or_ge (sp + |H| / 2) (pv a) with h2 | h2
    · rcases lt_or_ge (sp + |H| / 2) (pv b) with h3 | h3
      · exact absurd (by rw [b2 h3, hconst, a2 h2]) hb
      · rcases lt_or_ge (pv b) (sp - |H| / 2) with h4 | h4
        · linarith
        · exact absurd (b3 h4 h3) hb
    · exact absurd (a3 h1 h2) ha

/-- **C162 is false of the code for inverted controllers**: for every plant at rest inside the band the control value
changes its sign in every call; no width of the hysteresis protects the actuator. -/
theorem C162_fails_inverted (H : K) {c : Cfg K} (hi : c.invert = true) (hs : c.slope = none) (hm : c.sub = none)
    (inp : ℕ → Inp K) (st : ℕ → St K) (hcall : ∀ k, st (k + 1) = ctrl c (bangBang H c) (inp k) (st k))
    (hin : ∀ k, (inp k).sp - |H| / 2 ≤ (inp k).pv ∧ (inp k).pv ≤ (inp k).sp + |H| / 2) (h0 : (st 0).cv ≠ 0) :
    ∀ k, (st (k + 1)).cv ≠ (st k).cv := by
  have hneg : ∀ k, (st (k + 1)).cv = -(st k).cv := by
    intro k
    rw [hcall k]
    exact C38_fails_inverted H hi hs hm (inp k) (st k) (hin k).1 (hin k).2
  have hne : ∀ k, (st k).cv ≠ 0 := by
    intro k
    induction k with
    | zero => exact h0
    | succ k ih => rw [hneg k]; exact neg_ne_zero.2 ih
  intro k he
  rw [hneg k] at he
  have := hne k
  apply this
  linarith

/-- **C162 is false of the code with a slope limit**: the control value is then only moved towards its target while the
process value is outside the band, and stays in between when it enters the band. -/
theorem C162_fails_slope :
    ∃ (c : Cfg ℚ) (i1 i2 : Inp ℚ) (s : St ℚ), c.Ok ∧ s.cv = c.off ∧ c.off < c.satMax ∧
      i1.pv < i1.sp - 4 / 2 ∧ i2.sp - 4 / 2 ≤ i2.pv ∧ i2.pv ≤ i2.sp + 4 / 2 ∧
      c.off < (calls c (bangBang 4 c) s [i1]).cv ∧ (calls c (bangBang 4 c) s [i1]).cv < c.satMax ∧
      ∀ n, (calls c (bangBang 4 c) s (i1 :: List.replicate n i2)).cv = (calls c (bangBang 4 c) s [i1]).cv := by
  refine ⟨⟨0, 1, 0, 1, 0, some (-1 / 10, 1 / 10), false, none, false, false⟩, ⟨1, 60, 50, 10, 0, false⟩,
    ⟨1, 60, 60, 0, 0, false⟩, .init 0, ⟨by norm_num, by norm_num, ?_⟩, rfl, by norm_num, by norm_num, by norm_num,
    by norm_num, by decide +kernel, by decide +kernel, ?_⟩
  · intro n p h
    simp only [Option.some.injEq, Prod.mk.injEq] at h
    obtain ⟨rfl, rfl⟩ := h
    norm_num
  · intro n
    simp only [calls, List.foldl_cons, List.foldl_nil]
    have key : ∀ (n : ℕ) (s : St ℚ), (List.foldl (fun s i => ctrl
        (⟨0, 1, 0, 1, 0, some (-1 / 10, 1 / 10), false, none, false, false⟩ : Cfg ℚ)
        (bangBang 4 ⟨0, 1, 0, 1, 0, some (-1 / 10, 1 / 10), false, none, false, false⟩) i s) s
        (List.replicate n ⟨1, 60, 60, 0, 0, false⟩)).cv = s.cv := by
      intro n
      induction n with
      | zero => intro s; rfl
      | succ n ih =>
        intro s
        rw [List.replicate_succ, List.foldl_cons, ih]
        norm_num [ctrl, processDirect, slopeLimit, bangBang, subCheck, offByMaster, bangBangLaw, shift, inv]
    exact key n _

/-! ## Example: a storage that gains or loses 1 K per call, held at 60 degrees with a hysteresis of 4 K -/

/-- Controller of the example. -/
def bandCfg : Cfg ℚ := ⟨0, 1, 0, 1, 0, none, false, none, false, false⟩

/-- Controller and storage: the process value seen by call `k` and the state before it. -/
def bandRun : ℕ → ℚ × St ℚ
  | 0 => (50, .init 0)
  | k + 1 =>
    let (pv, s) := bandRun k
    let s' := ctrl bandCfg (bangBang 4 bandCfg) ⟨1, 60, pv, 60 - pv, 0, false⟩ s
    (if s'.act = 1 then pv + 1 else pv - 1, s')

theorem band_closed : Closed bandCfg 4 60 1 (fun k => (bandRun k).1)
    (fun k => ⟨1, 60, (bandRun k).1, 60 - (bandRun k).1, 0, false⟩) (fun k => (bandRun k).2) := by
  refine ⟨fun k => rfl, fun k => ⟨rfl, rfl⟩, .inr ?_, fun k h => ?_, fun k h => ?_⟩
  · decide +kernel
  · have h1 : (bandRun (k + 1)).2.act = 1 := by
      rw [h]; decide +kernel
    have h2 : (bandRun (k + 1)).1 = if (bandRun (k + 1)).2.act = 1 then (bandRun k).1 + 1 else (bandRun k).1 - 1 := rfl
    rw [h2, if_pos h1]
    constructor <;> linarith
  · have h1 : (bandRun (k + 1)).2.act ≠ 1 := by
      rw [h]; decide +kernel
    have h2 : (bandRun (k + 1)).1 = if (bandRun (k + 1)).2.act = 1 then (bandRun k).1 + 1 else (bandRun k).1 - 1 := rfl
    rw [h2, if_neg h1]
    constructor <;> linarith

example : ∃ N, ∀ j, N ≤ j → (57 : ℚ) ≤ (bandRun j).1 ∧ (bandRun j).1 ≤ 63 := by
  obtain ⟨N, hN⟩ := C162_reaches_partial band_closed rfl rfl rfl (by norm_num) (δ := 1) (by norm_num)
    (fun k h _ => by
      have h1 : (bandRun (k + 1)).2.act = 1 := by
        rw [h]; decide +kernel
      have h2 : (bandRun (k + 1)).1 = if (bandRun (k + 1)).2.act = 1 then (bandRun k).1 + 1 else (bandRun k).1 - 1 := rfl
      rw [h2, if_pos h1])
    (fun k h _ => by
      have h1 : (bandRun (k + 1)).2.act ≠ 1 := by
        rw [h]; decide +kernel
      have h2 : (bandRun (k + 1)).1 = if (bandRun (k + 1)).2.act = 1 then (bandRun k).1 + 1 else (bandRun k).1 - 1 := rfl
      rw [h2, if_neg h1])
  refine ⟨N, fun j hj => ?_⟩
  have := hN j hj
  norm_num at this
  exact this

end Verif.Controls
