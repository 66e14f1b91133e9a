import Verif.Model.Chp
import Mathlib.Tactic.Linarith
import Mathlib.Tactic.Ring
import Mathlib.Tactic.SplitIfs
import Mathlib.Algebra.Order.AbsoluteValue.Basic

/-! # Helper lemmas for the CHP plant -/

namespace Verif.Chp
variable {K : Type} [Field K] [LinearOrder K] [IsStrictOrderedRing K]

/-- The limited modulation is between the last and the requested one and close to the last one. -/
theorem ramp_spec (p : Par K) (hp : p.Valid) {last req h : K} (hh : 0 < h) :
    min last req ≤ ramp p last req h ∧ ramp p last req h ≤ max last req ∧
      |ramp p last req h - last| ≤ p.maxRamp * h := by
  have hr : 0 < p.maxRamp * h := mul_pos hp.maxRamp_pos hh
  unfold ramp
  simp only
  split_ifs with h1 h2
  · rw [lt_div_iff₀ hh, abs_of_nonpos h2] at h1
    refine ⟨min_le_of_left_le (by linarith), le_max_of_le_right (by linarith), ?_⟩
    rw [add_sub_cancel_left, abs_of_pos hr]
  · push Not at h2
    rw [lt_div_iff₀ hh, abs_of_pos h2] at h1
    refine ⟨min_le_of_right_le (by linarith), le_max_of_le_left (by linarith), ?_⟩
    rw [show last - p.maxRamp * h - last = -(p.maxRamp * h) by ring, abs_neg, abs_of_pos hr]
  · rw [not_lt, div_le_iff₀ hh, abs_sub_comm] at h1
    exact ⟨min_le_right _ _, le_max_right _ _, h1⟩

/-- The plant state is 0 or in the modulation range. -/
def InRange (p : Par K) (x : K) : Prop := x = 0 ∨ p.modLower ≤ x

theorem switch_on_mod (p : Par K) (hp : p.Valid) (pl : Plant K) (i : Input K) (curr : K)
    (hh : 0 < i.hFirst) (hr : InRange p pl.state) (h : (switch p pl i curr).on = true) :
    p.modLower ≤ (switch p pl i curr).mod := by
  unfold switch at *
  simp only at *
  by_cases hreq : i.req < p.modLower
  · simp only [hreq, decide_true, Bool.not_true] at *
    split_ifs at *
    simp_all
  · have hreq' := not_lt.1 hreq
    simp only [hreq, decide_false, Bool.not_false] at *
    split_ifs at h ⊢ with h1 h2 <;> simp_all
    rcases hr with hr | hr
    · exact absurd hr h1
    · exact (le_min hr hreq').trans (ramp_spec p hp hh).1

theorem step_inRange (p : Par K) (hp : p.Valid) (t : K) (pl : Plant K) (i : Input K)
    (hh : 0 < i.hFirst) (hr : InRange p pl.state) : InRange p (step p t pl i).state := by
  have hsw := switch_on_mod p hp pl i (t + i.hFirst) hh hr
  unfold step
  simp only
  split_ifs with h1 h2 h3
  · left; simp
  · right; simpa using hsw h1.1
  · right; simpa using hsw h3
  · left; simp

theorem inRange_ne (p : Par K) (hp : p.Valid) {x : K} (h : p.modLower ≤ x) : x ≠ 0 :=
  (hp.modLower_pos.trans_le h).ne'

omit [IsStrictOrderedRing K] in
/-- Off before, running after: a start-up. -/
theorem step_startup (p : Par K) (t : K) (pl : Plant K) (i : Input K)
    (h0 : pl.state = 0) (h1 : (step p t pl i).state ≠ 0) :
    (step p t pl i).startupAt = t + i.hFirst ∧ (step p t pl i).shutdownAt = pl.shutdownAt ∧
      p.minOff ≤ t + i.hFirst - pl.shutdownAt ∧ inletHot p i = false ∧ emergency p i = false ∧
      (step p t pl i).state = i.req ∧ p.modLower ≤ i.req := by
  unfold step switch at *
  simp only at *
  by_cases hreq : i.req < p.modLower
  · simp_all
  · have hreq' := not_lt.1 hreq
    simp only [hreq, h0] at *
    by_cases hb : t + i.hFirst - pl.shutdownAt < p.minOff ∨ inletHot p i = true ∨ emergency p i = true
    · simp_all
    · push Not at hb
      obtain ⟨b1, b2, b3⟩ := hb
      rw [ne_eq, Bool.not_eq_true] at b2 b3
      simp [not_lt.2 b1, b2, b3, b1, hreq']

omit [IsStrictOrderedRing K] in
/-- Off before: the shut-down time is kept. -/
theorem step_stay_off (p : Par K) (t : K) (pl : Plant K) (i : Input K) (h0 : pl.state = 0) :
    (step p t pl i).shutdownAt = pl.shutdownAt := by
  unfold step switch at *
  simp only at *
  by_cases hreq : i.req < p.modLower
  · simp_all
  · have hreq' := not_lt.1 hreq
    simp only [hreq, h0] at *
    by_cases hb : t + i.hFirst - pl.shutdownAt < p.minOff ∨ inletHot p i = true ∨ emergency p i = true
    · simp_all
    · push Not at hb
      obtain ⟨b1, b2, b3⟩ := hb
      rw [ne_eq, Bool.not_eq_true] at b2 b3
      simp [not_lt.2 b1, b2, b3]

omit [IsStrictOrderedRing K] in
/-- Running before and after: the start time is kept. -/
theorem step_stay_on (p : Par K) (t : K) (pl : Plant K) (i : Input K)
    (h0 : pl.state ≠ 0) : (step p t pl i).startupAt = pl.startupAt := by
  unfold step switch
  simp only
  by_cases hreq : i.req < p.modLower
  · simp [hreq]
    split_ifs <;> simp_all
  · simp [hreq]
    split_ifs <;> simp_all

/-- Running before, off after: a shut-down, either because of over-temperature or after the
minimum running time. -/
theorem step_shutdown (p : Par K) (hp : p.Valid) (t : K) (pl : Plant K) (i : Input K)
    (hh : 0 < i.hFirst) (hr : p.modLower ≤ pl.state) (h1 : (step p t pl i).state = 0) :
    (step p t pl i).shutdownAt = t + i.hFirst ∧
      (emergency p i = true ∨ (inletHot p i = true ∧ p.maxExc < pl.dtExc) ∨
        p.minOn ≤ t + i.hFirst - pl.startupAt ∧ i.req < p.modLower) := by
  have h0 := inRange_ne p hp hr
  have hmod := hp.modLower_pos.ne'
  have hramp : p.modLower ≤ i.req → ramp p pl.state i.req i.hFirst ≠ 0 := fun hreq =>
    inRange_ne p hp ((le_min hr hreq).trans (ramp_spec p hp hh).1)
  unfold step switch at *
  simp only at *
  by_cases hreq : i.req < p.modLower
  · simp only [hreq, decide_true, Bool.not_true] at *
    by_cases hm : t + i.hFirst - pl.startupAt < p.minOn
    · simp only [hm, if_true] at *
      by_cases hot : inletHot p i = true ∨ emergency p i = true
      · by_cases he : p.maxExc < pl.dtExc ∨ emergency p i = true
        · simp_all
          tauto
        · simp_all
      · simp_all
    · simp [h0, hm, not_lt.1 hm]
  · have hramp := hramp (not_lt.1 hreq)
    simp only [hreq] at *
    by_cases hot : inletHot p i = true ∨ emergency p i = true
    · by_cases he : p.maxExc < pl.dtExc ∨ emergency p i = true
      · simp_all
        tauto
      · simp_all
    · simp_all

omit [IsStrictOrderedRing K] in
/-- Running after a step with a hot inlet: the timer was not used up and goes on. -/
theorem step_hot_running (p : Par K) (t : K) (pl : Plant K) (i : Input K)
    (hot : inletHot p i = true) (h : (step p t pl i).state ≠ 0) :
    (step p t pl i).dtExc = pl.dtExc + i.hFirst ∧ ¬p.maxExc < pl.dtExc := by
  unfold step at *
  simp only [hot, true_or, and_true] at *
  by_cases hon : (switch p pl i (t + i.hFirst)).on = true
  · by_cases he : p.maxExc < pl.dtExc ∨ emergency p i = true
    · simp [hon, he] at h
    · have := not_or.1 he
      simp [hon, this.1, this.2]
  · simp [hon] at h

/-- The timer never gets negative. -/
theorem step_dtExc_nonneg (p : Par K) (t : K) (pl : Plant K) (i : Input K) (hh : 0 < i.hFirst)
    (h : 0 ≤ pl.dtExc) : 0 ≤ (step p t pl i).dtExc := by
  unfold step
  simp only
  split_ifs
  · exact h
  · simp only; linarith
  · simp
  · simp

omit [IsStrictOrderedRing K] in
/-- What a step does to the timer. -/
theorem step_dtExc (p : Par K) (t : K) (pl : Plant K) (i : Input K) :
    (step p t pl i).dtExc = 0 ∨
      (inletHot p i = true ∧ (step p t pl i).dtExc = pl.dtExc + i.hFirst) ∨
      ((inletHot p i = true ∨ emergency p i = true) ∧ (step p t pl i).dtExc = pl.dtExc ∧
        (step p t pl i).state = 0) := by
  unfold step
  simp only
  split_ifs with h1 h2
  · right; right; exact ⟨h1.2, rfl, by simp⟩
  · right; left
    exact ⟨h1.2.resolve_right (not_or.1 h2).2, rfl⟩
  · left; rfl
  · left; rfl

omit [IsStrictOrderedRing K] in
/-- After a step that starts with the plant off, the timer is zero. -/
theorem step_dtExc_off (p : Par K) (t : K) (pl : Plant K) (i : Input K) (h0 : pl.state = 0) :
    (step p t pl i).dtExc = 0 := by
  unfold step switch
  simp only
  by_cases hreq : i.req < p.modLower
  · simp [hreq, h0]
  · by_cases hb : t + i.hFirst - pl.shutdownAt < p.minOff ∨ inletHot p i = true ∨ emergency p i = true
    · simp [hreq, h0, hb]
    · have := not_or.1 (not_or.1 hb).2
      simp [hreq, h0, this.1, this.2]

end Verif.Chp
