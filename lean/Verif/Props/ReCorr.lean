import Verif.Model.ReCorr
import Verif.Props.FlowAlpha

/-!
# C155: fitting the correction of the Reynolds number
-/

namespace Verif.ReCorr

open Verif.FlowAlpha

/-- Specification: the operating point is one of liquid water. -/
def Point.Liquid (p : Point) : Prop := 0 ≤ p.mean ∧ p.mean ≤ 100 ∧ 0 < p.target

variable {A d x ch : ℝ} {p : Point} {ps : List Point}

theorem alphaAt_factor (hp : p.Liquid) (hd : 0 < d) :
    0 < wallFactor p.mean p.mean * Water.lam p.mean / d := by
  have := wallFactor_pos hp.1 hp.2.1 hp.1 hp.2.1
  have hl : 0 < Water.lam p.mean := lt_of_lt_of_le (by norm_num) (Water.lam_ge hp.1 hp.2.1)
  positivity

theorem alphaAt_some {c a : ℝ} (h : alphaAt A d x ch p c = some a) :
    0 ≤ reynolds (p.flow / ch) p.mean A d + c ∧
    a = plateNu (reynolds (p.flow / ch) p.mean A d + c) (Water.Pr p.mean) d x *
      (wallFactor p.mean p.mean * Water.lam p.mean / d) := by
  have h0 : 0 ≤ reynolds (p.flow / ch) p.mean A d + c := by
    by_contra hn
    unfold alphaAt phexAlpha at h
    rw [if_pos (by push Not at hn; exact hn)] at h
    cases h
  unfold alphaAt at h
  rw [phexAlpha_eq h0, Option.some.injEq] at h
  exact ⟨h0, by rw [← h]; ring⟩

/-- A larger correction means a larger coefficient. -/
theorem alphaAt_lt (hp : p.Liquid) (hd : 0 < d) (hx : 10 * d ≤ x) {c c' a a' : ℝ} (hc : c < c')
    (h : alphaAt A d x ch p c = some a) (h' : alphaAt A d x ch p c' = some a') : a < a' := by
  obtain ⟨h0, rfl⟩ := alphaAt_some h
  obtain ⟨-, rfl⟩ := alphaAt_some h'
  have hP : (1 : ℝ) ≤ Water.Pr p.mean := le_trans (by norm_num) (Water.Pr_ge hp.1 hp.2.1)
  exact mul_lt_mul_of_pos_right (plateNu_lt h0 (by linarith) hP hd hx) (alphaAt_factor hp hd)

theorem deviation_nonneg : ∀ {ps : List Point} {c r : ℝ}, deviation A d x ch ps c = some r → 0 ≤ r
  | [], c, r, h => by cases h; exact le_rfl
  | p :: ps, c, r, h => by
    rw [deviation, Option.bind_eq_some_iff] at h
    obtain ⟨a, -, h⟩ := h
    rw [Option.map_eq_some_iff] at h
    obtain ⟨q, hq, rfl⟩ := h
    have := deviation_nonneg hq
    positivity

/-- **C155** (what is minimised): the deviation is never negative, and it is zero exactly for the corrections with which every
operating point has its coefficient. -/
theorem C155_zero (hps : ∀ p ∈ ps, p.Liquid) (c : ℝ) :
    (∀ r, deviation A d x ch ps c = some r → 0 ≤ r) ∧
    (deviation A d x ch ps c = some 0 ↔ ∀ p ∈ ps, alphaAt A d x ch p c = some p.target) := by
  refine ⟨fun r => deviation_nonneg, ?_⟩
  induction ps with
  | nil => simp [deviation]
  | cons p ps ih =>
    have ht := (hps p List.mem_cons_self).2.2
    have ih := ih fun q hq => hps q (List.mem_cons_of_mem _ hq)
    rw [deviation, Option.bind_eq_some_iff]
    simp only [Option.map_eq_some_iff, List.mem_cons, forall_eq_or_imp]
    constructor
    · rintro ⟨a, ha, q, hq, e⟩
      have q0 := deviation_nonneg hq
      have a0 := abs_nonneg (a / p.target - 1)
      have e1 : |a / p.target - 1| = 0 := by linarith
      have e2 : q = 0 := by linarith
      rw [abs_eq_zero, sub_eq_zero, div_eq_one_iff_eq ht.ne'] at e1
      exact ⟨by rw [ha, e1], ih.1 (by rw [hq, e2])⟩
    · rintro ⟨h1, h2⟩
      exact ⟨p.target, h1, 0, ih.2 h2, by rw [div_self ht.ne']; simp⟩

/-- **C155**, partial (plates at least ten times as long as the hydraulic diameter): at most one correction meets the given
coefficients; it is positive if one of them is larger than without correction.  Missing: that there is one
(`C155_fails_gap`) and that it is usable (`C155_fails_negative`). -/
theorem C155_unique_partial (hps : ∀ p ∈ ps, p.Liquid) (hne : ps ≠ []) (hd : 0 < d) (hx : 10 * d ≤ x) {c : ℝ}
    (h : deviation A d x ch ps c = some 0) :
    (∀ c', deviation A d x ch ps c' = some 0 → c' = c) ∧
    ∀ p ∈ ps, ∀ a, alphaAt A d x ch p 0 = some a → a < p.target → 0 < c := by
  have hz := (C155_zero hps c).2.1 h
  constructor
  · intro c' h'
    have hz' := (C155_zero hps c').2.1 h'
    obtain ⟨p, hp⟩ := List.exists_mem_of_ne_nil ps hne
    rcases lt_trichotomy c' c with hlt | e | hlt
    · exact absurd (alphaAt_lt (hps p hp) hd hx hlt (hz' p hp) (hz p hp)) (lt_irrefl _)
    · exact e
    · exact absurd (alphaAt_lt (hps p hp) hd hx hlt (hz p hp) (hz' p hp)) (lt_irrefl _)
  · intro p hp a ha hlt
    by_contra hn
    push Not at hn
    rcases eq_or_lt_of_le hn with e | e
    · rw [e] at hz
      rw [hz p hp, Option.some.injEq] at ha
      linarith
    · exact absurd (alphaAt_lt (hps p hp) hd hx e (hz p hp) ha) (by linarith)

/-- The Nusselt number jumps at the beginning of turbulence: some coefficients are met by no correction, whatever the operating
point. -/
theorem C155_fails_gap (hp : p.Liquid) (hd : 0 < d) (hx : 10 * d ≤ x) :
    ∃ t > 0, ∀ c, deviation A d x ch [{ p with target := t }] c ≠ some 0 := by
  have hP : (1 : ℝ) ≤ Water.Pr p.mean := le_trans (by norm_num) (Water.Pr_ge hp.1 hp.2.1)
  have hk := alphaAt_factor hp hd
  have htr := plate_transition hP hd hx
  have hpos : 0 < plateTurbulentNu 2300 (Water.Pr p.mean) d x := by
    refine lt_of_le_of_lt ?_ htr
    have := plateNu_pos (a := 2300) (by norm_num) hP hd (by linarith : 0 < x)
    unfold plateNu at this
    rw [if_neg (lt_irrefl _)] at this
    exact this.le
  refine ⟨plateTurbulentNu 2300 (Water.Pr p.mean) d x * (wallFactor p.mean p.mean * Water.lam p.mean / d),
    mul_pos hpos hk, fun c h => ?_⟩
  have hL : ∀ q ∈ [({ p with target := plateTurbulentNu 2300 (Water.Pr p.mean) d x *
      (wallFactor p.mean p.mean * Water.lam p.mean / d) } : Point)], q.Liquid := by
    intro q hq
    rw [List.mem_singleton] at hq
    subst hq
    exact ⟨hp.1, hp.2.1, mul_pos hpos hk⟩
  have hz := (C155_zero hL c).2.1 h _ List.mem_cons_self
  obtain ⟨h0, he⟩ := alphaAt_some hz
  have he' := mul_right_cancel₀ hk.ne' he
  change plateTurbulentNu 2300 (Water.Pr p.mean) d x = plateNu (reynolds (p.flow / ch) p.mean A d + c) (Water.Pr p.mean) d x at he'
  change 0 ≤ reynolds (p.flow / ch) p.mean A d + c at h0
  generalize reynolds (p.flow / ch) p.mean A d + c = R at he' h0
  by_cases hR : 2300 < R
  · have := plateNu_lt (by linarith : (0:ℝ) ≤ (2300 + R) / 2) (by linarith : (2300 + R) / 2 < R) hP hd hx
    have h2 : plateTurbulentNu 2300 (Water.Pr p.mean) d x < plateTurbulentNu R (Water.Pr p.mean) d x := by
      rw [plateTurbulentNu_eq, plateTurbulentNu_eq]
      have hx0 : 0 < x := by linarith
      exact mul_lt_mul_of_pos_right (core_lt le_rfl hR hP) (by positivity)
    unfold plateNu at he'
    rw [if_pos hR] at he'
    linarith
  · have h2 : plateNu R (Water.Pr p.mean) d x ≤ plateNu 2300 (Water.Pr p.mean) d x := by
      rcases eq_or_lt_of_le (not_lt.1 hR) with e | e
      · rw [e]
      · exact (plateNu_lt h0 e hP hd hx).le
    rw [← he'] at h2
    unfold plateNu at h2
    rw [if_neg (lt_irrefl _)] at h2
    linarith

/-- A coefficient smaller than without correction is met only by a negative correction, with which the coefficient of a heat
exchanger without flow is not a number. -/
theorem C155_fails_negative (hp : p.Liquid) (hd : 0 < d) (hx : 10 * d ≤ x) {a c : ℝ} (ha : alphaAt A d x ch p 0 = some a)
    (hlt : p.target < a) (h : deviation A d x ch [p] c = some 0) :
    c < 0 ∧ ∀ T Tw, phexAlpha 0 T Tw A d x c = none := by
  have hz := (C155_zero (ps := [p]) (by simpa using hp) c).2.1 h p List.mem_cons_self
  have hc : c < 0 := by
    by_contra hn
    push Not at hn
    rcases eq_or_lt_of_le hn with e | e
    · rw [← e, ha, Option.some.injEq] at hz
      linarith
    · exact absurd (alphaAt_lt hp hd hx e ha hz) (by linarith)
  exact ⟨hc, fun T Tw => C126_fails_correction T Tw A d x hc⟩

/-- Everything which can be assigned has the size of the lengths and of the temperatures, unless these are single numbers. -/
theorem assignable_iff {k n t : ℕ} : assignable k n t = true ↔ (n = 1 ∨ n = k) ∧ (t = 1 ∨ t = k) := by
  unfold assignable broadcast
  by_cases h1 : k = n <;> by_cases h2 : k = 1 <;> by_cases h3 : n = 1 <;> by_cases h4 : t = k <;> by_cases h5 : t = 1 <;>
    by_cases h6 : t = n <;> simp_all <;> omega

/-- **C155** (what can be evaluated): with one length and one mean temperature, as for plate heat exchangers whose temperatures are
given as numbers, every number of operating points can be evaluated. -/
theorem C155_evaluated (lam turb : ℕ) : computable lam turb 1 1 = true := by
  unfold computable
  rw [Bool.and_eq_true, assignable_iff, assignable_iff]
  simp

/-- With one length per cell, as numeric heat exchangers pass them, the function cannot be evaluated for one operating point, nor for any
number of points other than twice the number of cells. -/
theorem C155_fails_numeric {lam turb n t : ℕ} (hn : 2 ≤ n) (h : lam + turb ≠ 2 * n) : computable lam turb n t = false := by
  unfold computable
  by_contra hc
  rw [Bool.not_eq_false, Bool.and_eq_true, assignable_iff, assignable_iff] at hc
  omega

/-- With one temperature per operating point, the function cannot be evaluated for more than one point. -/
theorem C155_fails_temperatures {lam turb n : ℕ} (h : 2 ≤ lam + turb) : computable lam turb n (lam + turb) = false := by
  unfold computable
  by_contra hc
  rw [Bool.not_eq_false, Bool.and_eq_true, assignable_iff, assignable_iff] at hc
  omega

/-- The coefficient of an operating point belongs to the flow which carries the power from the one temperature to the other, spread over
the channels, and to water of the mean of both temperatures. -/
theorem C155_point (h0 : 0 ≤ (p.tIn + p.tOut) / 2) (h1 : (p.tIn + p.tOut) / 2 ≤ 100) (hT : p.tIn ≠ p.tOut) :
    ∃ dm, 0 ≤ dm ∧ dm * Water.cp ((p.tIn + p.tOut) / 2) * |p.tIn - p.tOut| = |p.power| ∧
      ∀ corr, alphaAt A d x ch p corr =
        phexAlpha (dm / ch) ((p.tIn + p.tOut) / 2) ((p.tIn + p.tOut) / 2) A d x corr := by
  have hc : 0 < Water.cp ((p.tIn + p.tOut) / 2) := lt_of_lt_of_le (by norm_num) (Water.cp_ge h0 h1)
  have hd : |p.tIn - p.tOut| ≠ 0 := abs_ne_zero.2 (sub_ne_zero.2 hT)
  refine ⟨p.flow, abs_nonneg _, ?_, fun corr => rfl⟩
  unfold Point.flow Point.mean
  rw [abs_div, abs_mul, abs_of_pos hc]
  field_simp

/-- The hypotheses of `C155_point` can be met. -/
example : ∃ p : Point, 0 ≤ (p.tIn + p.tOut) / 2 ∧ (p.tIn + p.tOut) / 2 ≤ 100 ∧ p.tIn ≠ p.tOut ∧ p.power = 30000 :=
  ⟨⟨60, 40, 30000, 1⟩, by norm_num, by norm_num, by norm_num, rfl⟩

/-! ## Witnesses -/

/-- 30 kW from 60 °C to 40 °C; the target is the coefficient of a Reynolds number of 50. -/
noncomputable def sample : Point :=
  { tIn := 60, tOut := 40, power := 30000
    target := plateNu 50 (Water.Pr 50) 0.004 0.5 * (wallFactor 50 50 * Water.lam 50 / 0.004) }

theorem sample_mean : sample.mean = 50 := by norm_num [sample, Point.mean]

theorem sample_liquid : sample.Liquid := by
  have hP : (1 : ℝ) ≤ Water.Pr 50 := le_trans (by norm_num) (Water.Pr_ge (by norm_num) (by norm_num))
  have hl : 0 < Water.lam (50 : ℝ) := lt_of_lt_of_le (by norm_num) (Water.lam_ge (by norm_num) (by norm_num))
  have hw := wallFactor_pos (T := 50) (Tw := 50) (by norm_num) (by norm_num) (by norm_num) (by norm_num)
  have hN := plateNu_pos (a := 50) (Pr := Water.Pr 50) (d := 0.004) (x := 0.5) (by norm_num) hP (by norm_num) (by norm_num)
  refine ⟨by rw [sample_mean]; norm_num, by rw [sample_mean]; norm_num, ?_⟩
  unfold sample
  positivity

/-- The hypotheses of `C155_unique_partial` can be met: the target is met by the correction which leads to a Reynolds number of 50. -/
example : ∃ c, deviation 0.001 0.004 0.5 10 [sample] c = some 0 := by
  refine ⟨50 - reynolds (sample.flow / 10) sample.mean 0.001 0.004, (C155_zero (by simpa using sample_liquid) _).2.2 ?_⟩
  intro p hp
  rw [List.mem_singleton] at hp
  subst hp
  unfold alphaAt
  rw [phexAlpha_eq (by rw [add_sub_cancel]; norm_num), add_sub_cancel, sample_mean]
  unfold sample
  congr 1
  ring

example : computable 3 0 20 1 = false ∧ computable 2 3 1 5 = false ∧ computable 2 3 1 1 = true := by decide

end Verif.ReCorr
