import Verif.Model.FlowAlpha
import Verif.Lemmas.Water
import Verif.Props.Conductance
import Mathlib.Analysis.SpecialFunctions.Log.Base
import Mathlib.Analysis.Complex.ExponentialBounds
import Mathlib.Tactic.Linarith
import Mathlib.Tactic.Positivity
import Mathlib.Tactic.FieldSimp
import Mathlib.Tactic.Ring
import Mathlib.Tactic.NormNum

/-!
# Monotonicity of the Nusselt correlations
-/

namespace Verif.FlowAlpha

open Verif.Conductance

/-- The base of the friction factor. -/
noncomputable def base (Re : ℝ) : ℝ := 1.8 * Real.logb 10 Re - 1.5

theorem friction_eq (Re : ℝ) : friction Re = (base Re ^ 2)⁻¹ := rfl

theorem base_ge {Re : ℝ} (h : 2300 ≤ Re) : 3.9 ≤ base Re := by
  have h1 : (3 : ℝ) ≤ Real.logb 10 Re := by
    rw [Real.le_logb_iff_rpow_le (by norm_num) (by linarith)]
    norm_num
    linarith
  unfold base
  linarith

theorem base_lt {a b : ℝ} (ha : 2300 ≤ a) (h : a < b) : base a < base b := by
  have := (Real.logb_lt_logb_iff (b := 10) (by norm_num) (show (0 : ℝ) < a by linarith)
    (show (0 : ℝ) < b by linarith)).2 h
  unfold base
  linarith

/-- `base` grows more slowly than the square root. -/
theorem base_sq_lt {a b : ℝ} (ha : 2300 ≤ a) (h : a < b) : base b ^ 2 * a < base a ^ 2 * b := by
  have ha0 : (0 : ℝ) < a := by linarith
  have hb0 : (0 : ℝ) < b := by linarith
  have hL := base_ge ha
  have hr : 0 < Real.log (b / a) := Real.log_pos (by rw [lt_div_iff₀ ha0]; linarith)
  have h10 : 1 < Real.log 10 := by
    rw [Real.lt_log_iff_exp_lt (by norm_num)]
    have := Real.exp_one_lt_d9
    linarith
  have hd : base b = base a + 1.8 * (Real.log (b / a) / Real.log 10) := by
    unfold base Real.logb
    rw [Real.log_div hb0.ne' ha0.ne']
    ring
  have hq : Real.log (b / a) / Real.log 10 ≤ Real.log (b / a) := div_le_self hr.le h10.le
  have h1 : base b ≤ base a * (1 + Real.log (b / a) / 2) := by
    rw [hd]
    nlinarith
  have h2 : 1 + Real.log (b / a) / 2 < Real.exp (Real.log (b / a) / 2) := by
    have := Real.add_one_lt_exp (x := Real.log (b / a) / 2) (by linarith)
    linarith
  have h3 : Real.exp (Real.log (b / a) / 2) ^ 2 = b / a := by
    rw [← Real.exp_nat_mul]
    have : ((2 : ℕ) : ℝ) * (Real.log (b / a) / 2) = Real.log (b / a) := by push_cast; ring
    rw [this, Real.exp_log (by positivity)]
  have h4 : base b < base a * Real.exp (Real.log (b / a) / 2) :=
    lt_of_le_of_lt h1 (mul_lt_mul_of_pos_left h2 (by linarith))
  have h0b : 0 ≤ base b := by
    have := base_ge (le_trans ha h.le)
    linarith
  have h5 : base b ^ 2 < (base a * Real.exp (Real.log (b / a) / 2)) ^ 2 :=
    pow_lt_pow_left₀ h4 h0b (by norm_num)
  rw [mul_pow, h3] at h5
  calc base b ^ 2 * a < base a ^ 2 * (b / a) * a := mul_lt_mul_of_pos_right h5 ha0
    _ = base a ^ 2 * b := by field_simp

theorem friction_pos' {a : ℝ} (ha : 2300 ≤ a) : 0 < friction a := by
  have := base_ge ha
  rw [friction_eq]
  positivity

theorem friction_lt {a b : ℝ} (ha : 2300 ≤ a) (h : a < b) : friction b < friction a := by
  have h1 := base_ge ha
  have h2 := base_lt ha h
  rw [friction_eq, friction_eq]
  apply inv_strictAnti₀ (by positivity)
  exact pow_lt_pow_left₀ h2 (by linarith) (by norm_num)

theorem friction_mul_lt {a b : ℝ} (ha : 2300 ≤ a) (h : a < b) : friction a * a < friction b * b := by
  have h1 : 0 < base a := by linarith [base_ge ha]
  have h2 : 0 < base b := by linarith [base_ge (le_trans ha h.le)]
  have h3 := base_sq_lt ha h
  rw [friction_eq, friction_eq, inv_mul_eq_div, inv_mul_eq_div, div_lt_div_iff₀ (by positivity) (by positivity)]
  linarith

/-- The part of the turbulent Nusselt number without the factor for the inlet. -/
noncomputable def core (Re Pr : ℝ) : ℝ :=
  friction Re / 8 * (Re * Pr) / (1 + 12.7 * (Pr ^ ((2 : ℝ) / 3) - 1) * (friction Re / 8) ^ (0.5 : ℝ))

theorem turbulentNu_eq (Re Pr d x : ℝ) : turbulentNu Re Pr d x = core Re Pr * (1 + (d / x) ^ ((2 : ℝ) / 3) / 3) := rfl

theorem plateTurbulentNu_eq (Re Pr d x : ℝ) :
    plateTurbulentNu Re Pr d x = core Re Pr * (1 + (d / x) ^ ((2 : ℝ) / 3)) := rfl

theorem core_den_pos {Re Pr : ℝ} (h : 2300 ≤ Re) (hP : 1 ≤ Pr) :
    0 < 1 + 12.7 * (Pr ^ ((2 : ℝ) / 3) - 1) * (friction Re / 8) ^ (0.5 : ℝ) := by
  have hp : 1 ≤ Pr ^ ((2 : ℝ) / 3) := Real.one_le_rpow hP (by norm_num)
  have hf := friction_pos' h
  have hq : 0 ≤ (friction Re / 8) ^ (0.5 : ℝ) := by positivity
  have : 0 ≤ 12.7 * (Pr ^ ((2 : ℝ) / 3) - 1) * (friction Re / 8) ^ (0.5 : ℝ) :=
    mul_nonneg (mul_nonneg (by norm_num) (by linarith)) hq
  linarith

theorem core_pos {Re Pr : ℝ} (h : 2300 ≤ Re) (hP : 1 ≤ Pr) : 0 < core Re Pr := by
  have hf := friction_pos' h
  have h3 : 0 < Re := by linarith
  have h4 : 0 < Pr := by linarith
  have := core_den_pos h hP
  unfold core
  positivity

theorem core_lt {a b Pr : ℝ} (ha : 2300 ≤ a) (h : a < b) (hP : 1 ≤ Pr) : core a Pr < core b Pr := by
  have hp : 1 ≤ Pr ^ ((2 : ℝ) / 3) := Real.one_le_rpow hP (by norm_num)
  have hfa := friction_pos' ha
  have hfb := friction_pos' (le_trans ha h.le)
  have hf := friction_lt ha h
  have hm := friction_mul_lt ha h
  have hda := core_den_pos ha hP
  have hdb := core_den_pos (le_trans ha h.le) hP
  have hsq : (friction b / 8) ^ (0.5 : ℝ) ≤ (friction a / 8) ^ (0.5 : ℝ) :=
    Real.rpow_le_rpow (by positivity) (by linarith) (by norm_num)
  have hden : 1 + 12.7 * (Pr ^ ((2 : ℝ) / 3) - 1) * (friction b / 8) ^ (0.5 : ℝ)
      ≤ 1 + 12.7 * (Pr ^ ((2 : ℝ) / 3) - 1) * (friction a / 8) ^ (0.5 : ℝ) := by
    have := mul_le_mul_of_nonneg_left hsq (show 0 ≤ 12.7 * (Pr ^ ((2 : ℝ) / 3) - 1) by linarith)
    linarith
  have hnum : friction a / 8 * (a * Pr) < friction b / 8 * (b * Pr) := by
    have := mul_lt_mul_of_pos_right hm (show (0 : ℝ) < Pr by linarith)
    nlinarith
  unfold core
  have ha0 : (0 : ℝ) < a := by linarith
  have hb0 : (0 : ℝ) < b := by linarith
  have hP0 : (0 : ℝ) < Pr := by linarith
  exact div_lt_div₀ hnum hden (by positivity) hdb

/-! ### Numbers at the transition -/

theorem logb_2300 : (3.36 : ℝ) ≤ Real.logb 10 2300 ∧ Real.logb 10 2300 ≤ 3.37 := by
  constructor
  · rw [Real.le_logb_iff_rpow_le (by norm_num) (by norm_num)]
    have h : ((10 : ℝ) ^ (3.36 : ℝ)) ^ (25 : ℕ) ≤ 2300 ^ 25 := by
      rw [← Real.rpow_natCast, ← Real.rpow_mul (by norm_num)]
      norm_num
    exact le_of_pow_le_pow_left₀ (by norm_num) (by norm_num) h
  · rw [Real.logb_le_iff_le_rpow (by norm_num) (by norm_num)]
    have h : (2300 : ℝ) ^ 11 ≤ ((10 : ℝ) ^ ((37 : ℝ) / 11)) ^ (11 : ℕ) := by
      rw [← Real.rpow_natCast ((10 : ℝ) ^ ((37 : ℝ) / 11)), ← Real.rpow_mul (by norm_num)]
      norm_num
    exact le_trans (le_of_pow_le_pow_left₀ (by norm_num) (by positivity) h)
      (Real.rpow_le_rpow_of_exponent_le (by norm_num) (by norm_num))

theorem friction_2300 : (0.005995 : ℝ) ≤ friction 2300 / 8 ∧ friction 2300 / 8 ≤ 0.00605 := by
  obtain ⟨h1, h2⟩ := logb_2300
  have b1 : (4.548 : ℝ) ≤ base 2300 := by unfold base; linarith
  have b2 : base 2300 ≤ 4.566 := by unfold base; linarith
  have b0 : 0 < base 2300 := by linarith
  rw [friction_eq, inv_eq_one_div, div_div]
  constructor
  · rw [le_div_iff₀ (by positivity)]
    nlinarith
  · rw [div_le_iff₀ (by positivity)]
    nlinarith

/-- Third root of the Prandtl number. -/
theorem cube_root {Pr : ℝ} (hP : 1 ≤ Pr) :
    1 ≤ Pr ^ ((1 : ℝ) / 3) ∧ (Pr ^ ((1 : ℝ) / 3)) ^ 3 = Pr ∧ (Pr ^ ((1 : ℝ) / 3)) ^ 2 = Pr ^ ((2 : ℝ) / 3) := by
  have h0 : 0 ≤ Pr := by linarith
  refine ⟨Real.one_le_rpow hP (by norm_num), ?_, ?_⟩
  · rw [← Real.rpow_natCast, ← Real.rpow_mul h0]; norm_num
  · rw [← Real.rpow_natCast, ← Real.rpow_mul h0]; norm_num

theorem core_2300_ge {Pr : ℝ} (hP : 1 ≤ Pr) : 13.78 * Pr ^ ((1 : ℝ) / 3) ≤ core 2300 Pr := by
  obtain ⟨s1, s3, s2⟩ := cube_root hP
  obtain ⟨f1, f2⟩ := friction_2300
  have hd := core_den_pos (le_refl (2300 : ℝ)) hP
  unfold core
  rw [← s2] at *
  generalize hs : Pr ^ ((1 : ℝ) / 3) = s at *
  rw [← s3]
  have hq : (friction 2300 / 8) ^ (0.5 : ℝ) ≤ 1 / 12.7 := by
    have e : (0.5 : ℝ) = 1 / 2 := by norm_num
    rw [e, ← Real.sqrt_eq_rpow, Real.sqrt_le_left (by norm_num)]
    refine le_trans f2 (by norm_num)
  have hden : 1 + 12.7 * (s ^ 2 - 1) * (friction 2300 / 8) ^ (0.5 : ℝ) ≤ s ^ 2 := by
    have : 12.7 * (s ^ 2 - 1) * (friction 2300 / 8) ^ (0.5 : ℝ) ≤ 12.7 * (s ^ 2 - 1) * (1 / 12.7) :=
      mul_le_mul_of_nonneg_left hq (by nlinarith)
    have e : 12.7 * (s ^ 2 - 1) * (1 / 12.7) = s ^ 2 - 1 := by ring
    linarith
  rw [le_div_iff₀ hd]
  have h0 : 0 ≤ 13.78 * s := by linarith
  calc 13.78 * s * (1 + 12.7 * (s ^ 2 - 1) * (friction 2300 / 8) ^ (0.5 : ℝ))
      ≤ 13.78 * s * s ^ 2 := mul_le_mul_of_nonneg_left hden h0
    _ = 13.78 * s ^ 3 := by ring
    _ ≤ friction 2300 / 8 * (2300 * s ^ 3) := by
      have : (0 : ℝ) ≤ s ^ 3 := by positivity
      nlinarith

end Verif.FlowAlpha
