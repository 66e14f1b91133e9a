import Verif.Model.Air
import Verif.Lemmas.PolyPos
import Mathlib.Tactic.NormNum
import Mathlib.Tactic.LinearCombination

/-!
# C163: properties of air are physical
-/

namespace Verif.Air

open Verif.PolyPos Verif.Conductance

/-- Coefficients of the saturation pressure. -/
def pC : List ℚ := [5.99770272e02, 4.55277840e01, 1.42489091, 2.51824584e-02, 3.19028425e-04, 2.32760367e-06, 1.56927617e-09]

/-- Coefficients of the water content. -/
def wC : List ℚ := [3.79413965e-03, 2.98380899e-04, 8.16034548e-06, 8.79652019e-08, 6.62755505e-09, 1.29052920e-10,
  -7.11474217e-12, 2.06252891e-14, 3.68271647e-15, -6.50956001e-17, 3.47491188e-19]

theorem ev_pC (T : ℝ) : ev pC T = satPressure T := by
  simp only [pC, ev_cons, ev_nil, satPressure]
  push_cast
  ring

theorem ev_wC (T : ℝ) : ev wC T = satWater T := by
  simp only [wC, ev_cons, ev_nil, satWater]
  push_cast
  ring

/-- **C163, saturation pressure.** It is positive and rises with the temperature. -/
theorem C163_pressure {a b : ℝ} (h0 : -30 ≤ a) (hab : a < b) (h1 : b ≤ 100) :
    0 < satPressure a ∧ satPressure a < satPressure b := by
  rw [← ev_pC, ← ev_pC]
  refine ⟨pos_of_check (c := pC) (a := -30) (pts := [100]) (by decide +kernel) (by simp) (by push_cast; linarith) ?_,
    lt_of_check (c := pC) (a := -30) (pts := [100]) (by decide +kernel) (by simp) (by push_cast; linarith) hab ?_⟩
  · simp only [List.getLast_singleton]; push_cast; linarith
  · simp only [List.getLast_singleton]; push_cast; linarith

/-- **C163, water content.** It is positive in the whole range of the docstring. -/
theorem C163_water_pos {T : ℝ} (h0 : -30 ≤ T) (h1 : T ≤ 80) : 0 < satWater T := by
  rw [← ev_wC]
  refine pos_of_check (c := wC) (a := -30) (pts := [-905/32, -795/32, -575/32, -135/32, 745/32, 2505/32, 80])
    (by decide +kernel) (by simp) (by push_cast; linarith) ?_
  simp; linarith

/-- **C163, warmer air holds more water** above -28 degrees; from -30 to -28 see `C163_fails_cold`. -/
theorem C163_water_rises_partial {a b : ℝ} (h0 : -28 ≤ a) (hab : a < b) (h1 : b ≤ 80) : satWater a < satWater b := by
  rw [← ev_wC, ← ev_wC]
  refine lt_of_check (c := wC) (a := -28) (pts := [-197/8, -85/4, -29/2, -1, 26, 80]) (by decide +kernel) (by simp)
    (by push_cast; linarith) hab ?_
  simp; linarith

/-- **C163 is false of the code at the cold end of the documented range**: between -30 and -29 degrees the water
content falls with the temperature. -/
theorem C163_fails_cold {a b : ℝ} (h0 : -30 ≤ a) (hab : a < b) (h1 : b ≤ -29) : satWater b < satWater a := by
  have h := lt_of_check (c := smul (-1) wC) (a := -30) (pts := [-29]) (by decide +kernel) (by simp)
    (x := a) (y := b) (by push_cast; linarith) hab (by simp; linarith)
  rw [ev_smul, ev_smul, ev_wC, ev_wC] at h
  push_cast at h
  linarith

/-- Specification: water content of saturated air at 0.1 MPa by Dalton's law; 0.62198 is the ratio of the molar masses. -/
noncomputable def dalton (p : ℝ) : ℝ := 0.62198 * p / (100000 - p)

/-- Coefficients of `satWater * (100000 - satPressure)`. -/
def prodC : List ℚ := mul wC (add [100000] (smul (-1) pC))

theorem ev_prodC (T : ℝ) : ev prodC T = satWater T * (100000 - satPressure T) := by
  rw [prodC, ev_mul, ev_add, ev_smul, ev_wC, ev_pC]
  simp only [ev_cons, ev_nil]
  push_cast
  ring

/-- **C163, the two functions agree**: from 0 to 80 degrees the water content is the one that belongs to the saturation
pressure, up to two percent. -/
theorem C163_agree_partial {T : ℝ} (h0 : 0 ≤ T) (h1 : T ≤ 80) :
    0.98 * dalton (satPressure T) < satWater T ∧ satWater T < 1.02 * dalton (satPressure T) := by
  have hp : satPressure T < 100000 := by
    have h := pos_of_check (c := add [100000] (smul (-1) pC)) (a := 0) (pts := [80]) (by decide +kernel) (by simp)
      (x := T) (by push_cast; linarith) (by simp; linarith)
    rw [ev_add, ev_smul, ev_pC] at h
    simp only [ev_cons, ev_nil] at h
    push_cast at h
    linarith
  have hlo := pos_of_check (c := add prodC (smul (-0.98 * 0.62198) pC)) (a := 0) (pts := [10, 30, 50, 65, 80])
    (by decide +kernel) (by simp) (x := T) (by push_cast; linarith) (by simp; linarith)
  have hhi := pos_of_check (c := add (smul (1.02 * 0.62198) pC) (smul (-1) prodC)) (a := 0)
    (pts := [5, 15, 35, 55, 80]) (by decide +kernel) (by simp) (x := T) (by push_cast; linarith) (by simp; linarith)
  rw [ev_add, ev_smul, ev_prodC, ev_pC] at hlo
  rw [ev_add, ev_smul, ev_smul, ev_prodC, ev_pC] at hhi
  push_cast at hlo hhi
  have hd : 0 < 100000 - satPressure T := by linarith
  unfold dalton
  constructor
  · rw [← mul_div_assoc, div_lt_iff₀ hd]
    linarith
  · rw [← mul_div_assoc, lt_div_iff₀ hd]
    linarith

/-- **C163 is false of the code at the cold end**: at -30 degrees the two functions differ by more than a quarter. -/
theorem C163_fails_agree : 1.25 * dalton (satPressure (-30)) < satWater (-30) := by
  norm_num [dalton, satPressure, satWater]

/-- **C163, dry air.** Warmer air is lighter, conducts heat better and is more viscous. -/
theorem C163_dry {a b : ℝ} (h0 : -100 ≤ a) (hab : a < b) (h1 : b ≤ 160) :
    0 < rhoAir b ∧ rhoAir b < rhoAir a ∧ 0 < lamAir a ∧ lamAir a < lamAir b ∧ 0 < nyAir a ∧ nyAir a < nyAir b := by
  unfold rhoAir lamAir nyAir
  have hm : 0 < (b - a) * (320 - (a + b)) := mul_pos (by linarith) (by linarith)
  have hs : 0 < (b - a) * (a + b + 200) := mul_pos (by linarith) (by linarith)
  refine ⟨?_, ?_, ?_, ?_, ?_, ?_⟩
  · nlinarith [sq_nonneg (b - 160)]
  · nlinarith
  · nlinarith [mul_nonneg (sub_nonneg.2 h0) (show 0 ≤ 160 - a by linarith)]
  · nlinarith
  · nlinarith [sq_nonneg (a + 100)]
  · nlinarith

/-- **C163, density.** It is the density of an ideal gas at 0.1 MPa, up to one percent. -/
theorem C163_ideal_gas {T : ℝ} (h0 : -40 ≤ T) (h1 : T ≤ 85) :
    |rhoAir T * (287.05 * (T + 273.15)) - 100000| < 1000 := by
  have e : ∀ T : ℝ, ev (mul [1.2767987012987012, -0.0046968614718614701, 1.4296536796536256e-05] [287.05 * 273.15, 287.05]) T
      = rhoAir T * (287.05 * (T + 273.15)) := by
    intro T
    rw [ev_mul]
    simp only [ev_cons, ev_nil, rhoAir]
    push_cast
    ring
  rw [abs_lt]
  constructor
  · have h := pos_of_check (c := add (mul [1.2767987012987012, -0.0046968614718614701, 1.4296536796536256e-05]
      [287.05 * 273.15, 287.05]) [-99000]) (a := -40) (pts := [0, 40, 85]) (by decide +kernel) (by simp)
      (x := T) (by push_cast; linarith) (by simp; linarith)
    rw [ev_add, e] at h
    simp only [ev_cons, ev_nil] at h
    push_cast at h
    linarith
  · have h := pos_of_check (c := add (smul (-1) (mul [1.2767987012987012, -0.0046968614718614701, 1.4296536796536256e-05]
      [287.05 * 273.15, 287.05])) [101000]) (a := -40) (pts := [-20, 0, 40, 60, 75, 85]) (by decide +kernel) (by simp)
      (x := T) (by push_cast; linarith) (by simp; linarith)
    rw [ev_add, ev_smul, e] at h
    simp only [ev_cons, ev_nil] at h
    push_cast at h
    linarith

example : satWater 20 < satWater 30 := C163_water_rises_partial (by norm_num) (by norm_num) (by norm_num)
example : satPressure 20 < satPressure 30 := (C163_pressure (by norm_num) (by norm_num) (by norm_num)).2
example : satWater (-29.5) < satWater (-30) := C163_fails_cold (by norm_num) (by norm_num) (by norm_num)
example : 0 < satWater 50 := C163_water_pos (by norm_num) (by norm_num)
example : rhoAir 60 < rhoAir 20 := (C163_dry (by norm_num) (by norm_num) (by norm_num)).2.1
example : satWater 50 < 1.02 * dalton (satPressure 50) := (C163_agree_partial (by norm_num) (by norm_num)).2
example : |rhoAir 20 * (287.05 * (20 + 273.15)) - 100000| < 1000 := C163_ideal_gas (by norm_num) (by norm_num)

end Verif.Air
