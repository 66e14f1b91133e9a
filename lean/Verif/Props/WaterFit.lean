import Verif.Model.Water
import Verif.Model.Buoyancy
import Verif.Lemmas.PolyPos
import Mathlib.Tactic.NormNum

/-!
# C164: the properties of water change with the temperature as they should and fit together
-/

namespace Verif.Water

open Verif.PolyPos Verif.Buoyancy

/-- Coefficients of the polynomials. -/
def rhoC : List ℚ := [999.88785713136213, 4.9604454990529602e-02, -7.4722666453460717e-03, 4.1094484438154484e-05,
  -1.2915789546323614e-07]
def lamC : List ℚ := [5.6987912853229539e-01, 1.7878370402545738e-03, -5.9998217273879795e-06, -8.6964577115093407e-09]
def cpC : List ℚ := [4215.4023574179992, -2.8853943283519348, 7.490580684801168e-02, -7.7807143441700321e-04,
  3.2109328970410432e-06]
def nyC : List ℚ := [1.7764473380494155e-06, -5.5640275781265404e-08, 1.0243072887494426e-09, -9.7954460136981165e-12,
  3.6460468745062724e-14]
def PrC : List ℚ := [12.5780108199379058, -0.35124680571767508, 4.3225480444706085e-03, -1.9174193923188898e-05]
def betaC : List ℚ := [-5.87985364766666e-05, 1.5641955219950547e-05, -1.3587684743777981e-07, 6.1220503308149086e-10]

theorem ev_rhoC (T : ℝ) : ev rhoC T = rho T := by
  simp only [rhoC, ev_cons, ev_nil, rho]; push_cast; ring
theorem ev_lamC (T : ℝ) : ev lamC T = lam T := by
  simp only [lamC, ev_cons, ev_nil, lam]; push_cast; ring
theorem ev_cpC (T : ℝ) : ev cpC T = cp T := by
  simp only [cpC, ev_cons, ev_nil, cp]; push_cast; ring
theorem ev_nyC (T : ℝ) : ev nyC T = ny T := by
  simp only [nyC, ev_cons, ev_nil, ny]; push_cast; ring
theorem ev_PrC (T : ℝ) : ev PrC T = Pr T := by
  simp only [PrC, ev_cons, ev_nil, Pr]; push_cast; ring
theorem ev_betaC (T : ℝ) : ev betaC T = beta T := by
  simp only [betaC, ev_cons, ev_nil, beta]; push_cast; ring

/-- **C164, density.** Warmer water is lighter from 4 degrees on, and heavier below 3 degrees. -/
theorem C164_rho_falls {a b : ℝ} (h0 : 4 ≤ a) (hab : a < b) (h1 : b ≤ 100) : rho b < rho a := by
  have h := lt_of_check (c := smul (-1) rhoC) (a := 4) (pts := [100]) (by decide +kernel) (by simp)
    (by push_cast; exact h0) hab (by simpa using h1)
  rw [ev_smul, ev_smul, ev_rhoC, ev_rhoC] at h
  push_cast at h
  linarith

theorem C164_rho_rises {a b : ℝ} (h0 : 0 ≤ a) (hab : a < b) (h1 : b ≤ 3) : rho a < rho b := by
  have h := lt_of_check (c := rhoC) (a := 0) (pts := [3]) (by decide +kernel) (by simp)
    (by push_cast; exact h0) hab (by simpa using h1)
  rwa [ev_rhoC, ev_rhoC] at h

/-- **C164, conductivity.** Warmer water conducts heat better. -/
theorem C164_lam_rises {a b : ℝ} (h0 : 0 ≤ a) (hab : a < b) (h1 : b ≤ 100) : lam a < lam b := by
  have h := lt_of_check (c := lamC) (a := 0) (pts := [100]) (by decide +kernel) (by simp)
    (by push_cast; exact h0) hab (by simpa using h1)
  rwa [ev_lamC, ev_lamC] at h

/-- **C164, viscosity.** Warmer water is less viscous up to 96 degrees; above 98 degrees see `C164_fails_viscosity`. -/
theorem C164_ny_falls_partial {a b : ℝ} (h0 : 0 ≤ a) (hab : a < b) (h1 : b ≤ 96) : ny b < ny a := by
  have h := lt_of_check (c := smul (-1) nyC) (a := 0) (pts := [24, 48, 72, 96]) (by decide +kernel) (by simp)
    (by push_cast; exact h0) hab (by simpa using h1)
  rw [ev_smul, ev_smul, ev_nyC, ev_nyC] at h
  push_cast at h
  linarith

/-- **C164 is false of the code near 100 degrees**: from 98 degrees on the viscosity rises with the temperature. -/
theorem C164_fails_viscosity {a b : ℝ} (h0 : 98 ≤ a) (hab : a < b) (h1 : b ≤ 100) : ny a < ny b := by
  have h := lt_of_check (c := nyC) (a := 98) (pts := [100]) (by decide +kernel) (by simp)
    (by push_cast; exact h0) hab (by simpa using h1)
  rwa [ev_nyC, ev_nyC] at h

/-- **C164, Prandtl number.** It falls with the temperature. -/
theorem C164_Pr_falls {a b : ℝ} (h0 : 0 ≤ a) (hab : a < b) (h1 : b ≤ 100) : Pr b < Pr a := by
  have h := lt_of_check (c := smul (-1) PrC) (a := 0) (pts := [25, 50, 125 / 2, 75, 100]) (by decide +kernel) (by simp)
    (by push_cast; exact h0) hab (by simpa using h1)
  rw [ev_smul, ev_smul, ev_PrC, ev_PrC] at h
  push_cast at h
  linarith

/-- **C164, expansion.** The expansion coefficient is positive from 4 degrees on and rises with the temperature. -/
theorem C164_beta {a b : ℝ} (h0 : 4 ≤ a) (hab : a < b) (h1 : b ≤ 100) : 0 < beta a ∧ beta a < beta b := by
  rw [← ev_betaC, ← ev_betaC]
  exact ⟨pos_of_check (c := betaC) (a := 4) (pts := [100]) (by decide +kernel) (by simp) (by push_cast; exact h0)
      (by simp; linarith),
    lt_of_check (c := betaC) (a := 0) (pts := [50, 100]) (by decide +kernel) (by simp) (by push_cast; linarith) hab
      (by simpa using h1)⟩

/-- **C164, Prandtl number and the other properties.** Up to 96 degrees the Prandtl number is, within eight percent,
viscosity times density times heat capacity divided by conductivity. -/
theorem C164_Pr_fits_partial {T : ℝ} (h0 : 0 ≤ T) (h1 : T ≤ 96) :
    0.92 * (ny T * (rho T * cp T)) < Pr T * lam T ∧ Pr T * lam T < 1.08 * (ny T * (rho T * cp T)) := by
  have hlo := pos_of_check (c := add (mul PrC lamC) (smul (-0.92) (mul nyC (mul rhoC cpC)))) (a := 0)
    (pts := [12, 24, 36, 48, 60, 84, 96]) (by decide +kernel) (by simp) (x := T) (by push_cast; exact h0)
    (by simpa using h1)
  have hhi := pos_of_check (c := add (smul 1.08 (mul nyC (mul rhoC cpC))) (smul (-1) (mul PrC lamC))) (a := 0)
    (pts := [6, 12, 24, 48, 72, 78, 81, 84, 90, 96]) (by decide +kernel) (by simp) (x := T) (by push_cast; exact h0)
    (by simpa using h1)
  rw [ev_add, ev_smul, ev_mul, ev_mul, ev_mul, ev_PrC, ev_lamC, ev_nyC, ev_rhoC, ev_cpC] at hlo
  rw [ev_add, ev_smul, ev_smul, ev_mul, ev_mul, ev_mul, ev_PrC, ev_lamC, ev_nyC, ev_rhoC, ev_cpC] at hhi
  push_cast at hlo hhi
  constructor <;> linarith

/-- **C164 is false of the code at 100 degrees**: the Prandtl number is more than 17 percent too small. -/
theorem C164_fails_Pr : Pr (100 : ℝ) * lam 100 < 0.83 * (ny (100 : ℝ) * (rho 100 * cp 100)) := by
  norm_num [Pr, lam, ny, rho, cp]

/-- **C164, expansion and density.** From 15 degrees on the expansion coefficient is, within two percent, the relative
decrease of the density per kelvin. -/
theorem C164_beta_fits_partial {T : ℝ} (h0 : 15 ≤ T) (h1 : T ≤ 100) :
    0.98 * (-deriv (rho : ℝ → ℝ) T / rho T) < beta T ∧ beta T < 1.02 * (-deriv (rho : ℝ → ℝ) T / rho T) := by
  have hd : deriv (rho : ℝ → ℝ) T = ev (diff rhoC) T := by
    have : (rho : ℝ → ℝ) = ev rhoC := funext fun x => (ev_rhoC x).symm
    rw [this]
    exact (hasDerivAt_ev rhoC T).deriv
  have hr : 0 < rho T := by
    rw [← ev_rhoC]
    exact pos_of_check (c := rhoC) (a := 15) (pts := [100]) (by decide +kernel) (by simp) (by push_cast; exact h0)
      (by simpa using h1)
  have hlo := pos_of_check (c := add (mul betaC rhoC) (smul 0.98 (diff rhoC))) (a := 15) (pts := [115 / 2, 100])
    (by decide +kernel) (by simp) (x := T) (by push_cast; exact h0) (by simpa using h1)
  have hhi := pos_of_check (c := add (smul (-1.02) (diff rhoC)) (smul (-1) (mul betaC rhoC))) (a := 15)
    (pts := [145 / 4, 315 / 4, 100]) (by decide +kernel) (by simp) (x := T) (by push_cast; exact h0) (by simpa using h1)
  rw [ev_add, ev_smul, ev_mul, ev_betaC, ev_rhoC] at hlo
  rw [ev_add, ev_smul, ev_smul, ev_mul, ev_betaC, ev_rhoC] at hhi
  push_cast at hlo hhi
  rw [hd]
  constructor
  · rw [← mul_div_assoc, div_lt_iff₀ hr]
    linarith
  · rw [← mul_div_assoc, lt_div_iff₀ hr]
    linarith

/-- **C164 is false of the code around 3.6 degrees**: water gets lighter with the temperature although its expansion
coefficient is negative. -/
theorem C164_fails_sign {a b : ℝ} (h0 : 3.5 ≤ a) (hab : a < b) (h1 : b ≤ 3.8) :
    rho b < rho a ∧ beta a < 0 ∧ beta b < 0 := by
  have h := lt_of_check (c := smul (-1) rhoC) (a := 3.5) (pts := [3.8]) (by decide +kernel) (by simp)
    (x := a) (y := b) (by push_cast; exact h0) hab (by simp only [List.getLast_singleton]; push_cast; exact h1)
  rw [ev_smul, ev_smul, ev_rhoC, ev_rhoC] at h
  push_cast at h
  have hb : ∀ x : ℝ, 3.5 ≤ x → x ≤ 3.8 → beta x < 0 := by
    intro x hx0 hx1
    have := pos_of_check (c := smul (-1) betaC) (a := 3.5) (pts := [3.8]) (by decide +kernel) (by simp)
      (x := x) (by push_cast; exact hx0) (by simp only [List.getLast_singleton]; push_cast; exact hx1)
    rw [ev_smul, ev_betaC] at this
    push_cast at this
    linarith
  exact ⟨by linarith, hb a h0 (by linarith), hb b (by linarith) h1⟩

example : rho (60 : ℝ) < rho 20 := C164_rho_falls (by norm_num) (by norm_num) (by norm_num)
example : rho (0 : ℝ) < rho 3 := C164_rho_rises (by norm_num) (by norm_num) (by norm_num)
example : lam (20 : ℝ) < lam 60 := C164_lam_rises (by norm_num) (by norm_num) (by norm_num)
example : ny (60 : ℝ) < ny 20 := C164_ny_falls_partial (by norm_num) (by norm_num) (by norm_num)
example : ny (98 : ℝ) < ny 100 := C164_fails_viscosity (by norm_num) (by norm_num) (by norm_num)
example : Pr (60 : ℝ) < Pr 20 := C164_Pr_falls (by norm_num) (by norm_num) (by norm_num)
example : beta (20 : ℝ) < beta 60 := (C164_beta (by norm_num) (by norm_num) (by norm_num)).2
example : 0.92 * (ny (60 : ℝ) * (rho 60 * cp 60)) < Pr 60 * lam 60 := (C164_Pr_fits_partial (by norm_num) (by norm_num)).1
example : 0.98 * (-deriv (rho : ℝ → ℝ) 60 / rho 60) < beta 60 := (C164_beta_fits_partial (by norm_num) (by norm_num)).1
example : rho (3.7 : ℝ) < rho 3.6 := (C164_fails_sign (by norm_num) (by norm_num) (by norm_num)).1

end Verif.Water
