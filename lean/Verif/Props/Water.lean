import Verif.Lemmas.Water
import Verif.Spec.MaxPrinciple
import Mathlib.Analysis.Calculus.Deriv.MeanValue
import Mathlib.Analysis.Calculus.Deriv.Pow

/-!
# C50: water properties between 0 and 100 degrees
-/

namespace Verif.Water

variable {K : Type*} [Field K] [LinearOrder K] [IsStrictOrderedRing K]

/-- **C50**: between 0 and 100 degrees density, heat capacity, conductivity, kinematic viscosity and Prandtl
number are positive and within (slightly rounded) tabulated bounds of liquid water. -/
theorem C50_water_bounds {T : K} (h0 : 0 ≤ T) (h1 : T ≤ 100) :
    (958 ≤ rho T ∧ rho T ≤ 1000) ∧ (4177 ≤ cp T ∧ cp T ≤ 4219) ∧ (0.569 ≤ lam T ∧ lam T ≤ 0.681) ∧
    (3e-7 ≤ ny T ∧ ny T ≤ 1.8e-6) ∧ (1.5 ≤ Pr T ∧ Pr T ≤ 12.6) := by
  refine ⟨⟨rho_ge h0 h1, rho_le h0 h1⟩, ⟨cp_ge h0 h1, cp_le h0 h1⟩, ⟨?_, ?_⟩, ⟨?_, ?_⟩, ⟨?_, ?_⟩⟩
  · have := lam_ge h0 h1; norm_num at this ⊢; exact this
  · have := lam_le h0 h1; norm_num at this ⊢; exact this
  · have := ny_ge h0 h1; norm_num at this ⊢; exact this
  · have := ny_le h0 h1; norm_num at this ⊢; exact this
  · have := Pr_ge h0 h1; norm_num at this ⊢; exact this
  · have := Pr_le h0 h1; norm_num at this ⊢; exact this

example : (0 : ℚ) ≤ 60 ∧ (60 : ℚ) ≤ 100 := by norm_num

/-- Outside the fitted range the polynomials are not physical: the code does not clip temperatures, and at
400 degrees the conductivity is negative. -/
theorem C50_fails_outside_range : lam (400 : ℚ) < 0 ∧ rho (400 : ℚ) < 0 := by
  constructor <;> norm_num [lam, rho]

/-- Derivative of the enthalpy `cp T * T`. -/
def dEnth (T : ℝ) : ℝ :=
  4215.4023574179992 - 2 * 2.8853943283519348 * T + 3 * 7.490580684801168e-02 * T ^ 2 - 4 * 7.7807143441700321e-04 * T ^ 3
    + 5 * 3.2109328970410432e-06 * T ^ 4

theorem hasDerivAt_enth (T : ℝ) : HasDerivAt (fun T : ℝ => cp T * T) (dEnth T) T := by
  have h2 := hasDerivAt_pow 2 T
  have h3 := hasDerivAt_pow 3 T
  have h4 := hasDerivAt_pow 4 T
  have h1 := hasDerivAt_id T
  have h := ((((hasDerivAt_const T (4215.4023574179992 : ℝ)).sub (h1.const_mul 2.8853943283519348)).add
    (h2.const_mul 7.490580684801168e-02)).sub (h3.const_mul 7.7807143441700321e-04)).add
    (h4.const_mul 3.2109328970410432e-06)
  have h' := h.mul h1
  refine h'.congr_deriv ?_
  simp only [Pi.add_apply, Pi.sub_apply, id]
  unfold dEnth
  norm_num
  ring

theorem dEnth_ge {T : ℝ} (h0 : 0 ≤ T) (h1 : T ≤ 100) : 4167 ≤ dEnth T := by
  rcases le_total T (25 / 2) with hT | hT
  · have e : dEnth T - 4167 =
      (60502946772499 / 30517578125000000) * ((T - 0) ^ 0 * ((25 / 2) - T) ^ 4) +
      (12147457146319843 / 2441406250000000000) * ((T - 0) ^ 1 * ((25 / 2) - T) ^ 3) +
      (21824333368321113 / 4882812500000000000) * ((T - 0) ^ 2 * ((25 / 2) - T) ^ 2) +
      (529284683318141471 / 312500000000000000000) * ((T - 0) ^ 3 * ((25 / 2) - T) ^ 1) +
      (72868770175767013 / 312500000000000000000) * ((T - 0) ^ 4 * ((25 / 2) - T) ^ 0) := by unfold dEnth; ring
    have a1 : 0 ≤ T - 0 := by linarith
    have a2 : 0 ≤ (25 / 2) - T := by linarith
    have : 0 ≤ dEnth T - 4167 := by rw [e]; positivity
    linarith
  · rcases le_total T (75 / 4) with hT | hT
    · have e : dEnth T - 4167 =
      (72868770175767013 / 19531250000000000000) * ((T - (25 / 2)) ^ 0 * ((75 / 4) - T) ^ 4) +
      (69028111758212537 / 7812500000000000000) * ((T - (25 / 2)) ^ 1 * ((75 / 4) - T) ^ 3) +
      (113621755040139339 / 15625000000000000000) * ((T - (25 / 2)) ^ 2 * ((75 / 4) - T) ^ 2) +
      (16192409123975407 / 6250000000000000000) * ((T - (25 / 2)) ^ 3 * ((75 / 4) - T) ^ 1) +
      (8589161597739967 / 19531250000000000000) * ((T - (25 / 2)) ^ 4 * ((75 / 4) - T) ^ 0) := by unfold dEnth; ring
      have a1 : 0 ≤ T - (25 / 2) := by linarith
      have a2 : 0 ≤ (75 / 4) - T := by linarith
      have : 0 ≤ dEnth T - 4167 := by rw [e]; positivity
      linarith
    · rcases le_total T 25 with hT | hT
      · have e : dEnth T - 4167 =
      (8589161597739967 / 19531250000000000000) * ((T - (75 / 4)) ^ 0 * (25 - T) ^ 4) +
      (144896114155972713 / 156250000000000000000) * ((T - (75 / 4)) ^ 1 * (25 - T) ^ 3) +
      (89118802142789001 / 39062500000000000000) * ((T - (75 / 4)) ^ 2 * (25 - T) ^ 2) +
      (31588162391883267 / 9765625000000000000) * ((T - (75 / 4)) ^ 3 * (25 - T) ^ 1) +
      (711333601246383 / 488281250000000000) * ((T - (75 / 4)) ^ 4 * (25 - T) ^ 0) := by unfold dEnth; ring
        have a1 : 0 ≤ T - (75 / 4) := by linarith
        have a2 : 0 ≤ 25 - T := by linarith
        have : 0 ≤ dEnth T - 4167 := by rw [e]; positivity
        linarith
      · rcases le_total T 50 with hT | hT
        · have e : dEnth T - 4167 =
      (711333601246383 / 125000000000000000000) * ((T - 25) ^ 0 * (50 - T) ^ 4) +
      (39545197732755033 / 625000000000000000000) * ((T - 25) ^ 1 * (50 - T) ^ 3) +
      (74398283599663623 / 312500000000000000000) * ((T - 25) ^ 2 * (50 - T) ^ 2) +
      (38878432749157443 / 156250000000000000000) * ((T - 25) ^ 3 * (50 - T) ^ 1) +
      (6592482353384863 / 78125000000000000000) * ((T - 25) ^ 4 * (50 - T) ^ 0) := by unfold dEnth; ring
          have a1 : 0 ≤ T - 25 := by linarith
          have a2 : 0 ≤ 50 - T := by linarith
          have : 0 ≤ dEnth T - 4167 := by rw [e]; positivity
          linarith
        · have e : dEnth T - 4167 =
      (6592482353384863 / 1250000000000000000000) * ((T - 50) ^ 0 * (100 - T) ^ 4) +
      (40231355491460913 / 1250000000000000000000) * ((T - 50) ^ 1 * (100 - T) ^ 3) +
      (40243217970014619 / 625000000000000000000) * ((T - 50) ^ 2 * (100 - T) ^ 2) +
      (17278728450885237 / 312500000000000000000) * ((T - 50) ^ 3 * (100 - T) ^ 1) +
      (1058392040202357 / 31250000000000000000) * ((T - 50) ^ 4 * (100 - T) ^ 0) := by unfold dEnth; ring
          have a1 : 0 ≤ T - 50 := by linarith
          have a2 : 0 ≤ 100 - T := by linarith
          have : 0 ≤ dEnth T - 4167 := by rw [e]; positivity
          linarith

theorem dEnth_le {T : ℝ} (h0 : 0 ≤ T) (h1 : T ≤ 100) : dEnth T ≤ 4379 := by
  have e : 4379 - dEnth T =
      (204497053227501 / 125000000000000000000) * ((T - 0) ^ 0 * (100 - T) ^ 4) +
      (15393367949979877 / 1250000000000000000000) * ((T - 0) ^ 1 * (100 - T) ^ 3) +
      (5820603088285191 / 1250000000000000000000) * ((T - 0) ^ 2 * (100 - T) ^ 2) +
      (25089112353161903 / 2500000000000000000000) * ((T - 0) ^ 3 * (100 - T) ^ 1) +
      (1607959797643 / 500000000000000000000) * ((T - 0) ^ 4 * (100 - T) ^ 0) := by unfold dEnth; ring
  have a1 : 0 ≤ T - 0 := by linarith
  have a2 : 0 ≤ 100 - T := by linarith
  have : 0 ≤ 4379 - dEnth T := by rw [e]; positivity
  linarith


/-- **C50** (enthalpy): the enthalpy `cp T * T` that the code transports grows with the temperature, by
between 4167 and 4379 J/kg per degree.  With C24 this bounds the admissible step of parts filled with
water. -/
theorem C50_enthalpy_slope {a b : ℝ} (h0 : 0 ≤ a) (hab : a ≤ b) (h1 : b ≤ 100) :
    4167 * (b - a) ≤ cp b * b - cp a * a ∧ cp b * b - cp a * a ≤ 4379 * (b - a) := by
  have hc : Convex ℝ (Set.Icc a b) := convex_Icc a b
  have hcont : ContinuousOn (fun T : ℝ => cp T * T) (Set.Icc a b) := fun x _ =>
    (hasDerivAt_enth x).continuousAt.continuousWithinAt
  have hdiff : DifferentiableOn ℝ (fun T : ℝ => cp T * T) (interior (Set.Icc a b)) := fun x _ =>
    (hasDerivAt_enth x).differentiableAt.differentiableWithinAt
  have hmem : ∀ x ∈ interior (Set.Icc a b), 0 ≤ x ∧ x ≤ 100 := by
    intro x hx
    have := interior_subset hx
    exact ⟨h0.trans this.1, this.2.trans h1⟩
  refine ⟨?_, ?_⟩
  · refine hc.mul_sub_le_image_sub_of_le_deriv hcont hdiff ?_ a ?_ b ?_ hab
    · intro x hx
      rw [(hasDerivAt_enth x).deriv]
      exact dEnth_ge (hmem x hx).1 (hmem x hx).2
    · exact Set.left_mem_Icc.2 hab
    · exact Set.right_mem_Icc.2 hab
  · refine hc.image_sub_le_mul_sub_of_deriv_le hcont hdiff ?_ a ?_ b ?_ hab
    · intro x hx
      rw [(hasDerivAt_enth x).deriv]
      exact dEnth_le (hmem x hx).1 (hmem x hx).2
    · exact Set.left_mem_Icc.2 hab
    · exact Set.right_mem_Icc.2 hab

/-- Between 20 and 90 degrees. -/
example : 4167 * (90 - 20) ≤ cp (90 : ℝ) * 90 - cp 20 * 20 :=
  (C50_enthalpy_slope (by norm_num) (by norm_num) (by norm_num)).1

/-- **C50** (enthalpy): the enthalpy grows with the temperature, also outside the range of the fit. -/
theorem enth_strictMono : StrictMono fun T : ℝ => cp T * T := by
  refine strictMono_of_deriv_pos fun T => ?_
  rw [(hasDerivAt_enth T).deriv]
  unfold dEnth
  nlinarith [sq_nonneg (T ^ 2 * 1 - 97 * T), sq_nonneg (T - 20), sq_nonneg T, sq_nonneg (T ^ 2)]

/-- Water as a material. -/
noncomputable def water : Cells.Mat ℝ := ⟨cp, rho, lam⟩

/-- Water fulfils the hypothesis of C24 for every range of temperatures between 0 and 100 degrees. -/
theorem C50_water_enthalpySlope {m M : ℝ} (hm : 0 ≤ m) (hM : M ≤ 100) :
    Cells.EnthalpySlope water m M 4379 := by
  intro a b h1 h2 h3
  have := C50_enthalpy_slope (hm.trans h1) h2 (h3.trans hM)
  refine ⟨le_trans ?_ this.1, this.2⟩
  exact mul_nonneg (by norm_num) (sub_nonneg.2 h2)

end Verif.Water
