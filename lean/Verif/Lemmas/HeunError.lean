import Mathlib.Analysis.Calculus.MeanValue
import Mathlib.Analysis.SpecialFunctions.Exp
import Mathlib.Analysis.Calculus.Deriv.Pow
import Mathlib.Tactic.Module

/-!
# The error of a step of Heun's method
-/

namespace Verif.HeunError

open Set

variable {E : Type*} [NormedAddCommGroup E] [NormedSpace ℝ E]

/-- `y` solves `y' = v` on `[0, T]`. -/
def Primitive (T : ℝ) (v y : ℝ → E) : Prop := ∀ t ∈ Icc 0 T, HasDerivWithinAt y (v t) (Icc 0 T) t

variable {T : ℝ} {v y z : ℝ → E}

theorem Primitive.continuousOn (h : Primitive T v y) : ContinuousOn y (Icc 0 T) :=
  fun t ht => (h t ht).continuousWithinAt

theorem Primitive.right (h : Primitive T v y) {t : ℝ} (ht : t ∈ Ico 0 T) : HasDerivWithinAt y (v t) (Ici t) t :=
  (h t (Ico_subset_Icc_self ht)).mono_of_mem_nhdsWithin (Icc_mem_nhdsGE_of_mem ht)

/-- Shift by `a`: `r ↦ y (a + r)`. -/
theorem Primitive.shift (h : Primitive T v y) {a b : ℝ} (ha : 0 ≤ a) (hb : a + b ≤ T) :
    ContinuousOn (fun r => y (a + r)) (Icc 0 b) ∧
      ∀ r ∈ Ico 0 b, HasDerivWithinAt (fun r => y (a + r)) (v (a + r)) (Ici r) r := by
  constructor
  · refine h.continuousOn.comp (by fun_prop) ?_
    intro r hr
    exact ⟨by linarith [hr.1], by linarith [hr.2]⟩
  · intro r hr
    have h1 := h.right (t := a + r) ⟨by linarith [hr.1], by linarith [hr.2]⟩
    have h2 : HasDerivWithinAt (fun r => a + r) 1 (Ici r) r := ((hasDerivAt_id r).const_add a).hasDerivWithinAt
    have := h1.scomp r h2 (fun x hx => by simpa using hx)
    simpa [Function.comp_def] using this

/-- Explicit Euler. -/
theorem euler_error (h : Primitive T v y) {M : ℝ} (hM : ∀ s ∈ Icc 0 T, ∀ t ∈ Icc 0 T, s ≤ t → ‖v t - v s‖ ≤ M * (t - s))
    {a b : ℝ} (ha : 0 ≤ a) (hb : 0 ≤ b) (hab : a + b ≤ T) : ‖y (a + b) - y a - b • v a‖ ≤ M * b ^ 2 / 2 := by
  obtain ⟨h1, h2⟩ := h.shift ha hab
  have key := image_norm_le_of_norm_deriv_right_le_deriv_boundary (a := 0) (b := b)
    (f := fun r => y (a + r) - y a - r • v a) (f' := fun r => v (a + r) - v a)
    (B := fun r => M * r ^ 2 / 2) (B' := fun r => M * r)
    ((h1.sub continuousOn_const).sub (by fun_prop)) ?_ ?_ ?_ ?_ (right_mem_Icc.2 hb)
  · simpa using key
  · intro r hr
    have := ((h2 r hr).sub_const (y a)).sub ((hasDerivAt_id r).smul_const (v a)).hasDerivWithinAt
    rw [one_smul] at this
    exact this
  · simp
  · intro r
    have := ((hasDerivAt_pow 2 r).const_mul M).div_const 2
    refine this.congr_deriv ?_
    push_cast
    ring
  · intro r hr
    have := hM a ⟨ha, by linarith [hr.1, hr.2]⟩ (a + r) ⟨by linarith [hr.1], by linarith [hr.2]⟩ (by linarith [hr.1])
    simpa using this

/-- Trapezoidal rule, rough. -/
theorem trapezoid_rough (h : Primitive T v y) {M : ℝ}
    (hM : ∀ s ∈ Icc 0 T, ∀ t ∈ Icc 0 T, s ≤ t → ‖v t - v s‖ ≤ M * (t - s))
    {a b : ℝ} (ha : 0 ≤ a) (hb : 0 ≤ b) (hab : a + b ≤ T) :
    ‖y (a + b) - y a - (b / 2) • (v a + v (a + b))‖ ≤ M * b ^ 2 := by
  have h1 := euler_error h hM ha hb hab
  have h2 := hM a ⟨ha, by linarith⟩ (a + b) ⟨by linarith, hab⟩ (by linarith)
  have e : y (a + b) - y a - (b / 2) • (v a + v (a + b)) =
      (y (a + b) - y a - b • v a) - (b / 2) • (v (a + b) - v a) := by module
  rw [e]
  refine (norm_sub_le _ _).trans ?_
  rw [norm_smul, Real.norm_eq_abs, abs_of_nonneg (by linarith)]
  have : b / 2 * ‖v (a + b) - v a‖ ≤ b / 2 * (M * (a + b - a)) := mul_le_mul_of_nonneg_left h2 (by linarith)
  linarith

/-- Trapezoidal rule, for a solution with a second derivative `z` that does not change too fast. -/
theorem trapezoid_smooth (h : Primitive T v y) (h' : Primitive T z v) {M : ℝ}
    (hM : ∀ s ∈ Icc 0 T, ∀ t ∈ Icc 0 T, s ≤ t → ‖z t - z s‖ ≤ M * (t - s))
    {a b : ℝ} (ha : 0 ≤ a) (hb : 0 ≤ b) (hab : a + b ≤ T) :
    ‖y (a + b) - y a - (b / 2) • (v a + v (a + b))‖ ≤ M * b ^ 3 / 12 := by
  -- the end point fixed: `‖v (a + r) - v a - r • z (a + r)‖`
  have inner : ∀ r ∈ Icc 0 b, ‖v (a + r) - v a - r • z (a + r)‖ ≤ M * r ^ 2 / 2 := by
    intro r hr
    obtain ⟨h1, h2⟩ := h'.shift (b := r) ha (by linarith [hr.2])
    have key := image_norm_le_of_norm_deriv_right_le_deriv_boundary (a := 0) (b := r)
      (f := fun q => v (a + q) - v a - q • z (a + r)) (f' := fun q => z (a + q) - z (a + r))
      (B := fun q => M * (r * q - q ^ 2 / 2)) (B' := fun q => M * (r - q))
      ((h1.sub continuousOn_const).sub (by fun_prop)) ?_ ?_ ?_ ?_ (right_mem_Icc.2 hr.1)
    · refine key.trans (le_of_eq ?_)
      ring
    · intro q hq
      have := ((h2 q hq).sub_const (v a)).sub ((hasDerivAt_id q).smul_const (z (a + r))).hasDerivWithinAt
      rw [one_smul] at this
      exact this
    · simp
    · intro q
      have := ((((hasDerivAt_id q).const_mul r).sub ((hasDerivAt_pow 2 q).div_const 2)).const_mul M)
      refine this.congr_deriv ?_
      push_cast
      ring
    · intro q hq
      have := hM (a + q) ⟨by linarith [hq.1], by linarith [hq.2, hr.2]⟩ (a + r)
        ⟨by linarith [hr.1], by linarith [hr.2]⟩ (by linarith [hq.2])
      rw [norm_sub_rev]
      simpa using this
  obtain ⟨h1, h2⟩ := h.shift ha hab
  obtain ⟨h3, h4⟩ := h'.shift ha hab
  have key := image_norm_le_of_norm_deriv_right_le_deriv_boundary (a := 0) (b := b)
    (f := fun r => y (a + r) - y a - (r / 2) • (v a + v (a + r)))
    (f' := fun r => v (a + r) - ((r / 2) • z (a + r) + (1 / 2 : ℝ) • (v a + v (a + r))))
    (B := fun r => M * r ^ 3 / 12) (B' := fun r => M * r ^ 2 / 4)
    ((h1.sub continuousOn_const).sub
      ((continuousOn_id.div_const 2).smul (continuousOn_const.add h3))) ?_ ?_ ?_ ?_ (right_mem_Icc.2 hb)
  · simpa using key
  · intro r hr
    have h5 : HasDerivWithinAt (fun r : ℝ => r / 2) (1 / 2) (Ici r) r := ((hasDerivAt_id r).div_const 2).hasDerivWithinAt
    exact ((h2 r hr).sub_const (y a)).sub (h5.smul ((h4 r hr).const_add (v a)))
  · simp
  · intro r
    have := ((hasDerivAt_pow 3 r).const_mul M).div_const 12
    refine this.congr_deriv ?_
    push_cast
    ring
  · intro r hr
    have e : v (a + r) - ((r / 2) • z (a + r) + (1 / 2 : ℝ) • (v a + v (a + r))) =
        (1 / 2 : ℝ) • (v (a + r) - v a - r • z (a + r)) := by module
    rw [e, norm_smul, Real.norm_eq_abs, abs_of_pos (by norm_num : (0 : ℝ) < 1 / 2)]
    have := inner r (Ico_subset_Icc_self hr)
    linarith

variable {F : E → E} {L : ℝ}

/-- How errors pass through a step: a step from `x` with the slopes `p` and `q`, which are those of Heun's method up
to `ε`, against the solution, for which the trapezoidal rule has the error `τ` and Euler's step the error `η`. -/
theorem step_error (hL0 : 0 ≤ L) {h ε τ η : ℝ} (hh : 0 ≤ h) {x p q y₀ y₁ : E}
    (hL : ‖F x - F y₀‖ ≤ L * ‖x - y₀‖) (hL' : ‖F (x + h • p) - F y₁‖ ≤ L * ‖x + h • p - y₁‖) (hp : ‖p - F x‖ ≤ ε) (hq : ‖q - F (x + h • p)‖ ≤ ε)
    (hτ : ‖y₁ - y₀ - (h / 2) • (F y₀ + F y₁)‖ ≤ τ) (hη : ‖y₁ - y₀ - h • F y₀‖ ≤ η) :
    ‖x + (h / 2) • (p + q) - y₁‖ ≤
      (1 + h * (L + h * L ^ 2 / 2)) * ‖x - y₀‖ + (h * ε * (1 + h * L / 2) + τ + h * L / 2 * η) := by
  have e : x + (h / 2) • (p + q) - y₁ = (x - y₀) + ((h / 2) • ((p - F x) + (F x - F y₀)) +
      (h / 2) • ((q - F (x + h • p)) + (F (x + h • p) - F y₁))) - (y₁ - y₀ - (h / 2) • (F y₀ + F y₁)) := by module
  have e2 : x + h • p - y₁ = (x - y₀) + h • ((p - F x) + (F x - F y₀)) - (y₁ - y₀ - h • F y₀) := by module
  have b1 : ‖(p - F x) + (F x - F y₀)‖ ≤ ε + L * ‖x - y₀‖ := (norm_add_le _ _).trans (add_le_add hp hL)
  have b2 : ‖x + h • p - y₁‖ ≤ ‖x - y₀‖ + h * (ε + L * ‖x - y₀‖) + η := by
    rw [e2]
    refine (norm_sub_le _ _).trans (add_le_add ((norm_add_le _ _).trans (add_le_add le_rfl ?_)) hη)
    rw [norm_smul, Real.norm_eq_abs, abs_of_nonneg hh]
    exact mul_le_mul_of_nonneg_left b1 hh
  have b3 : ‖(q - F (x + h • p)) + (F (x + h • p) - F y₁)‖ ≤
      ε + L * (‖x - y₀‖ + h * (ε + L * ‖x - y₀‖) + η) :=
    (norm_add_le _ _).trans (add_le_add hq (hL'.trans (mul_le_mul_of_nonneg_left b2 hL0)))
  have hh2 : 0 ≤ h / 2 := by linarith
  rw [e]
  refine (norm_sub_le _ _).trans ?_
  refine (add_le_add ((norm_add_le _ _).trans (add_le_add le_rfl (norm_add_le _ _))) hτ).trans ?_
  rw [norm_smul, norm_smul, Real.norm_eq_abs, abs_of_nonneg hh2]
  have c1 := mul_le_mul_of_nonneg_left b1 hh2
  have c3 := mul_le_mul_of_nonneg_left b3 hh2
  have : ‖x - y₀‖ + (h / 2 * ‖(p - F x) + (F x - F y₀)‖ + h / 2 * ‖(q - F (x + h • p)) + (F (x + h • p) - F y₁)‖) + τ ≤
      ‖x - y₀‖ + (h / 2 * (ε + L * ‖x - y₀‖) + h / 2 * (ε + L * (‖x - y₀‖ + h * (ε + L * ‖x - y₀‖) + η))) + τ := by
    linarith
  refine this.trans (le_of_eq ?_)
  ring

/-- How errors add up (discrete Gronwall). -/
theorem accumulate {k t h δ e e' : ℝ} (hk : 0 ≤ k) (ht : 0 ≤ t) (hh : 0 ≤ h) (hδ : 0 ≤ δ)
    (he : e ≤ t * Real.exp (k * t) * δ) (he' : e' ≤ (1 + h * k) * e + h * δ) :
    e' ≤ (t + h) * Real.exp (k * (t + h)) * δ := by
  have h1 : 1 + h * k ≤ Real.exp (k * h) := by
    have := Real.add_one_le_exp (k * h)
    linarith
  have h2 : Real.exp (k * (t + h)) = Real.exp (k * t) * Real.exp (k * h) := by rw [← Real.exp_add]; ring_nf
  have h3 : 1 ≤ Real.exp (k * (t + h)) := Real.one_le_exp (by positivity)
  have h4 : (1 + h * k) * e ≤ (1 + h * k) * (t * Real.exp (k * t) * δ) :=
    mul_le_mul_of_nonneg_left he (by positivity)
  have h5 : (1 + h * k) * (t * Real.exp (k * t) * δ) ≤ Real.exp (k * h) * (t * Real.exp (k * t) * δ) :=
    mul_le_mul_of_nonneg_right h1 (by positivity)
  have h6 : h * δ * 1 ≤ h * δ * Real.exp (k * (t + h)) := mul_le_mul_of_nonneg_left h3 (by positivity)
  have h7 : Real.exp (k * h) * (t * Real.exp (k * t) * δ) = t * Real.exp (k * (t + h)) * δ := by rw [h2]; ring
  linarith

end Verif.HeunError
