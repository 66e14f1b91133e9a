import Verif.Props.Conductance
import Mathlib.Tactic.NormNum

/-!
# A hotter surface loses more heat to the air around it (C128)
-/

namespace Verif.HotSurface

open Verif.Conductance

/-- Heat flow per area from a surface at `Ts` to the air at `Tinf` for the heat transfer coefficient `α`. -/
def flux (α Ts Tinf : ℝ) : ℝ := α * (Ts - Tinf)

/-- What the correlations for the Nusselt number have in common. -/
structure Corr (F : ℝ → ℝ) : Prop where
  mono : ∀ x y, 0 ≤ x → x ≤ y → F x ≤ F y
  pos : ∀ x, 0 < x → 0 < F x
  mild : ∀ x r, 0 ≤ x → 1 ≤ r → F x ≤ Real.sqrt r * F (x / r)

theorem Corr.nonneg {F : ℝ → ℝ} (h : Corr F) {x : ℝ} (hx : 0 ≤ x) : 0 ≤ F x := by
  have h1 := h.mild x 4 hx (by norm_num)
  have h2 : Real.sqrt 4 = 2 := by
    rw [show (4 : ℝ) = 2 ^ 2 by norm_num]
    exact Real.sqrt_sq (by norm_num)
  have h3 := h.mono (x / 4) x (by positivity) (by linarith)
  rw [h2] at h1
  linarith

/-- Heat flow per area with the correlation `F`, as a function of the temperature of the surface. -/
noncomputable def q (F : ℝ → ℝ) (k L Tinf Ts : ℝ) : ℝ :=
  flux (F (k * |Ts - Tinf| / nyAir ((Tinf + Ts) / 2) ^ 2) * lamAir ((Tinf + Ts) / 2) / L) Ts Tinf

theorem rpow_scale {x r p : ℝ} (hx : 0 ≤ x) (hr : 1 ≤ r) (hp : p ≤ 1 / 2) :
    x ^ p ≤ Real.sqrt r * (x / r) ^ p := by
  have hr0 : 0 < r := by linarith
  rw [Real.div_rpow hx hr0.le, Real.sqrt_eq_rpow]
  have h1 : r ^ p ≤ r ^ ((1 : ℝ) / 2) := Real.rpow_le_rpow_of_exponent_le hr hp
  have h2 : 0 < r ^ p := by positivity
  have h3 : 0 ≤ x ^ p := by positivity
  rw [mul_div_assoc', le_div_iff₀ h2]
  nlinarith

/-- Powers with an exponent up to one half. -/
theorem corr_power {c p : ℝ} (hc : 0 < c) (h0 : 0 < p) (h1 : p ≤ 1 / 2) : Corr (fun x => c * x ^ p) where
  mono x y hx hxy := mul_le_mul_of_nonneg_left (Real.rpow_le_rpow hx hxy h0.le) hc.le
  pos x hx := by positivity
  mild x r hx hr := by
    have := mul_le_mul_of_nonneg_left (rpow_scale hx hr h1) hc.le
    linarith

/-- The form `(a + b x ^ (1 / 6)) ^ 2 + c`. -/
theorem corr_churchill {a b c : ℝ} (ha : 0 < a) (hb : 0 < b) (hc : 0 ≤ c) :
    Corr (fun x => (a + b * x ^ ((1 : ℝ) / 6)) ^ 2 + c) where
  mono x y hx hxy := by
    have h1 : x ^ ((1 : ℝ) / 6) ≤ y ^ ((1 : ℝ) / 6) := Real.rpow_le_rpow hx hxy (by norm_num)
    have h2 : 0 ≤ x ^ ((1 : ℝ) / 6) := by positivity
    have : (a + b * x ^ ((1 : ℝ) / 6)) ^ 2 ≤ (a + b * y ^ ((1 : ℝ) / 6)) ^ 2 := by gcongr
    linarith
  pos x hx := by positivity
  mild x r hx hr := by
    have hr0 : 0 < r := by linarith
    set s := r ^ ((1 : ℝ) / 4) with hs
    have s1 : 1 ≤ s := Real.one_le_rpow hr (by norm_num)
    have s2 : Real.sqrt r = s ^ 2 := by
      rw [Real.sqrt_eq_rpow, hs, ← Real.rpow_natCast, ← Real.rpow_mul hr0.le]
      norm_num
    have h1 : x ^ ((1 : ℝ) / 6) ≤ s * (x / r) ^ ((1 : ℝ) / 6) := by
      rw [Real.div_rpow hx hr0.le]
      have h1 : r ^ ((1 : ℝ) / 6) ≤ s := Real.rpow_le_rpow_of_exponent_le hr (by norm_num)
      have h2 : 0 < r ^ ((1 : ℝ) / 6) := by positivity
      have h3 : 0 ≤ x ^ ((1 : ℝ) / 6) := by positivity
      rw [mul_div_assoc', le_div_iff₀ h2]
      nlinarith
    have h0 : 0 ≤ x ^ ((1 : ℝ) / 6) := by positivity
    rw [s2]
    generalize x ^ ((1 : ℝ) / 6) = y at *
    generalize (x / r) ^ ((1 : ℝ) / 6) = z at *
    have h2 : a + b * y ≤ s * (a + b * z) := by nlinarith [mul_le_mul_of_nonneg_left h1 hb.le]
    have h3 : (a + b * y) ^ 2 ≤ (s * (a + b * z)) ^ 2 := pow_le_pow_left₀ (by positivity) h2 2
    have h4 : c ≤ s ^ 2 * c := le_mul_of_one_le_left hc (by nlinarith)
    calc (a + b * y) ^ 2 + c ≤ (s * (a + b * z)) ^ 2 + s ^ 2 * c := by linarith
      _ = s ^ 2 * ((a + b * z) ^ 2 + c) := by ring

section
variable {F : ℝ → ℝ} {k L Tinf : ℝ}

theorem nyAir_lt {a b : ℝ} (ha : -100 ≤ a) (h : a < b) : nyAir a < nyAir b := by
  unfold nyAir
  nlinarith

theorem lamAir_lt {a b : ℝ} (hb : b ≤ 200) (h : a < b) : lamAir a < lamAir b := by
  unfold lamAir
  nlinarith

theorem q_pos (hF : Corr F) (hk : 0 < k) (hL : 0 < L) (i0 : -100 ≤ Tinf) {T : ℝ} (h : Tinf < T)
    (h2 : T ≤ 200) : 0 < q F k L Tinf T := by
  unfold q flux
  have hn := nyAir_pos (T := (Tinf + T) / 2) (by linarith)
  have hl := lamAir_pos (T := (Tinf + T) / 2) (by linarith) (by linarith)
  have : 0 < F (k * |T - Tinf| / nyAir ((Tinf + T) / 2) ^ 2) := by
    apply hF.pos
    have : 0 < |T - Tinf| := abs_pos.2 (by linarith)
    positivity
  have h3 : 0 < T - Tinf := by linarith
  positivity

theorem q_neg (hF : Corr F) (hk : 0 < k) (hL : 0 < L) (i1 : Tinf ≤ 200) {T : ℝ} (h : T < Tinf)
    (h2 : -100 ≤ T) : q F k L Tinf T < 0 := by
  unfold q flux
  have hn := nyAir_pos (T := (Tinf + T) / 2) (by linarith)
  have hl := lamAir_pos (T := (Tinf + T) / 2) (by linarith) (by linarith)
  have : 0 < F (k * |T - Tinf| / nyAir ((Tinf + T) / 2) ^ 2) := by
    apply hF.pos
    have : 0 < |T - Tinf| := abs_pos.2 (by linarith)
    positivity
  exact mul_neg_of_pos_of_neg (by positivity) (by linarith)

theorem q_lt_hot (hF : Corr F) (hk : 0 < k) (hL : 0 < L) (i0 : -100 ≤ Tinf) {a b : ℝ} (ha : Tinf < a)
    (hab : a < b) (hb : b ≤ 200) : q F k L Tinf a < q F k L Tinf b := by
  have na := nyAir_pos (T := (Tinf + a) / 2) (by linarith)
  have nb := nyAir_pos (T := (Tinf + b) / 2) (by linarith)
  have la := lamAir_pos (T := (Tinf + a) / 2) (by linarith) (by linarith)
  have lb := lamAir_lt (a := (Tinf + a) / 2) (b := (Tinf + b) / 2) (by linarith) (by linarith)
  have key : nyAir ((Tinf + b) / 2) * (a - Tinf) ≤ nyAir ((Tinf + a) / 2) * (b - Tinf) := by
    have e : nyAir ((Tinf + a) / 2) * (b - Tinf) - nyAir ((Tinf + b) / 2) * (a - Tinf)
        = (b - a) * (nyAir Tinf - 1.0974025974025443e-10 / 4 * ((a - Tinf) * (b - Tinf))) := by
      unfold nyAir
      ring
    have h1 : (a - Tinf) * (b - Tinf) ≤ 300 * 300 := by
      apply mul_le_mul <;> linarith
    have h2 : (4e-6 : ℝ) ≤ nyAir Tinf := by
      unfold nyAir
      nlinarith [sq_nonneg (Tinf + 100)]
    have h3 : 0 ≤ (b - a) * (nyAir Tinf - 1.0974025974025443e-10 / 4 * ((a - Tinf) * (b - Tinf))) :=
      mul_nonneg (by linarith) (by nlinarith)
    linarith
  unfold q flux
  rw [abs_of_pos (show 0 < a - Tinf by linarith), abs_of_pos (show 0 < b - Tinf by linarith)]
  have hA : 0 < a - Tinf := by linarith
  have hB : a - Tinf < b - Tinf := by linarith
  generalize a - Tinf = A at *
  generalize b - Tinf = B at *
  generalize nyAir ((Tinf + a) / 2) = m at *
  generalize nyAir ((Tinf + b) / 2) = n at *
  generalize lamAir ((Tinf + a) / 2) = l at *
  generalize lamAir ((Tinf + b) / 2) = l' at *
  have hB0 : 0 < B := hA.trans hB
  have hr : 1 ≤ B / A := (one_le_div hA).2 hB.le
  have hsr : 1 ≤ Real.sqrt (B / A) := Real.one_le_sqrt.2 hr
  have hx : 0 ≤ k * A / m ^ 2 := by positivity
  have h1 := hF.mild _ _ hx hr
  have h2 : k * A / m ^ 2 / (B / A) ≤ k * B / n ^ 2 := by
    have hs : (n * A) ^ 2 ≤ (m * B) ^ 2 := pow_le_pow_left₀ (by positivity) key 2
    rw [div_div, div_le_div_iff₀ (by positivity) (by positivity)]
    have : k * B * (m ^ 2 * (B / A)) = k / A * (m * B) ^ 2 := by field_simp
    rw [this]
    calc k * A * n ^ 2 = k / A * (n * A) ^ 2 := by field_simp
      _ ≤ k / A * (m * B) ^ 2 := by gcongr
  have h3 := hF.mono _ _ (by positivity) h2
  have hFa : 0 < F (k * A / m ^ 2) := hF.pos _ (by positivity)
  have hFb : 0 < F (k * B / n ^ 2) := hF.pos _ (by positivity)
  have h4 : F (k * A / m ^ 2) ≤ Real.sqrt (B / A) * F (k * B / n ^ 2) :=
    h1.trans (mul_le_mul_of_nonneg_left h3 (by linarith))
  have h5 : Real.sqrt (B / A) * A ≤ B := by
    have : Real.sqrt (B / A) ≤ B / A := by
      have hsq : Real.sqrt (B / A) * Real.sqrt (B / A) = B / A := Real.mul_self_sqrt (by positivity)
      nlinarith
    calc Real.sqrt (B / A) * A ≤ B / A * A := mul_le_mul_of_nonneg_right this hA.le
      _ = B := by field_simp
  have h6 : F (k * A / m ^ 2) * A ≤ F (k * B / n ^ 2) * B := by nlinarith
  calc F (k * A / m ^ 2) * l / L * A = F (k * A / m ^ 2) * A * l / L := by ring
    _ ≤ F (k * B / n ^ 2) * B * l / L := by gcongr
    _ < F (k * B / n ^ 2) * B * l' / L := by gcongr
    _ = F (k * B / n ^ 2) * l' / L * B := by ring

theorem q_lt_cold (hF : Corr F) (hk : 0 < k) (hL : 0 < L) (i1 : Tinf ≤ 200) {a b : ℝ} (ha : -100 ≤ a)
    (hab : a < b) (hb : b < Tinf) : q F k L Tinf a < q F k L Tinf b := by
  have na := nyAir_pos (T := (Tinf + a) / 2) (by linarith)
  have nb := nyAir_pos (T := (Tinf + b) / 2) (by linarith)
  have nab := nyAir_lt (a := (Tinf + a) / 2) (b := (Tinf + b) / 2) (by linarith) (by linarith)
  have la := lamAir_pos (T := (Tinf + a) / 2) (by linarith) (by linarith)
  have lb := lamAir_pos (T := (Tinf + b) / 2) (by linarith) (by linarith)
  have key : lamAir ((Tinf + b) / 2) * (Tinf - b) < lamAir ((Tinf + a) / 2) * (Tinf - a) := by
    have e : lamAir ((Tinf + a) / 2) * (Tinf - a) - lamAir ((Tinf + b) / 2) * (Tinf - b)
        = (b - a) * (lamAir Tinf - (7.6533982683982561e-05 - 2 * 4.2099567099572201e-08 * Tinf) * ((Tinf - a) + (Tinf - b)) / 2
          - 4.2099567099572201e-08 / 4 * ((Tinf - a) ^ 2 + (Tinf - a) * (Tinf - b) + (Tinf - b) ^ 2)) := by
      unfold lamAir
      ring
    have i0 : -100 ≤ Tinf := by linarith
    have hD : 0 < Tinf - b := by linarith
    have hE : Tinf - b < Tinf - a := by linarith
    have hE3 : Tinf - a ≤ Tinf + 100 := by linarith
    generalize Tinf - a = E at *
    generalize Tinf - b = D at *
    have hsq : E ^ 2 + E * D + D ^ 2 ≤ 3 * (Tinf + 100) ^ 2 := by nlinarith
    have hlin : (7.6533982683982561e-05 - 2 * 4.2099567099572201e-08 * Tinf) * (E + D) / 2
        ≤ (7.6533982683982561e-05 - 2 * 4.2099567099572201e-08 * Tinf) * (Tinf + 100) := by
      have : 0 ≤ 7.6533982683982561e-05 - 2 * 4.2099567099572201e-08 * Tinf := by linarith
      nlinarith
    have hpos : 0 < lamAir Tinf - (7.6533982683982561e-05 - 2 * 4.2099567099572201e-08 * Tinf) * (E + D) / 2
        - 4.2099567099572201e-08 / 4 * (E ^ 2 + E * D + D ^ 2) := by
      have : 0 < lamAir Tinf - (7.6533982683982561e-05 - 2 * 4.2099567099572201e-08 * Tinf) * (Tinf + 100)
          - 4.2099567099572201e-08 / 4 * (3 * (Tinf + 100) ^ 2) := by
        unfold lamAir
        nlinarith
      linarith
    have := mul_pos (show 0 < b - a by linarith) hpos
    linarith
  unfold q flux
  rw [abs_of_neg (show a - Tinf < 0 by linarith), abs_of_neg (show b - Tinf < 0 by linarith)]
  have hA : 0 < Tinf - b := by linarith
  have hB : Tinf - b < Tinf - a := by linarith
  have e1 : -(a - Tinf) = Tinf - a := by ring
  have e2 : -(b - Tinf) = Tinf - b := by ring
  have e3 : a - Tinf = -(Tinf - a) := by ring
  have e4 : b - Tinf = -(Tinf - b) := by ring
  rw [e1, e2, e3, e4]
  generalize Tinf - a = B at *
  generalize Tinf - b = A at *
  generalize nyAir ((Tinf + a) / 2) = m at *
  generalize nyAir ((Tinf + b) / 2) = n at *
  generalize lamAir ((Tinf + a) / 2) = l at *
  generalize lamAir ((Tinf + b) / 2) = l' at *
  have hB0 : 0 < B := hA.trans hB
  have h2 : k * A / n ^ 2 ≤ k * B / m ^ 2 := by gcongr
  have h3 := hF.mono _ _ (by positivity) h2
  have hFb : 0 < F (k * B / m ^ 2) := hF.pos _ (by positivity)
  have h4 : F (k * A / n ^ 2) * (l' * A) / L < F (k * B / m ^ 2) * (l * B) / L := by
    apply div_lt_div_of_pos_right _ hL
    calc F (k * A / n ^ 2) * (l' * A) ≤ F (k * B / m ^ 2) * (l' * A) := by gcongr
      _ < F (k * B / m ^ 2) * (l * B) := by gcongr
  have e5 : F (k * B / m ^ 2) * l / L * -B = -(F (k * B / m ^ 2) * (l * B) / L) := by ring
  have e6 : F (k * A / n ^ 2) * l' / L * -A = -(F (k * A / n ^ 2) * (l' * A) / L) := by ring
  rw [e5, e6]
  linarith

theorem q_self : q F k L Tinf Tinf = 0 := by simp [q, flux]

theorem q_lt (hF : Corr F) (hk : 0 < k) (hL : 0 < L) (i0 : -100 ≤ Tinf) (i1 : Tinf ≤ 200) {a b : ℝ}
    (ha : -100 ≤ a) (hab : a < b) (hb : b ≤ 200) : q F k L Tinf a < q F k L Tinf b := by
  rcases lt_trichotomy b Tinf with h | h | h
  · exact q_lt_cold hF hk hL i1 ha hab h
  · subst h
    rw [q_self]
    exact q_neg hF hk hL i1 hab ha
  · rcases lt_trichotomy a Tinf with h' | h' | h'
    · exact (q_neg hF hk hL i1 h' ha).trans (q_pos hF hk hL i0 h hb)
    · subst h'
      rw [q_self]
      exact q_pos hF hk hL i0 h hb
    · exact q_lt_hot hF hk hL i0 h' hab hb

end

/-- The coefficients of the code in the common form. -/
theorem flux_cylinder (Ts Tinf L : ℝ) (vertical : Bool) (r : ℝ) :
    flux (cylinderAlphaInf Ts Tinf L vertical r) Ts Tinf =
      q (fun x => (cond vertical 0.825 0.752 + 0.387 * x ^ ((1 : ℝ) / 6)) ^ 2 + cond vertical (0.435 * L / (2 * r)) 0)
        (9.81 * L ^ 3 * 0.708 / (Tinf + 273.15) * cond vertical 0.3466023585520853 0.3269207911296459) L Tinf Ts := by
  unfold q cylinderAlphaInf rayleigh
  have e : ∀ n f : ℝ, |Ts - Tinf| * 9.81 * L ^ 3 * 0.708 / ((Tinf + 273.15) * n ^ 2) * f
      = 9.81 * L ^ 3 * 0.708 / (Tinf + 273.15) * f * |Ts - Tinf| / n ^ 2 := by
    intro n f
    rw [← div_div]
    ring
  cases vertical
  · simp only [Bool.false_eq_true, if_false, cond_false, add_zero, e]
  · simp only [if_true, cond_true, e]

theorem flux_vertical (Ts Tinf L : ℝ) (top : Bool) :
    flux (planeAlphaInf Ts Tinf L true top) Ts Tinf =
      q (fun x => (0.825 + 0.387 * x ^ ((1 : ℝ) / 6)) ^ 2 + 0)
        (9.81 * L ^ 3 * 0.708 / (Tinf + 273.15) * 0.3466023585520853) L Tinf Ts := by
  unfold q planeAlphaInf vertPlaneAlphaInf rayleigh
  have e : ∀ n f : ℝ, |Ts - Tinf| * 9.81 * L ^ 3 * 0.708 / ((Tinf + 273.15) * n ^ 2) * f
      = 9.81 * L ^ 3 * 0.708 / (Tinf + 273.15) * f * |Ts - Tinf| / n ^ 2 := by
    intro n f
    rw [← div_div]
    ring
  simp only [if_true, add_zero, e]

/-- **C128** (cylinders and vertical planes): a hotter surface loses strictly more heat per area to the ambient
(or takes up less), whether it is hotter or colder than the ambient. -/
theorem C128_cylinder {Tinf L r a b : ℝ} (vertical top : Bool) (hL : 0 < L) (hr : 0 < r) (i0 : -100 ≤ Tinf)
    (i1 : Tinf ≤ 200) (ha : -100 ≤ a) (hab : a < b) (hb : b ≤ 200) :
    flux (cylinderAlphaInf a Tinf L vertical r) a Tinf < flux (cylinderAlphaInf b Tinf L vertical r) b Tinf ∧
    flux (planeAlphaInf a Tinf L true top) a Tinf < flux (planeAlphaInf b Tinf L true top) b Tinf := by
  have hK : 0 < Tinf + 273.15 := by linarith
  rw [flux_cylinder, flux_cylinder, flux_vertical, flux_vertical]
  constructor
  · refine q_lt (corr_churchill ?_ (by norm_num) ?_) ?_ hL i0 i1 ha hab hb
    · cases vertical <;> norm_num
    · cases vertical
      · exact le_refl _
      · simp only [cond_true]; positivity
    · cases vertical <;> simp only [cond_true, cond_false] <;> positivity
  · exact q_lt (corr_churchill (by norm_num) (by norm_num) le_rfl) (by positivity) hL i0 i1 ha hab hb

example : flux (cylinderAlphaInf 30 20 0.1 false 0.05) 30 20 < flux (cylinderAlphaInf 40 20 0.1 false 0.05) 40 20 :=
  (C128_cylinder false true (by norm_num) (by norm_num) (by norm_num) (by norm_num) (by norm_num) (by norm_num)
    (by norm_num)).1

/-! ### Horizontal planes -/

/-- The quantity at which the correlation of horizontal planes changes. -/
noncomputable def xPlane (Ts Tinf L : ℝ) : ℝ := rayleigh Ts Tinf (nyAir ((Tinf + Ts) / 2)) L * 0.40306002707296223

/-- The surface loses heat upwards or takes it up downwards. -/
def Outward (top : Bool) (Ts Tinf : ℝ) : Prop := (top = true ∧ Tinf ≤ Ts) ∨ (top = false ∧ Ts < Tinf)

theorem outward_iff (top : Bool) (Ts Tinf : ℝ) : outward top Ts Tinf = true ↔ Outward top Ts Tinf := by
  unfold outward Outward
  cases top <;> simp

open Classical in
theorem flux_horizontal (Ts Tinf L : ℝ) (top : Bool) :
    flux (planeAlphaInf Ts Tinf L false top) Ts Tinf =
      flux ((if Outward top Ts Tinf then
          (if xPlane Ts Tinf L ≤ 7e4 then 0.766 * xPlane Ts Tinf L ^ ((1 : ℝ) / 5)
            else 0.15 * xPlane Ts Tinf L ^ ((1 : ℝ) / 3))
        else 0.6 * (rayleigh Ts Tinf (nyAir ((Tinf + Ts) / 2)) L * 0.3466023585520853) ^ ((1 : ℝ) / 5))
        * lamAir ((Tinf + Ts) / 2) / L) Ts Tinf := by
  unfold planeAlphaInf horPlaneAlphaInf horPlaneNu xPlane
  by_cases h : Outward top Ts Tinf
  · rw [if_pos h, (outward_iff _ _ _).2 h]
    rfl
  · rw [if_neg h, show outward top Ts Tinf = false by
      rw [← Bool.not_eq_true]; exact fun hh => h ((outward_iff _ _ _).1 hh)]
    rfl

theorem ray_eq (Ts Tinf n L f : ℝ) : rayleigh Ts Tinf n L * f
    = 9.81 * L ^ 3 * 0.708 / (Tinf + 273.15) * f * |Ts - Tinf| / n ^ 2 := by
  unfold rayleigh
  rw [← div_div]
  ring

/-- **C128** (horizontal planes; partial: both temperatures in the same range of the correlation, false across
its change, see `C128_fails_horizontal`): a hotter horizontal surface loses strictly more heat. -/
theorem C128_horizontal_partial {Tinf L a b : ℝ} (top : Bool) (hL : 0 < L) (i0 : -100 ≤ Tinf)
    (i1 : Tinf ≤ 200) (ha : -100 ≤ a) (hab : a < b) (hb : b ≤ 200)
    (h : (¬ Outward top a Tinf ∧ ¬ Outward top b Tinf) ∨
      Outward top a Tinf ∧ Outward top b Tinf ∧ (xPlane a Tinf L ≤ 7e4 ↔ xPlane b Tinf L ≤ 7e4) ∨
      a < Tinf ∧ Tinf < b) :
    flux (planeAlphaInf a Tinf L false top) a Tinf < flux (planeAlphaInf b Tinf L false top) b Tinf := by
  have hK : 0 < Tinf + 273.15 := by linarith
  have c5 := corr_power (c := 0.766) (p := 1 / 5) (by norm_num) (by norm_num) (by norm_num)
  have c3 := corr_power (c := 0.15) (p := 1 / 3) (by norm_num) (by norm_num) (by norm_num)
  have c6 := corr_power (c := 0.6) (p := 1 / 5) (by norm_num) (by norm_num) (by norm_num)
  have k1 : 0 < 9.81 * L ^ 3 * 0.708 / (Tinf + 273.15) * 0.40306002707296223 := by positivity
  have k2 : 0 < 9.81 * L ^ 3 * 0.708 / (Tinf + 273.15) * 0.3466023585520853 := by positivity
  rw [flux_horizontal, flux_horizontal]
  unfold xPlane at *
  simp only [ray_eq] at *
  rcases h with ⟨h1, h2⟩ | ⟨h1, h2, h3⟩ | ⟨h1, h2⟩
  · rw [if_neg h1, if_neg h2]
    exact q_lt c6 k2 hL i0 i1 ha hab hb
  · rw [if_pos h1, if_pos h2]
    split_ifs with h4 h5 h6
    · exact q_lt c5 k1 hL i0 i1 ha hab hb
    · exact absurd (h3.1 h4) h5
    · exact absurd (h3.2 h6) h4
    · exact q_lt c3 k1 hL i0 i1 ha hab hb
  · refine lt_trans (b := 0) ?_ ?_
    · split_ifs
      · exact q_neg c5 k1 hL i1 h1 ha
      · exact q_neg c3 k1 hL i1 h1 ha
      · exact q_neg c6 k2 hL i1 h1 ha
    · split_ifs
      · exact q_pos c5 k1 hL i0 h2 hb
      · exact q_pos c3 k1 hL i0 h2 hb
      · exact q_pos c6 k2 hL i0 h2 hb

example : flux (planeAlphaInf 30 20 0.2 false false) 30 20 < flux (planeAlphaInf 40 20 0.2 false false) 40 20 := by
  refine C128_horizontal_partial false (by norm_num) (by norm_num) (by norm_num) (by norm_num) (by norm_num)
    (by norm_num) (Or.inl ⟨?_, ?_⟩) <;> simp [Outward] <;> norm_num

/-- **C128** fails for a horizontal surface (the lid of a storage): there is a size at which the surface loses less
heat at 71 degC than at 70 degC, with the ambient at 20 degC. -/
theorem C128_fails_horizontal :
    ∃ L : ℝ, 0 < L ∧
      flux (planeAlphaInf 71 20 L false true) 71 20 < flux (planeAlphaInf 70 20 L false true) 70 20 := by
  obtain ⟨L, hL, h1⟩ : ∃ L : ℝ, 0 < L ∧ xPlane 70 20 L = 7e4 := by
    have hn := nyAir_pos (T := (20 + 70) / 2) (by norm_num)
    set c := 50 * 9.81 * 0.708 / ((20 + 273.15) * nyAir ((20 + 70) / 2) ^ 2) * 0.40306002707296223 with hc
    have c0 : 0 < c := by positivity
    refine ⟨(7e4 / c) ^ ((1 : ℝ) / 3), by positivity, ?_⟩
    have e : ((7e4 / c) ^ ((1 : ℝ) / 3)) ^ 3 = 7e4 / c := by
      rw [← Real.rpow_natCast, ← Real.rpow_mul (by positivity)]
      norm_num
    unfold xPlane rayleigh
    have a : |(70 : ℝ) - 20| = 50 := by norm_num
    rw [e, a]
    calc 50 * 9.81 * (7e4 / c) * 0.708 / ((20 + 273.15) * nyAir ((20 + 70) / 2) ^ 2) * 0.40306002707296223
        = c * (7e4 / c) := by rw [hc]; ring
      _ = 7e4 := by field_simp
  refine ⟨L, hL, ?_⟩
  have hn := nyAir_pos (T := (20 + 70) / 2) (by norm_num)
  have hn2 := nyAir_pos (T := (20 + 71) / 2) (by norm_num)
  have hlt := nyAir_lt (a := (20 + 70) / 2) (b := (20 + 71) / 2) (by norm_num) (by norm_num)
  have h1' := h1
  unfold xPlane at h1'
  rw [ray_eq, show |(70 : ℝ) - 20| = 50 by norm_num] at h1'
  have x71 : xPlane 71 20 L = 9.81 * L ^ 3 * 0.708 / (20 + 273.15) * 0.40306002707296223 * 51 / nyAir ((20 + 71) / 2) ^ 2 := by
    unfold xPlane
    rw [ray_eq, show |(71 : ℝ) - 20| = 51 by norm_num]
  have hnum : 50 * nyAir ((20 + 71) / 2) ^ 2 < 51 * nyAir ((20 + 70) / 2) ^ 2 := by norm_num [nyAir]
  have k0 : 0 < 9.81 * L ^ 3 * 0.708 / (20 + 273.15) * 0.40306002707296223 := by positivity
  rw [div_eq_iff (by positivity)] at h1'
  have up : xPlane 71 20 L ≤ 71400 := by
    rw [x71, div_le_iff₀ (by positivity)]
    have : nyAir ((20 + 70) / 2) ^ 2 ≤ nyAir ((20 + 71) / 2) ^ 2 := pow_le_pow_left₀ hn.le hlt.le 2
    linarith
  have lo : 7e4 < xPlane 71 20 L := by
    rw [x71, lt_div_iff₀ (by positivity)]
    linarith
  have o1 : Outward true 70 20 := Or.inl ⟨rfl, by norm_num⟩
  have o2 : Outward true 71 20 := Or.inl ⟨rfl, by norm_num⟩
  rw [flux_horizontal, flux_horizontal, if_pos o1, if_pos o2, if_neg (not_le.2 lo), h1, if_pos le_rfl]
  have r5 : (9.3 : ℝ) ≤ (7e4 : ℝ) ^ ((1 : ℝ) / 5) := by
    have h : (9.3 : ℝ) ^ 5 ≤ ((7e4 : ℝ) ^ ((1 : ℝ) / 5)) ^ (5 : ℕ) := by
      rw [← Real.rpow_natCast ((7e4 : ℝ) ^ ((1 : ℝ) / 5)), ← Real.rpow_mul (by norm_num)]
      norm_num
    exact le_of_pow_le_pow_left₀ (by norm_num) (by positivity) h
  have r3 : xPlane 71 20 L ^ ((1 : ℝ) / 3) ≤ 41.5 := by
    have x0 : 0 ≤ xPlane 71 20 L := by linarith
    have h : (xPlane 71 20 L ^ ((1 : ℝ) / 3)) ^ (3 : ℕ) ≤ 41.5 ^ 3 := by
      rw [← Real.rpow_natCast, ← Real.rpow_mul x0]
      norm_num
      linarith
    exact le_of_pow_le_pow_left₀ (by norm_num) (by norm_num) h
  unfold flux
  have l1 : (0.0277 : ℝ) ≤ lamAir ((20 + 70) / 2) := by norm_num [lamAir]
  have l2 : lamAir ((20 + 71) / 2) ≤ 0.0278 := by norm_num [lamAir]
  have l0 : 0 < lamAir ((20 + 71) / 2) := lamAir_pos (by norm_num) (by norm_num)
  have x3 : 0 ≤ xPlane 71 20 L ^ ((1 : ℝ) / 3) := by
    have x0 : 0 ≤ xPlane 71 20 L := by linarith
    positivity
  rw [div_mul_eq_mul_div, div_mul_eq_mul_div]
  apply div_lt_div_of_pos_right _ hL
  calc 0.15 * xPlane 71 20 L ^ ((1 : ℝ) / 3) * lamAir ((20 + 71) / 2) * (71 - 20)
      ≤ 0.15 * 41.5 * 0.0278 * (71 - 20) := by gcongr
    _ < 0.766 * 9.3 * 0.0277 * (70 - 20) := by norm_num
    _ ≤ 0.766 * (7e4 : ℝ) ^ ((1 : ℝ) / 5) * lamAir ((20 + 70) / 2) * (70 - 20) := by gcongr

end Verif.HotSurface
