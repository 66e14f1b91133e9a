import Verif.Model.Buoyancy
import Mathlib.Tactic.Linarith
import Mathlib.Tactic.Positivity
import Mathlib.Tactic.NormNum
import Mathlib.Tactic.Push
import Mathlib.Tactic.FieldSimp

/-!
# C106, C107: buoyancy in a storage
-/

namespace Verif.Buoyancy

open Verif.Water (rho)

variable {n : ℕ} {d : ℝ} {T ny lam : ℕ → ℝ} {k : ℕ}

theorem nusselt_zero : nusselt 0 = 0 := by
  unfold nusselt
  rw [if_neg (by norm_num), Real.zero_rpow (by norm_num), mul_zero]

theorem nusselt_nonneg {x : ℝ} (hx : 0 ≤ x) : 0 ≤ nusselt x := by
  unfold nusselt
  split_ifs <;> positivity

/-- **C106** (stratified layers): where the lower layer is not warmer than the upper one, heat is conducted as in
water at rest, whatever the other layers do. -/
theorem C106_stratified (h : T (k + 1) ≤ T k) : lamBuoyant n d T ny lam k = lam k := by
  unfold lamBuoyant
  split_ifs
  · rfl
  · have : raF2 d T ny k = 0 := by
      unfold raF2 ra tDiff
      rw [max_eq_right (by linarith), mul_zero, zero_div, zero_mul]
    rw [this, nusselt_zero]
    unfold factor
    rw [if_neg (by norm_num), mul_one]

/-- **C106** (no hindrance): buoyancy never lowers the conductivity, and where it changes it, it is at least
twentyfold. -/
theorem C106_factor (hl : 0 ≤ lam k) :
    lamBuoyant n d T ny lam k = lam k ∨ 20 * lam k ≤ lamBuoyant n d T ny lam k := by
  unfold lamBuoyant factor
  split_ifs with h1 h2
  · exact .inl rfl
  · right
    have := mul_le_mul_of_nonneg_left h2 hl
    linarith
  · left; rw [mul_one]

/-- The density of water falls above 3.5 °C. -/
theorem rho_lt {a b : ℝ} (ha : 3.5 ≤ a) (hab : a < b) (hb : b ≤ 100) : rho b < rho a := by
  have key : rho b - rho a = (b - a) * (4.9604454990529602e-02 - 7.4722666453460717e-03 * (a + b)
    + 4.1094484438154484e-05 * (a ^ 2 + a * b + b ^ 2) - 1.2915789546323614e-07 * ((a + b) * (a ^ 2 + b ^ 2))) := by
    unfold rho; ring
  have hneg : 4.9604454990529602e-02 - 7.4722666453460717e-03 * (a + b)
    + 4.1094484438154484e-05 * (a ^ 2 + a * b + b ^ 2) - 1.2915789546323614e-07 * ((a + b) * (a ^ 2 + b ^ 2)) < 0 := by
    obtain ⟨s, hs⟩ : ∃ s, s = a + b := ⟨_, rfl⟩
    obtain ⟨q, hq⟩ : ∃ q, q = a * b := ⟨_, rfl⟩
    have e1 : a ^ 2 + a * b + b ^ 2 = s ^ 2 - q := by rw [hs, hq]; ring
    have e2 : a ^ 2 + b ^ 2 = s ^ 2 - 2 * q := by rw [hs, hq]; ring
    have hs7 : 7 ≤ s := by rw [hs]; norm_num at ha ⊢; linarith
    have hq0 : 0 ≤ q := by rw [hq]; norm_num at ha; apply mul_nonneg <;> linarith
    have hq1 : q ≤ s ^ 2 / 4 := by rw [hs, hq]; nlinarith [sq_nonneg (a - b)]
    rw [e1, e2, ← hs]
    clear e1 e2 hs hq key ha hab hb
    norm_num
    rcases le_total s 20 with h20 | h20
    · have h1 : 0 ≤ q * (20 - s) := mul_nonneg hq0 (by linarith)
      nlinarith [mul_nonneg (sub_nonneg.mpr hs7) (sub_nonneg.mpr h20), pow_nonneg (show 0 ≤ s by linarith) 3]
    · rcases le_total s 159 with h | h
      · have h1 : 0 ≤ q * (159 - s) := mul_nonneg hq0 (by linarith)
        nlinarith [mul_nonneg (show (0 : ℝ) ≤ s by linarith) (sq_nonneg (s - 159))]
      · have h1 : 0 ≤ (s ^ 2 / 4 - q) * (s - 159) := mul_nonneg (by linarith) (by linarith)
        nlinarith [mul_nonneg (show (0 : ℝ) ≤ s by linarith) (sq_nonneg (s - 239))]
  have := mul_neg_of_pos_of_neg (sub_pos.mpr hab) hneg
  linarith

/-- **C106**, partial: between 3.5 °C and 100 °C, layers are only mixed where the lower layer is lighter.  Missing:
colder water (`C106_fails_cold_stable`). -/
theorem C106_mixed_lighter_partial (h : lamBuoyant n d T ny lam k ≠ lam k) (h0 : 3.5 ≤ T k) (h1 : T (k + 1) ≤ 100) :
    rho (T (k + 1)) < rho (T k) := by
  apply rho_lt h0 _ h1
  by_contra hc
  exact h (C106_stratified (not_lt.mp hc))

theorem one_le_nusselt {x : ℝ} (hx : 4 ≤ x) : 1 ≤ nusselt x := by
  unfold nusselt
  split_ifs with h
  · have h1 : (10 : ℝ) ≤ x ^ (1 / 3 : ℝ) := by
      rw [one_div, Real.le_rpow_inv_iff_of_pos (by norm_num) (by linarith) (by norm_num)]
      norm_num at h ⊢
      linarith
    linarith
  · have h1 : (1.31 : ℝ) ≤ x ^ (0.2 : ℝ) := by
      rw [show (0.2 : ℝ) = 5⁻¹ by norm_num,
        Real.le_rpow_inv_iff_of_pos (by norm_num) (by linarith) (by norm_num)]
      norm_num
      linarith
    linarith

/-- The correction for the Prandtl number. -/
theorem prandtl_ge {p : ℝ} (hp : 0.322 ≤ p) :
    (1 / 4 : ℝ) ≤ (1 + (0.322 / p) ^ (11 / 20 : ℝ)) ^ (-20 / 11 : ℝ) := by
  have hq0 : 0 ≤ 0.322 / p := by positivity
  have hq1 : 0.322 / p ≤ 1 := by rw [div_le_one (by linarith)]; exact hp
  have h1 : (0.322 / p) ^ (11 / 20 : ℝ) ≤ 1 := Real.rpow_le_one hq0 hq1 (by norm_num)
  have h0 : 0 ≤ (0.322 / p) ^ (11 / 20 : ℝ) := Real.rpow_nonneg hq0 _
  calc (1 / 4 : ℝ) = 2 ^ (-2 : ℝ) := by rw [Real.rpow_neg (by norm_num)]; norm_num
    _ ≤ 2 ^ (-20 / 11 : ℝ) := Real.rpow_le_rpow_of_exponent_le (by norm_num) (by norm_num)
    _ ≤ _ := Real.rpow_le_rpow_of_nonpos (by linarith) (by linarith) (by norm_num)

/-- **C106** (inversions are mixed): where the lower layer is warmer and the Rayleigh number is at least 16, the
conductivity is raised at least twentyfold. -/
theorem C106_inversion_mixed (hk : k + 1 < n) (h : T k < T (k + 1)) (hp : 0.322 ≤ Water.Pr (T (k + 1)))
    (hr : 16 ≤ ra d T ny k) (hl : 0 ≤ lam k) : 20 * lam k ≤ lamBuoyant n d T ny lam k := by
  unfold lamBuoyant
  rw [if_neg (fun hc => by have := hc k hk; linarith)]
  have hx : 4 ≤ raF2 d T ny k := by
    unfold raF2
    have := mul_le_mul hr (prandtl_ge hp) (by norm_num) (by linarith)
    linarith
  have h1 := one_le_nusselt hx
  unfold factor
  rw [if_pos h1]
  have := mul_le_mul_of_nonneg_left h1 hl
  linarith

/-- Water of 40 °C above water of 60 °C in a storage with a diameter of 1 m. -/
example : (0 : ℝ) < 16 ∧ (0.322 : ℝ) ≤ Water.Pr 60 ∧
    16 ≤ ra 1 (fun k => if k = 0 then 40 else 60) (fun _ => 5e-7) 0 := by
  refine ⟨by norm_num, by norm_num [Water.Pr], ?_⟩
  unfold ra tDiff
  norm_num [Water.Pr, beta, abs_of_pos]

/-- **C106** is false of the code: water of 0 °C above water of 2 °C is heavier below and does not move, but it is
mixed. -/
theorem C106_fails_cold_stable : ∃ T ny : ℕ → ℝ, T 0 = 0 ∧ T 1 = 2 ∧ rho (T 0) < rho (T 1) ∧ (∀ k, 0 < ny k) ∧
    ∀ lam : ℕ → ℝ, 0 ≤ lam 0 → 20 * lam 0 ≤ lamBuoyant 2 1 T ny lam 0 := by
  refine ⟨fun k => if k = 0 then 0 else 2, fun _ => 17e-7, rfl, rfl, by norm_num [rho], fun _ => by norm_num, ?_⟩
  intro lam hl
  apply C106_inversion_mixed (by norm_num) (by norm_num) (by norm_num [Water.Pr]) _ hl
  unfold ra tDiff
  norm_num [Water.Pr, beta, abs_of_neg, abs_of_pos]

/-- **C106** is false of the code: below 3 °C water becomes lighter when it cools down, but a cold layer below is
never mixed. -/
theorem C106_fails_cold_unstable {a b : ℝ} (hab : a < b) (hb : b ≤ 3) (h0 : 0 ≤ a) (h : T k = b) (h' : T (k + 1) = a) :
    rho (T (k + 1)) < rho (T k) ∧ lamBuoyant n d T ny lam k = lam k := by
  refine ⟨?_, C106_stratified (by rw [h, h']; exact hab.le)⟩
  rw [h, h']
  have key : rho b - rho a = (b - a) * (4.9604454990529602e-02 - 7.4722666453460717e-03 * (a + b)
    + 4.1094484438154484e-05 * (a ^ 2 + a * b + b ^ 2) - 1.2915789546323614e-07 * ((a + b) * (a ^ 2 + b ^ 2))) := by
    unfold rho; ring
  have hpos : 0 < 4.9604454990529602e-02 - 7.4722666453460717e-03 * (a + b)
    + 4.1094484438154484e-05 * (a ^ 2 + a * b + b ^ 2) - 1.2915789546323614e-07 * ((a + b) * (a ^ 2 + b ^ 2)) := by
    have h1 : a ^ 2 ≤ 9 := by nlinarith
    have h2 : b ^ 2 ≤ 9 := by nlinarith
    have h3 : 0 ≤ a * b := mul_nonneg h0 (by linarith)
    have h4 : (a + b) * (a ^ 2 + b ^ 2) ≤ 6 * 18 :=
      mul_le_mul (by linarith) (by linarith) (by positivity) (by norm_num)
    have h5 := sq_nonneg a
    have h6 := sq_nonneg b
    norm_num at *
    linarith
  have := mul_pos (sub_pos.mpr hab) hpos
  linarith

/-! ## C107 -/

theorem nusselt_mono {x y : ℝ} (h0 : 0 ≤ x) (hxy : x ≤ y) (hside : 7e4 < x ∨ y ≤ 7e4) : nusselt x ≤ nusselt y := by
  unfold nusselt
  rcases hside with h | h
  · rw [if_pos h, if_pos (h.trans_le hxy)]
    exact mul_le_mul_of_nonneg_left (Real.rpow_le_rpow h0 hxy (by norm_num)) (by norm_num)
  · rw [if_neg (not_lt.mpr (hxy.trans h)), if_neg (not_lt.mpr h)]
    exact mul_le_mul_of_nonneg_left (Real.rpow_le_rpow h0 hxy (by norm_num)) (by norm_num)

theorem factor_mono {x y : ℝ} (hxy : x ≤ y) : factor x ≤ factor y := by
  unfold factor
  split_ifs <;> linarith

/-- Two storages whose cells below the top have the same temperatures; in the second one the top is colder. -/
structure ColderTop (T T' : ℕ → ℝ) : Prop where
  below : ∀ k, T' (k + 1) = T (k + 1)
  top : T' 0 ≤ T 0

/-- The argument of the Nusselt number is proportional to the inversion. -/
theorem raF2_eq (T ny : ℕ → ℝ) : raF2 d T ny 0 = tDiff T 0 *
    (Water.Pr (T 1) * 9.81 * (d / 4) ^ 3 * |beta (T 1)| / ny 1 ^ 2 *
      (1 + (0.322 / Water.Pr (T 1)) ^ (11 / 20 : ℝ)) ^ (-20 / 11 : ℝ)) := by
  unfold raF2 ra
  rw [zero_add]
  ring

/-- **C107**, partial: if the upper layer of an inversion is colder, it is mixed at least as strongly, provided that
both Rayleigh numbers are in the laminar or both in the turbulent range.  Missing: the transition between the ranges
(`C107_fails_transition`). -/
theorem C107_stronger_partial {T T' : ℕ → ℝ} (h : ColderTop T T') (hn : 2 ≤ n) (hd : 0 ≤ d)
    (hp : 0 ≤ Water.Pr (T 1)) (hl : 0 ≤ lam 0)
    (hside : 7e4 < raF2 d T ny 0 ∨ raF2 d T' ny 0 ≤ 7e4) :
    lamBuoyant n d T ny lam 0 ≤ lamBuoyant n d T' ny lam 0 := by
  by_cases hinv : T 1 ≤ T 0
  · rw [C106_stratified hinv]
    rcases C106_factor (n := n) (d := d) (T := T') (ny := ny) hl with h1 | h1
    · exact h1.ge
    · linarith
  · push Not at hinv
    have hinv' : T' 0 < T' 1 := by
      have := h.below 0
      simp only [zero_add] at this
      rw [this]
      exact h.top.trans_lt hinv
    unfold lamBuoyant
    rw [if_neg (fun hc => by have := hc 0 (by omega); simp only [zero_add] at this; linarith),
      if_neg (fun hc => by have := hc 0 (by omega); simp only [zero_add] at this; linarith)]
    apply mul_le_mul_of_nonneg_left _ hl
    have e1 := h.below 0
    simp only [zero_add] at e1
    apply factor_mono
    have hc : 0 ≤ Water.Pr (T 1) * 9.81 * (d / 4) ^ 3 * |beta (T 1)| / ny 1 ^ 2 *
        (1 + (0.322 / Water.Pr (T 1)) ^ (11 / 20 : ℝ)) ^ (-20 / 11 : ℝ) := by positivity
    have ht : tDiff T 0 ≤ tDiff T' 0 := by
      unfold tDiff
      simp only [zero_add]
      rw [e1]
      exact max_le_max (by linarith [h.top]) le_rfl
    refine nusselt_mono ?_ ?_ hside
    · rw [raF2_eq]; exact mul_nonneg (le_max_right _ _) hc
    · rw [raF2_eq, raF2_eq, e1]; exact mul_le_mul_of_nonneg_right ht hc

/-- **C107** is false of the code: for every lower temperature, viscosity and diameter there are two inversions of
which the stronger one is mixed less. -/
theorem C107_fails_transition {Tb ν : ℝ} (hd : 0 < d) (hp : 0 < Water.Pr Tb) (hb : beta Tb ≠ 0) (hν : ν ≠ 0)
    (hl : 0 < lam 0) : ∃ T T' : ℕ → ℝ, ColderTop T T' ∧ T 1 = Tb ∧ T 0 < Tb ∧ T' 0 < T 0 ∧
      lamBuoyant 2 d T' (fun _ => ν) lam 0 < lamBuoyant 2 d T (fun _ => ν) lam 0 := by
  set c := Water.Pr Tb * 9.81 * (d / 4) ^ 3 * |beta Tb| / ν ^ 2 *
    (1 + (0.322 / Water.Pr Tb) ^ (11 / 20 : ℝ)) ^ (-20 / 11 : ℝ) with hc
  have hcpos : 0 < c := by
    have : 0 < |beta Tb| := abs_pos.mpr hb
    have : 0 < ν ^ 2 := by positivity
    rw [hc]; positivity
  have h1 : 0 < 7e4 / c := by positivity
  have h2 : 7e4 / c < 8e4 / c := by apply div_lt_div_of_pos_right _ hcpos; norm_num
  have hra : ∀ x, 0 < x → raF2 d (fun k => if k = 0 then Tb - x / c else Tb) (fun _ => ν) 0 = x := by
    intro x hx
    have hx' : 0 < x / c := div_pos hx hcpos
    rw [raF2_eq]
    unfold tDiff
    simp only [zero_add, one_ne_zero, if_false, if_true]
    rw [← hc, show Tb - (Tb - x / c) = x / c by ring, max_eq_left hx'.le, div_mul_cancel₀ _ hcpos.ne']
  refine ⟨fun k => if k = 0 then Tb - 7e4 / c else Tb, fun k => if k = 0 then Tb - 8e4 / c else Tb,
    ⟨fun k => rfl, by simp only [if_true]; linarith⟩, rfl, by simp only [if_true]; linarith,
    by simp only [if_true]; linarith, ?_⟩
  unfold lamBuoyant
  rw [if_neg (fun hc => by have := hc 0 (by omega); simp at this; linarith),
    if_neg (fun hc => by have := hc 0 (by omega); simp at this; linarith)]
  apply mul_lt_mul_of_pos_left _ hl
  rw [hra _ (by norm_num), hra _ (by norm_num)]
  have e1 : nusselt 8e4 ≤ 6.6 := by
    unfold nusselt
    rw [if_pos (by norm_num)]
    have : (8e4 : ℝ) ^ (1 / 3 : ℝ) ≤ 44 := by
      rw [one_div, Real.rpow_inv_le_iff_of_pos (by norm_num) (by norm_num) (by norm_num)]
      norm_num
    linarith
  have e2 : 6.8 ≤ nusselt 7e4 := by
    unfold nusselt
    rw [if_neg (by norm_num)]
    have : 9 ≤ (7e4 : ℝ) ^ (0.2 : ℝ) := by
      rw [show (0.2 : ℝ) = 5⁻¹ by norm_num, Real.le_rpow_inv_iff_of_pos (by norm_num) (by norm_num) (by norm_num)]
      norm_num
    linarith
  unfold factor
  rw [if_pos (show 1 ≤ nusselt 7e4 by linarith)]
  split_ifs <;> linarith

/-- 60 °C meets the hypotheses. -/
example : (0 : ℝ) < Water.Pr 60 ∧ beta (60 : ℝ) ≠ 0 := by constructor <;> norm_num [Water.Pr, beta]

end Verif.Buoyancy
