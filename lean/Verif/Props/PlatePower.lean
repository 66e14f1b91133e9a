import Verif.Props.FlowAlpha
import Verif.Props.PlateHex
import Mathlib.Analysis.Convex.SpecificFunctions.Basic

/-!
# More flow through a plate heat exchanger transfers more heat (C127)
-/

namespace Verif.PlatePower

open Verif.PlateHex Verif.FlowAlpha

/-- `w / (1 - exp (-U w))`, continued with `1 / U` at `w = 0`. -/
noncomputable def psi (U w : ℝ) : ℝ := if w = 0 then 1 / U else w / (1 - Real.exp (-(U * w)))

/-- `(1 - exp (-u)) / u`, continued with `1`. -/
noncomputable def chi (u : ℝ) : ℝ := if u = 0 then 1 else (1 - Real.exp (-u)) / u

theorem chi_pos (u : ℝ) : 0 < chi u := by
  unfold chi
  rcases lt_trichotomy u 0 with h | h | h
  · rw [if_neg h.ne]
    have := Real.one_lt_exp_iff.2 (show 0 < -u by linarith)
    exact div_pos_of_neg_of_neg (by linarith) h
  · rw [if_pos h]; norm_num
  · rw [if_neg h.ne']
    have := Real.exp_lt_one_iff.2 (show -u < 0 by linarith)
    exact div_pos (by linarith) h

theorem chi_anti {u v : ℝ} (h : u < v) : chi v < chi u := by
  have lt_one : ∀ {z : ℝ}, 0 < z → (1 - Real.exp (-z)) / z < 1 := by
    intro z hz
    rw [div_lt_one hz]
    have := Real.add_one_lt_exp (x := -z) (by linarith)
    linarith
  have gt_one : ∀ {z : ℝ}, z < 0 → 1 < (1 - Real.exp (-z)) / z := by
    intro z hz
    rw [lt_div_iff_of_neg hz]
    have := Real.add_one_lt_exp (x := -z) (by linarith)
    linarith
  unfold chi
  by_cases hu : u = 0
  · subst hu
    rw [if_pos rfl, if_neg h.ne']
    exact lt_one h
  · by_cases hv : v = 0
    · subst hv
      rw [if_pos rfl, if_neg hu]
      exact gt_one h
    · rw [if_neg hu, if_neg hv]
      have := strictConvexOn_exp.secant_strict_mono (a := 0) (x := -v) (y := -u) (Set.mem_univ _) (Set.mem_univ _)
        (Set.mem_univ _) (by simpa using hv) (by simpa using hu) (by linarith)
      simp only [Real.exp_zero, sub_zero] at this
      have e : ∀ z : ℝ, (Real.exp (-z) - 1) / -z = (1 - Real.exp (-z)) / z := by
        intro z
        rw [div_neg, ← neg_div, neg_sub]
      rwa [e, e] at this

theorem psi_eq {U : ℝ} (hU : 0 < U) (w : ℝ) : psi U w = 1 / (U * chi (U * w)) := by
  unfold psi chi
  by_cases hw : w = 0
  · simp [hw]
  · rw [if_neg hw, if_neg (mul_ne_zero hU.ne' hw)]
    have h1 : 1 - Real.exp (-(U * w)) ≠ 0 := by
      intro h
      have : Real.exp (-(U * w)) = 1 := by linarith
      rw [Real.exp_eq_one_iff] at this
      exact mul_ne_zero hU.ne' hw (by linarith)
    field_simp

theorem psi_pos {U : ℝ} (hU : 0 < U) (w : ℝ) : 0 < psi U w := by
  rw [psi_eq hU]
  have := chi_pos (U * w)
  positivity

theorem psi_mono {U v w : ℝ} (hU : 0 < U) (h : v < w) : psi U v < psi U w := by
  rw [psi_eq hU, psi_eq hU]
  have := chi_pos (U * w)
  exact one_div_lt_one_div_of_lt (by positivity)
    (mul_lt_mul_of_pos_left (chi_anti (mul_lt_mul_of_pos_left h hU)) hU)

theorem psi_anti {U V : ℝ} (hU : 0 < U) (h : U < V) (w : ℝ) : psi V w < psi U w := by
  unfold psi
  rcases lt_trichotomy w 0 with hw | hw | hw
  · rw [if_neg hw.ne, if_neg hw.ne]
    have h1 : 1 < Real.exp (-(U * w)) := Real.one_lt_exp_iff.2 (by nlinarith)
    have h2 : Real.exp (-(U * w)) < Real.exp (-(V * w)) := Real.exp_lt_exp.2 (by nlinarith)
    rw [← neg_div_neg_eq, ← neg_div_neg_eq (a := w) (b := 1 - Real.exp (-(U * w)))]
    exact div_lt_div_of_pos_left (by linarith) (by linarith) (by linarith)
  · rw [if_pos hw, if_pos hw]
    exact one_div_lt_one_div_of_lt hU h
  · rw [if_neg hw.ne', if_neg hw.ne']
    have h1 : Real.exp (-(U * w)) < 1 := Real.exp_lt_one_iff.2 (by nlinarith)
    have h2 : Real.exp (-(V * w)) < Real.exp (-(U * w)) := Real.exp_lt_exp.2 (by nlinarith)
    exact div_lt_div_of_pos_left hw (by linarith) (by linarith)

theorem psi_neg {U : ℝ} (hU : 0 < U) (w : ℝ) : psi U (-w) = psi U w - w := by
  unfold psi
  by_cases hw : w = 0
  · simp [hw]
  · rw [if_neg (neg_ne_zero.2 hw), if_neg hw]
    have e0 : Real.exp (U * w) ≠ 1 := by
      rw [Ne, Real.exp_eq_one_iff]
      exact mul_ne_zero hU.ne' hw
    have e : -(U * -w) = U * w := by ring
    rw [e, Real.exp_neg]
    have h0 : Real.exp (U * w) ≠ 0 := (Real.exp_pos _).ne'
    generalize Real.exp (U * w) = z at *
    have h1 : 1 - z ≠ 0 := fun h => e0 (by linarith)
    have h2 : 1 - z⁻¹ ≠ 0 := by
      intro h
      have : z⁻¹ = 1 := by linarith
      exact e0 (inv_eq_one.1 this)
    have h3 : z - 1 ≠ 0 := fun h => e0 (by linarith)
    field_simp
    ring

/-- Heat per degree of the formula of the code, below its limit: the reciprocal of a resistance. -/
theorem power_eq {U Cs Cd : ℝ} (hU : 0 < U) (hs : 0 < Cs) (hd : 0 < Cd) (h : (Cs / Cd - 1) * (U / Cs) < 100) :
    pSup (U / Cs) (Cs / Cd) * Cs = 1 / (1 / Cd + psi U (1 / Cs - 1 / Cd)) := by
  unfold pSup
  simp only
  have hw : (Cs / Cd - 1) * (U / Cs) = -(U * (1 / Cs - 1 / Cd)) := by field_simp; ring
  by_cases hR : Cs / Cd = 1
  · rw [if_neg (by tauto), if_neg (not_lt.2 h.le)]
    have : Cs = Cd := by rwa [div_eq_one_iff_eq hd.ne'] at hR
    subst this
    simp only [psi, sub_self, if_true]
    field_simp
    ring
  · rw [if_pos ⟨hR, h⟩, hw]
    have hne : 1 / Cs - 1 / Cd ≠ 0 := by
      intro e
      apply hR
      rw [div_eq_one_iff_eq hd.ne']
      have := sub_eq_zero.1 e
      rwa [one_div, one_div, inv_inj] at this
    have hpos : 0 < 1 / Cd + psi U (1 / Cs - 1 / Cd) := by
      have := psi_pos hU (1 / Cs - 1 / Cd)
      positivity
    have e0 : Real.exp (-(U * (1 / Cs - 1 / Cd))) ≠ 1 := by
      rw [Ne, Real.exp_eq_one_iff]
      intro e
      exact mul_ne_zero hU.ne' hne (by linarith)
    unfold psi at *
    rw [if_neg hne] at *
    generalize Real.exp (-(U * (1 / Cs - 1 / Cd))) = z at *
    have h1 : 1 - z ≠ 0 := fun h => e0 (by linarith)
    have key : 1 / Cd + (1 / Cs - 1 / Cd) / (1 - z) = (1 - Cs / Cd * z) / (Cs * (1 - z)) := by
      field_simp
      ring
    rw [key] at hpos ⊢
    have h2 : 1 - Cs / Cd * z ≠ 0 := by
      intro h
      rw [h, zero_div] at hpos
      exact lt_irrefl _ hpos
    rw [one_div_div]
    ring

/-- The same resistance seen from the other side. -/
theorem resistance_symm {U Cs Cd : ℝ} (hU : 0 < U) :
    1 / Cd + psi U (1 / Cs - 1 / Cd) = 1 / Cs + psi U (1 / Cd - 1 / Cs) := by
  have := psi_neg hU (1 / Cs - 1 / Cd)
  rw [neg_sub] at this
  rw [this]
  ring

theorem power_lt_supply {U V C C' D : ℝ} (hU : 0 < U) (hUV : U ≤ V) (hC : 0 < C) (hCC : C < C') (hD : 0 < D) :
    1 / (1 / D + psi U (1 / C - 1 / D)) < 1 / (1 / D + psi V (1 / C' - 1 / D)) := by
  have hV : 0 < V := hU.trans_le hUV
  have h1 : 1 / C' < 1 / C := one_div_lt_one_div_of_lt hC hCC
  have h2 : psi V (1 / C' - 1 / D) < psi V (1 / C - 1 / D) := psi_mono hV (by linarith)
  have h3 : psi V (1 / C - 1 / D) ≤ psi U (1 / C - 1 / D) := by
    rcases eq_or_lt_of_le hUV with e | e
    · rw [e]
    · exact (psi_anti hU e _).le
  have h4 := psi_pos hV (1 / C' - 1 / D)
  exact one_div_lt_one_div_of_lt (by positivity) (by linarith)

theorem power_lt_demand {U V C D D' : ℝ} (hU : 0 < U) (hUV : U ≤ V) (hC : 0 < C) (hD : 0 < D) (hDD : D < D') :
    1 / (1 / D + psi U (1 / C - 1 / D)) < 1 / (1 / D' + psi V (1 / C - 1 / D')) := by
  rw [resistance_symm hU, resistance_symm (hU.trans_le hUV)]
  exact power_lt_supply hU hUV hD hDD hC

/-- The limit of the code (`precomp_funs.py:3498-3513`): above it the whole smaller capacity flow is used. -/
theorem power_above {U Cs Cd : ℝ} (hs : 0 < Cs) (hd : 0 < Cd) (h : 100 < (Cs / Cd - 1) * (U / Cs)) :
    pSup (U / Cs) (Cs / Cd) * Cs = Cd := by
  unfold pSup
  simp only
  rw [if_neg (fun hh => absurd h (not_lt.2 hh.2.le)), if_pos h]
  field_simp

theorem power_lt_capacity {U Cs Cd : ℝ} (hU : 0 < U) (hd : 0 < Cd) :
    1 / (1 / Cd + psi U (1 / Cs - 1 / Cd)) < Cd := by
  have h4 := psi_pos hU (1 / Cs - 1 / Cd)
  have h5 : 0 < 1 / Cd := by positivity
  calc 1 / (1 / Cd + psi U (1 / Cs - 1 / Cd)) < 1 / (1 / Cd) := one_div_lt_one_div_of_lt h5 (by linarith)
    _ = Cd := one_div_one_div Cd

/-- Mean temperature of the two ports of the supply and of the demand side. -/
noncomputable def meanS (Tp : Fin 4 → ℝ) : ℝ := (Tp 0 + Tp 1) / 2
noncomputable def meanD (Tp : Fin 4 → ℝ) : ℝ := (Tp 2 + Tp 3) / 2

/-- Heat which the supply side gives off, in terms of the temperatures at the ports of the part. -/
noncomputable def given (dmS : ℝ) (Tp T : Fin 4 → ℝ) : ℝ :=
  |dmS| * Water.cp (meanS Tp) * (Tp (supIn dmS) - T (supOut dmS))

/-- Distance from the limit of the formula. -/
noncomputable def excess (dmS dmD : ℝ) (Tp : Fin 4 → ℝ) (ua : ℝ) : ℝ :=
  (|dmS| * Water.cp (meanS Tp) / (|dmD| * Water.cp (meanD Tp)) - 1) * (ua / (|dmS| * Water.cp (meanS Tp)))

theorem given_eq {g : Plates} {dmS dmD ua : ℝ} {Tp : Fin 4 → ℝ} (hS : dmS ≠ 0) (hD : dmD ≠ 0)
    (hua : plateUA g |dmS| |dmD| (meanS Tp) (meanD Tp) = some ua) :
    ∃ T, solvePlates g dmS dmD Tp = some T ∧
      given dmS Tp T = pSup (ua / (|dmS| * Water.cp (meanS Tp)))
        (|dmS| * Water.cp (meanS Tp) / (|dmD| * Water.cp (meanD Tp))) * (|dmS| * Water.cp (meanS Tp))
        * (Tp (supIn dmS) - Tp (dmdIn dmD)) := by
  refine ⟨PlateHex.solve dmS dmD Tp ua (Water.cp (meanS Tp)) (Water.cp (meanD Tp)), ?_, ?_⟩
  · simp only [solvePlates]
    simp only [meanS, meanD] at hua ⊢
    rw [hua]
    rfl
  · obtain ⟨-, e2, -, -⟩ := solve_flow dmS dmD Tp ua (Water.cp (meanS Tp)) (Water.cp (meanD Tp)) hS hD
    unfold given
    rw [e2]
    ring

theorem same_ports {a b : ℝ} (h : 0 < a * b) :
    supIn a = supIn b ∧ supOut a = supOut b ∧ dmdIn a = dmdIn b ∧ dmdOut a = dmdOut b ∧ a ≠ 0 ∧ b ≠ 0 := by
  unfold supIn supOut dmdIn dmdOut
  rcases mul_pos_iff.1 h with ⟨ha, hb⟩ | ⟨ha, hb⟩
  · simp [ha.le, hb.le, ha.ne', hb.ne']
  · simp [not_le.2 ha, not_le.2 hb, ha.ne, hb.ne]

section
variable {g : Plates} (v : g.Valid) {Tp : Fin 4 → ℝ} (s0 : 0 ≤ meanS Tp) (s1 : meanS Tp ≤ 100)
  (d0 : 0 ≤ meanD Tp) (d1 : meanD Tp ≤ 100)
include v s0 s1 d0 d1

/-- **C127** (supply side; partial: plates ten times as long as the hydraulic diameter, not exactly at the limit
of the formula): with the same temperatures around the heat exchanger, more supply flow gives at least as much
heat, and more unless the demand side is already heated all the way to the supply temperature. -/
theorem C127_supply_partial {a b c : ℝ} (hdir : 0 < a * b) (hab : |a| < |b|) (hc : c ≠ 0)
    (hot : Tp (dmdIn c) < Tp (supIn a))
    (ha : ∀ ua, plateUA g |a| |c| (meanS Tp) (meanD Tp) = some ua → excess a c Tp ua ≠ 100)
    (hb : ∀ ua, plateUA g |b| |c| (meanS Tp) (meanD Tp) = some ua → excess b c Tp ua ≠ 100) :
    ∃ T T', solvePlates g a c Tp = some T ∧ solvePlates g b c Tp = some T' ∧
      0 < given a Tp T ∧ given a Tp T ≤ given b Tp T' ∧
      (given a Tp T < given b Tp T' ∨
        given a Tp T = |c| * Water.cp (meanD Tp) * (Tp (supIn a) - Tp (dmdIn c)) ∧
          ∃ ua, plateUA g |a| |c| (meanS Tp) (meanD Tp) = some ua ∧ 100 < excess a c Tp ua) := by
  obtain ⟨e1, -, -, -, a0, b0⟩ := same_ports hdir
  have hcs : 0 < Water.cp (meanS Tp) := lt_of_lt_of_le (by norm_num) (Water.cp_ge s0 s1)
  have hcd : 0 < Water.cp (meanD Tp) := lt_of_lt_of_le (by norm_num) (Water.cp_ge d0 d1)
  obtain ⟨⟨u, w, hu, hw, u0, huw⟩, -⟩ := C126_value_partial v (a := |a|) (b := |b|) (c := |c|) s0 s1 d0 d1
    (by rwa [abs_abs, abs_abs])
  obtain ⟨T, hT, qT⟩ := given_eq (Tp := Tp) a0 hc hu
  obtain ⟨T', hT', qT'⟩ := given_eq (Tp := Tp) b0 hc hw
  refine ⟨T, T', hT, hT', ?_⟩
  have full : 100 < excess a c Tp u → ∃ ua, plateUA g |a| |c| (meanS Tp) (meanD Tp) = some ua ∧
      100 < excess a c Tp ua := fun h => ⟨u, hu, h⟩
  rw [qT, qT', ← e1]
  have xa := ha u hu
  have xb := hb w hw
  generalize hX : (∃ ua, plateUA g |a| |c| (meanS Tp) (meanD Tp) = some ua ∧ 100 < excess a c Tp ua) = X at full ⊢
  clear hX
  unfold excess at xa xb full
  have hΔ : 0 < Tp (supIn a) - Tp (dmdIn c) := by linarith
  have hA : 0 < |a| * Water.cp (meanS Tp) := mul_pos (abs_pos.2 a0) hcs
  have hB : |a| * Water.cp (meanS Tp) < |b| * Water.cp (meanS Tp) := mul_lt_mul_of_pos_right hab hcs
  have hC : 0 < |c| * Water.cp (meanD Tp) := mul_pos (abs_pos.2 hc) hcd
  generalize |a| * Water.cp (meanS Tp) = A at *
  generalize |b| * Water.cp (meanS Tp) = B at *
  generalize |c| * Water.cp (meanD Tp) = C at *
  generalize Tp (supIn a) - Tp (dmdIn c) = Δ at *
  have hB0 : 0 < B := hA.trans hB
  have w0 : 0 < w := u0.trans huw
  rcases lt_or_gt_of_ne xa with ka | ka
  · have pa := power_eq u0 hA hC ka
    have pos : 0 < pSup (u / A) (A / C) * A := by
      rw [pa]
      have := psi_pos u0 (1 / A - 1 / C)
      positivity
    have lt : pSup (u / A) (A / C) * A < pSup (w / B) (B / C) * B := by
      rcases lt_or_gt_of_ne xb with kb | kb
      · rw [pa, power_eq w0 hB0 hC kb]
        exact power_lt_supply u0 huw.le hA hB hC
      · rw [pa, power_above hB0 hC kb]
        exact power_lt_capacity u0 hC
    have := mul_lt_mul_of_pos_right lt hΔ
    exact ⟨mul_pos pos hΔ, this.le, Or.inl this⟩
  · have kb : 100 < (B / C - 1) * (w / B) := by
      have ea : (A / C - 1) * (u / A) = u * (1 / C - 1 / A) := by field_simp
      have eb : (B / C - 1) * (w / B) = w * (1 / C - 1 / B) := by field_simp
      have h1 : 1 / B < 1 / A := one_div_lt_one_div_of_lt hA hB
      rw [ea] at ka
      rw [eb]
      have h2 : 0 < 1 / C - 1 / A := by
        by_contra hh
        push Not at hh
        nlinarith
      nlinarith
    rw [power_above hA hC ka, power_above hB0 hC kb]
    exact ⟨mul_pos hC hΔ, le_refl _, Or.inr ⟨rfl, full ka⟩⟩

/-- **C127** (demand side; partial as above, below the limit of the formula): more demand flow takes more heat. -/
theorem C127_demand_partial {a b c : ℝ} (hdir : 0 < a * b) (hab : |a| < |b|) (hc : c ≠ 0)
    (hot : Tp (dmdIn a) < Tp (supIn c))
    (ha : ∀ ua, plateUA g |c| |a| (meanS Tp) (meanD Tp) = some ua → excess c a Tp ua < 100)
    (hb : ∀ ua, plateUA g |c| |b| (meanS Tp) (meanD Tp) = some ua → excess c b Tp ua < 100) :
    ∃ T T', solvePlates g c a Tp = some T ∧ solvePlates g c b Tp = some T' ∧
      0 < given c Tp T ∧ given c Tp T < given c Tp T' := by
  obtain ⟨-, -, e1, -, a0, b0⟩ := same_ports hdir
  have hcs : 0 < Water.cp (meanS Tp) := lt_of_lt_of_le (by norm_num) (Water.cp_ge s0 s1)
  have hcd : 0 < Water.cp (meanD Tp) := lt_of_lt_of_le (by norm_num) (Water.cp_ge d0 d1)
  obtain ⟨-, ⟨u, w, hu, hw, u0, huw⟩⟩ := C126_value_partial v (a := |a|) (b := |b|) (c := |c|) s0 s1 d0 d1
    (by rwa [abs_abs, abs_abs])
  obtain ⟨T, hT, qT⟩ := given_eq (Tp := Tp) hc a0 hu
  obtain ⟨T', hT', qT'⟩ := given_eq (Tp := Tp) hc b0 hw
  refine ⟨T, T', hT, hT', ?_⟩
  rw [qT, qT', ← e1]
  have xa := ha u hu
  have xb := hb w hw
  unfold excess at xa xb
  have hΔ : 0 < Tp (supIn c) - Tp (dmdIn a) := by linarith
  have hA : 0 < |a| * Water.cp (meanD Tp) := mul_pos (abs_pos.2 a0) hcd
  have hB : |a| * Water.cp (meanD Tp) < |b| * Water.cp (meanD Tp) := mul_lt_mul_of_pos_right hab hcd
  have hC : 0 < |c| * Water.cp (meanS Tp) := mul_pos (abs_pos.2 hc) hcs
  generalize |a| * Water.cp (meanD Tp) = A at *
  generalize |b| * Water.cp (meanD Tp) = B at *
  generalize |c| * Water.cp (meanS Tp) = C at *
  generalize Tp (supIn c) - Tp (dmdIn a) = Δ at *
  rw [power_eq u0 hC hA xa, power_eq (u0.trans huw) hC (hA.trans hB) xb]
  have := psi_pos u0 (1 / C - 1 / A)
  exact ⟨by positivity, mul_lt_mul_of_pos_right (power_lt_demand u0 huw.le hC hA hB) hΔ⟩

end

/-- With at least as much demand as supply capacity the formula is always below its limit. -/
theorem excess_lt {dmS dmD ua : ℝ} {Tp : Fin 4 → ℝ} (s0 : 0 < Water.cp (meanS Tp)) (hd : 0 < |dmD| * Water.cp (meanD Tp))
    (hS : 0 ≤ |dmS|) (hu : 0 ≤ ua)
    (h : |dmS| * Water.cp (meanS Tp) ≤ |dmD| * Water.cp (meanD Tp)) : excess dmS dmD Tp ua < 100 := by
  unfold excess
  have h1 : |dmS| * Water.cp (meanS Tp) / (|dmD| * Water.cp (meanD Tp)) - 1 ≤ 0 := by
    rw [sub_nonpos, div_le_one hd]
    exact h
  have h2 : 0 ≤ ua / (|dmS| * Water.cp (meanS Tp)) := by positivity
  nlinarith [mul_nonneg (neg_nonneg.2 h1) h2]

/-- 60 degC supply, 40 degC demand on all ports: twice the supply flow, more heat. -/
example : ∃ T T', solvePlates someP 0.1 1 ![70, 50, 30, 50] = some T ∧ solvePlates someP 0.2 1 ![70, 50, 30, 50] = some T' ∧
    given 0.1 ![70, 50, 30, 50] T < given 0.2 ![70, 50, 30, 50] T' := by
  have ms : meanS ![70, 50, 30, 50] = 60 := by norm_num [meanS]
  have md : meanD ![70, 50, 30, 50] = 40 := by
    simp [meanD]
    norm_num
  have below : ∀ dm : ℝ, 0 < dm → dm ≤ 0.2 → ∀ ua,
      plateUA someP |dm| |1| (meanS ![70, 50, 30, 50]) (meanD ![70, 50, 30, 50]) = some ua →
      excess dm 1 ![70, 50, 30, 50] ua < 100 := by
    intro dm h0 h1 ua hu
    have hp : 0 < ua := by
      obtain ⟨⟨x, _, e, _, hx, _⟩, _⟩ := C126_value_partial someP_valid (Ts := 60) (Td := 40) (a := |dm|) (b := |dm| + 1)
        (c := |1|) (by norm_num) (by norm_num) (by norm_num) (by norm_num)
        (by rw [abs_abs, abs_of_pos (show 0 < |dm| + 1 by positivity)]; linarith)
      rw [ms, md, e] at hu
      injection hu with hu
      rwa [← hu]
    have c1 : Water.cp (meanS ![70, 50, 30, 50]) ≤ 5 * Water.cp (meanD ![70, 50, 30, 50]) := by
      rw [ms, md]
      norm_num [Water.cp]
    have c0 : 0 < Water.cp (meanS ![70, 50, 30, 50]) := by rw [ms]; norm_num [Water.cp]
    have c2 : 0 < Water.cp (meanD ![70, 50, 30, 50]) := by rw [md]; norm_num [Water.cp]
    apply excess_lt c0 (by simpa using c2) (abs_nonneg _) hp.le
    rw [abs_of_pos h0, abs_one, one_mul]
    nlinarith
  obtain ⟨T, T', h1, h2, -, h4, h5⟩ := C127_supply_partial someP_valid (Tp := ![70, 50, 30, 50]) (a := 0.1) (b := 0.2)
    (c := 1) (by rw [ms]; norm_num) (by rw [ms]; norm_num) (by rw [md]; norm_num) (by rw [md]; norm_num) (by norm_num)
    (by norm_num [abs_of_pos]) (by norm_num) (by simp [supIn, dmdIn]; norm_num)
    (fun ua h => (below 0.1 (by norm_num) (by norm_num) ua h).ne)
    (fun ua h => (below 0.2 (by norm_num) (by norm_num) ua h).ne)
  refine ⟨T, T', h1, h2, ?_⟩
  rcases h5 with h | ⟨-, ua, hu, hx⟩
  · exact h
  · exact absurd hx (not_lt.2 (below 0.1 (by norm_num) (by norm_num) ua hu).le)

/-- **C127** fails exactly at the limit of the formula: there a slightly larger supply flow transfers *less* heat
(`3030` at the limit, `60` above it). -/
theorem C127_fails_limit :
    ∃ (a b UA : ℝ) (Tp : Fin 4 → ℝ), 0 < a ∧ a < b ∧ 0 < UA ∧ Tp 2 < Tp 0 ∧
      b * (Tp 0 - PlateHex.solve b 1 Tp UA 1 1 1) < a * (Tp 0 - PlateHex.solve a 1 Tp UA 1 1 1) := by
  refine ⟨101, 102, 101, ![80, 0, 20, 0], by norm_num, by norm_num, by norm_num, by simp; norm_num, ?_⟩
  obtain ⟨-, ea, -, -⟩ := solve_flow 101 1 ![80, 0, 20, 0] 101 1 1 (by norm_num) (by norm_num)
  obtain ⟨-, eb, -, -⟩ := solve_flow 102 1 ![80, 0, 20, 0] 101 1 1 (by norm_num) (by norm_num)
  have pa : pSup (101 / (|(101 : ℝ)| * 1)) (|(101 : ℝ)| * 1 / (|(1 : ℝ)| * 1)) = 1 / 2 := by
    unfold pSup
    norm_num
  have pb : pSup (101 / (|(102 : ℝ)| * 1)) (|(102 : ℝ)| * 1 / (|(1 : ℝ)| * 1)) = 1 / 102 := by
    unfold pSup
    norm_num
  rw [pa] at ea
  rw [pb] at eb
  have o1 : supOut 101 = 1 := by norm_num [supOut]
  have o2 : supOut 102 = 1 := by norm_num [supOut]
  have i1 : supIn 101 = 0 := by norm_num [supIn]
  have i2 : supIn 102 = 0 := by norm_num [supIn]
  have i3 : dmdIn 1 = 2 := by norm_num [dmdIn]
  rw [o1, i1, i3] at ea
  rw [o2, i2, i3] at eb
  rw [ea, eb]
  simp
  norm_num

end Verif.PlatePower
