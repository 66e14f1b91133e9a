import Verif.Model.PlateHex
import Verif.Spec.PlateHex
import Verif.Spec.Mixing
import Verif.Model.Water
import Mathlib.Tactic.Linarith
import Mathlib.Tactic.FieldSimp
import Mathlib.Tactic.Positivity

/-!
# C32, C33: plate heat exchanger
-/

namespace Verif.PlateHex

open Verif.Mixing

/-- What the heat exchanger shows at its ports when both sides flow. -/
theorem solve_flow (dmS dmD : ℝ) (Tp : Fin 4 → ℝ) (UA cpS cpD : ℝ) (hS : dmS ≠ 0) (hD : dmD ≠ 0) :
    let P := pSup (UA / (|dmS| * cpS)) (|dmS| * cpS / (|dmD| * cpD))
    let Δ := Tp (supIn dmS) - Tp (dmdIn dmD)
    let T := solve dmS dmD Tp UA cpS cpD
    T (supIn dmS) = Tp (supIn dmS) ∧ T (supOut dmS) = Tp (supIn dmS) - P * Δ ∧
    T (dmdIn dmD) = Tp (dmdIn dmD) ∧
    T (dmdOut dmD) = Tp (dmdIn dmD) + P * (|dmS| * cpS / (|dmD| * cpD)) * Δ := by
  have key : ∀ x : ℝ, (if 0 ≤ x then x else -x) = |x| := by
    intro x
    split_ifs with h
    · rw [abs_of_nonneg h]
    · rw [abs_of_neg (not_le.1 h)]
  have h1 : |dmS| ≠ 0 := abs_ne_zero.2 hS
  have h2 : |dmD| ≠ 0 := abs_ne_zero.2 hD
  intro P Δ T
  have hT : T = solve dmS dmD Tp UA cpS cpD := rfl
  unfold solve at hT
  simp only [key, h1, h2, ne_eq, not_false_eq_true, and_self, if_true] at hT
  rw [hT]
  simp only [Δ, P]
  unfold supIn supOut dmdIn dmdOut
  by_cases a : 0 ≤ dmS <;> by_cases b : 0 ≤ dmD <;> simp [a, b]

/-! ## C32 -/

/-- **C32**, partial: with the heat capacities at the mean temperatures, the supply side gives off exactly the
heat that the demand side takes up, for every pair of flows in both directions, all temperatures and every
heat transfer value.  Missing: the neighbouring parts calculate enthalpies with the heat capacities at the
outlet temperatures, and in those terms the balance does not close (`C32_fails_enthalpy`). -/
theorem C32_energy_balance_partial (dmS dmD : ℝ) (Tp : Fin 4 → ℝ) (UA cpS cpD : ℝ) (hS : dmS ≠ 0)
    (hD : dmD ≠ 0) (hcD : 0 < cpD) :
    let T := solve dmS dmD Tp UA cpS cpD
    |dmS| * cpS * (Tp (supIn dmS) - T (supOut dmS)) = |dmD| * cpD * (T (dmdOut dmD) - Tp (dmdIn dmD)) := by
  intro T
  obtain ⟨-, e2, -, e4⟩ := solve_flow dmS dmD Tp UA cpS cpD hS hD
  have h2 : |dmD| ≠ 0 := abs_ne_zero.2 hD
  simp only [T, e2, e4]
  field_simp
  ring

/-- Equal flows of 1 kg/s, the demand side flowing backwards, 80 and 20 degrees, as much heat transfer value as
capacity flow: the temperatures meet in the middle. -/
example :
    let T := solve 1 (-1) ![80, 0, 0, 20] 4200 4200 4200
    T 1 = 50 ∧ T 2 = 50 := by
  intro T
  obtain ⟨-, e2, -, e4⟩ := solve_flow 1 (-1) ![80, 0, 0, 20] 4200 4200 4200 (by norm_num) (by norm_num)
  have hP : pSup (4200 / (|(1 : ℝ)| * 4200)) (|(1 : ℝ)| * 4200 / (|(-1 : ℝ)| * 4200)) = 1 / 2 := by
    norm_num [pSup]
  have i1 : supIn 1 = 0 := by norm_num [supIn]
  have i2 : supOut 1 = 1 := by norm_num [supOut]
  have i3 : dmdIn (-1) = 3 := by norm_num [dmdIn]
  have i4 : dmdOut (-1) = 2 := by norm_num [dmdOut]
  have p0 : (![80, 0, 0, 20] : Fin 4 → ℝ) 0 = 80 := rfl
  have p3 : (![80, 0, 0, 20] : Fin 4 → ℝ) 3 = 20 := rfl
  rw [hP, i1, i2, i3, p0, p3] at e2
  rw [hP, i1, i3, i4, p0, p3] at e4
  simp only [T]
  rw [e2, e4]
  norm_num

/-- **C32** is false of the code in terms of the enthalpies that the neighbouring parts account for: with 10 kg/s
of supply water at 90 degrees and 1 kg/s of demand water at 10 degrees the supply side loses more than one
percent more than the demand side receives. -/
theorem C32_fails_enthalpy :
    let Tp : Fin 4 → ℝ := ![90, 82, 10, 90]
    let T := solve 10 1 Tp 100000000 (Water.cp ((90 + 82) / 2)) (Water.cp ((10 + 90) / 2))
    let lost := (⟨10, Tp 0⟩ : Stream ℝ).enthalpy Water.cp - (⟨10, T 1⟩ : Stream ℝ).enthalpy Water.cp
    let received := (⟨1, T 3⟩ : Stream ℝ).enthalpy Water.cp - (⟨1, Tp 2⟩ : Stream ℝ).enthalpy Water.cp
    0 < received ∧ (1 + 1 / 100) * received < lost := by
  intro Tp T lost received
  obtain ⟨-, e2, -, e4⟩ := solve_flow 10 1 Tp 100000000 (Water.cp ((90 + 82) / 2))
    (Water.cp ((10 + 90) / 2)) (by norm_num) (by norm_num)
  have hP : pSup (100000000 / (|(10 : ℝ)| * Water.cp ((90 + 82) / 2)))
      (|(10 : ℝ)| * Water.cp ((90 + 82) / 2) / (|(1 : ℝ)| * Water.cp ((10 + 90) / 2))) =
      1 / (|(10 : ℝ)| * Water.cp ((90 + 82) / 2) / (|(1 : ℝ)| * Water.cp ((10 + 90) / 2))) := by
    unfold pSup
    simp only [abs_of_pos (show (0 : ℝ) < 10 by norm_num), abs_one]
    rw [if_neg, if_pos]
    · norm_num [Water.cp]
    · norm_num [Water.cp]
  have i1 : supIn 10 = 0 := by norm_num [supIn]
  have i2 : supOut 10 = 1 := by norm_num [supOut]
  have i3 : dmdIn 1 = 2 := by norm_num [dmdIn]
  have i4 : dmdOut 1 = 3 := by norm_num [dmdOut]
  rw [hP, i1, i2, i3] at e2
  rw [hP, i1, i3, i4] at e4
  simp only [abs_of_pos (show (0 : ℝ) < 10 by norm_num), abs_one] at e2 e4
  have p0 : Tp 0 = 90 := rfl
  have p2 : Tp 2 = 10 := rfl
  simp only [received, lost, Stream.enthalpy, T, e2, e4, p0, p2]
  constructor <;> norm_num [Water.cp]

/-! ## C33 -/

theorem pSup_bounds {NTU R : ℝ} (hN : 0 ≤ NTU) (hR : 0 < R) (h100 : (R - 1) * NTU ≠ 100) :
    0 ≤ pSup NTU R ∧ pSup NTU R ≤ 1 ∧ pSup NTU R * R ≤ 1 := by
  unfold pSup
  simp only
  split_ifs with h1 h2
  · obtain ⟨hne, -⟩ := h1
    set e := Real.exp ((R - 1) * NTU) with he
    have he0 : 0 < e := Real.exp_pos _
    rcases lt_or_gt_of_ne hne with hlt | hgt
    · have he1 : e ≤ 1 := by
        rw [he, Real.exp_le_one_iff]
        exact mul_nonpos_of_nonpos_of_nonneg (by linarith) hN
      have hRe : R * e < 1 := by nlinarith
      have hd : 0 < 1 - R * e := by linarith
      refine ⟨div_nonneg (by linarith) hd.le, ?_, ?_⟩
      · rw [div_le_one hd]; nlinarith
      · rw [div_mul_eq_mul_div, div_le_one hd]; nlinarith
    · have he1 : 1 ≤ e := by
        rw [he]
        exact Real.one_le_exp (mul_nonneg (by linarith) hN)
      have hRe : 1 < R * e := by nlinarith
      have hd : 0 < R * e - 1 := by linarith
      have eq : (1 - e) / (1 - R * e) = (e - 1) / (R * e - 1) := by
        rw [← neg_sub e 1, ← neg_sub (R * e) 1, neg_div_neg_eq]
      rw [eq]
      refine ⟨div_nonneg (by linarith) hd.le, ?_, ?_⟩
      · rw [div_le_one hd]; nlinarith
      · rw [div_mul_eq_mul_div, div_le_one hd]; nlinarith
  · have hR1 : 1 < R := by
      by_contra hc
      have := mul_nonpos_of_nonpos_of_nonneg (sub_nonpos.2 (not_lt.1 hc)) hN
      linarith
    refine ⟨by positivity, ?_, ?_⟩
    · rw [div_le_one hR]; exact hR1.le
    · rw [one_div, inv_mul_cancel₀ hR.ne']
  · have hR1 : R = 1 := by
      by_contra hc
      have h3 : ¬ (R - 1) * NTU < 100 := fun h => h1 ⟨hc, h⟩
      exact h100 (le_antisymm (not_lt.1 h2) (not_lt.1 h3))
    have : 0 < 1 + NTU := by linarith
    have hle : NTU / (1 + NTU) ≤ 1 := by rw [div_le_one this]; linarith
    exact ⟨div_nonneg hN this.le, hle, by rw [hR1, mul_one]; exact hle⟩

/-- **C33**, partial: unless `(R - 1) * NTU` is exactly 100, both outlet temperatures lie between the two
inlet temperatures, and the heat transferred is at most the smaller capacity flow times the temperature
difference of the inlets and flows from hot to cold.  Missing: at exactly 100 the code uses the formula for
equal capacity flows and the claim is false (`C33_fails_at_limit`). -/
theorem C33_second_law_partial (dmS dmD : ℝ) (Tp : Fin 4 → ℝ) (UA cpS cpD : ℝ) (hS : dmS ≠ 0)
    (hD : dmD ≠ 0) (hcS : 0 < cpS) (hcD : 0 < cpD) (hUA : 0 ≤ UA)
    (h100 : (|dmS| * cpS / (|dmD| * cpD) - 1) * (UA / (|dmS| * cpS)) ≠ 100) :
    let T := solve dmS dmD Tp UA cpS cpD
    let Q := |dmS| * cpS * (Tp (supIn dmS) - T (supOut dmS))
    let Δ := Tp (supIn dmS) - Tp (dmdIn dmD)
    Between (T (supOut dmS)) (Tp (supIn dmS)) (Tp (dmdIn dmD)) ∧
    Between (T (dmdOut dmD)) (Tp (supIn dmS)) (Tp (dmdIn dmD)) ∧
    |Q| ≤ min (|dmS| * cpS) (|dmD| * cpD) * |Δ| ∧ 0 ≤ Q * Δ := by
  intro T Q Δ
  obtain ⟨-, e2, -, e4⟩ := solve_flow dmS dmD Tp UA cpS cpD hS hD
  have h1 : 0 < |dmS| := abs_pos.2 hS
  have h2 : 0 < |dmD| := abs_pos.2 hD
  have hcs : 0 < |dmS| * cpS := mul_pos h1 hcS
  have hcd : 0 < |dmD| * cpD := mul_pos h2 hcD
  obtain ⟨p1, p2, p3⟩ := pSup_bounds (NTU := UA / (|dmS| * cpS)) (R := |dmS| * cpS / (|dmD| * cpD))
    (by positivity) (by positivity) h100
  have hR : 0 < |dmS| * cpS / (|dmD| * cpD) := by positivity
  simp only [Q, T]
  rw [e2, e4]
  set P := pSup (UA / (|dmS| * cpS)) (|dmS| * cpS / (|dmD| * cpD)) with hP
  set a := Tp (supIn dmS) with ha
  set b := Tp (dmdIn dmD) with hb
  have hPR : 0 ≤ P * (|dmS| * cpS / (|dmD| * cpD)) := mul_nonneg p1 hR.le
  have conv : ∀ w : ℝ, 0 ≤ w → w ≤ 1 → min a b ≤ a - w * (a - b) ∧ a - w * (a - b) ≤ max a b := by
    intro w w0 w1
    rcases le_total a b with h | h
    · rw [min_eq_left h, max_eq_right h]; constructor <;> nlinarith
    · rw [min_eq_right h, max_eq_left h]; constructor <;> nlinarith
  refine ⟨conv P p1 p2, ?_, ?_, ?_⟩
  · have := conv (1 - P * (|dmS| * cpS / (|dmD| * cpD))) (by linarith) (by linarith)
    have e : a - (1 - P * (|dmS| * cpS / (|dmD| * cpD))) * (a - b) =
        b + P * (|dmS| * cpS / (|dmD| * cpD)) * (a - b) := by ring
    rw [e] at this
    exact this
  · have e : |dmS| * cpS * (a - (a - P * Δ)) = |dmS| * cpS * P * Δ := by ring
    rw [e, abs_mul, abs_of_nonneg (mul_nonneg hcs.le p1)]
    refine mul_le_mul_of_nonneg_right (le_min ?_ ?_) (abs_nonneg _)
    · nlinarith
    · rw [mul_div_assoc', div_le_one hcd] at p3; linarith
  · have e : |dmS| * cpS * (a - (a - P * Δ)) * Δ = |dmS| * cpS * P * Δ ^ 2 := by ring
    rw [e]
    positivity

example : ((1 : ℝ) * 4200 / (1 / 2 * 4200) - 1) * (5000 / (1 * 4200)) ≠ 100 := by norm_num

/-- **C33** (no flow): if one side stands still, the other side passes its inlet temperature on, and the
side without flow shows the temperatures of its neighbours, so nothing is transferred. -/
theorem C33_zero_flow (dmS dmD : ℝ) (Tp : Fin 4 → ℝ) (UA cpS cpD : ℝ) :
    (dmS ≠ 0 → dmD = 0 →
      let T := solve dmS dmD Tp UA cpS cpD
      T (supOut dmS) = Tp (supIn dmS) ∧ T 2 = Tp 2 ∧ T 3 = Tp 3) ∧
    (dmS = 0 → dmD ≠ 0 →
      let T := solve dmS dmD Tp UA cpS cpD
      T (dmdOut dmD) = Tp (dmdIn dmD) ∧ T 0 = Tp 0 ∧ T 1 = Tp 1) := by
  refine ⟨fun hS hD => ?_, fun hS hD => ?_⟩
  · intro T
    simp only [T]
    unfold solve supOut supIn
    have hS' : -dmS ≠ 0 := neg_ne_zero.2 hS
    by_cases a : 0 ≤ dmS <;> simp [a, hD, hS, hS']
  · intro T
    simp only [T]
    unfold solve dmdOut dmdIn
    have hD' : -dmD ≠ 0 := neg_ne_zero.2 hD
    by_cases a : 0 ≤ dmD <;> simp [a, hD, hS, hD']

/-- **C33** is false of the code when `(R - 1) * NTU` is exactly 100: the demand water leaves with 3050
degrees between inlets of 80 and 20 degrees. -/
theorem C33_fails_at_limit :
    ∃ (dmS dmD UA cpS cpD : ℝ) (Tp : Fin 4 → ℝ), 0 < dmS ∧ 0 < dmD ∧ 0 < UA ∧ 0 < cpS ∧ 0 < cpD ∧
      Tp (supIn dmS) = 80 ∧ Tp (dmdIn dmD) = 20 ∧
      solve dmS dmD Tp UA cpS cpD (dmdOut dmD) = 3050 := by
  refine ⟨101, 1, 101, 1, 1, ![80, 0, 20, 0], by norm_num, by norm_num, by norm_num, by norm_num,
    by norm_num, by norm_num [supIn], ?_, ?_⟩
  · simp [dmdIn]
  · obtain ⟨-, -, -, e4⟩ := solve_flow 101 1 ![80, 0, 20, 0] 101 1 1 (by norm_num) (by norm_num)
    rw [e4]
    have : pSup (101 / (|(101 : ℝ)| * 1)) (|(101 : ℝ)| * 1 / (|(1 : ℝ)| * 1)) = 1 / 2 := by
      unfold pSup
      norm_num
    rw [this]
    simp [supIn, dmdIn]
    norm_num

end Verif.PlateHex
