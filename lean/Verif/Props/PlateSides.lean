import Verif.Props.PlateHex
import Verif.Model.Conductance
import Mathlib.Analysis.SpecialFunctions.Log.Basic
import Mathlib.Tactic.LinearCombination
import Mathlib.Tactic.FinCases

/-!
# C186, C187: what kind of apparatus the plate heat exchanger is

C186: it has no preferred side and no preferred direction.  C187: it transfers the heat transfer value times the
logarithmic mean of the temperature differences at its two ends, so cutting it into two pieces changes nothing.
-/

namespace Verif.PlateHex

/-! ## C186 -/

/-- The port of the other side at the same place. -/
def otherSide : Fin 4 → Fin 4 := ![2, 3, 0, 1]
/-- The other port of the supply side, the same port of the demand side. -/
def turnSup : Fin 4 → Fin 4 := ![1, 0, 2, 3]
/-- The other port of the demand side, the same port of the supply side. -/
def turnDmd : Fin 4 → Fin 4 := ![0, 1, 3, 2]

/-- **C186** (direction, supply side): with the supply pipes exchanged and the supply flow reversed, the same
temperatures appear at the exchanged ports. -/
theorem C186_turn_supply (dmS dmD : ℝ) (Tp : Fin 4 → ℝ) (UA cpS cpD : ℝ) (i : Fin 4) :
    solve (-dmS) dmD (fun j => Tp (turnSup j)) UA cpS cpD i = solve dmS dmD Tp UA cpS cpD (turnSup i) := by
  rcases lt_trichotomy dmS 0 with h | h | h
  · have a : ¬ 0 ≤ dmS := not_le.2 h
    have b : 0 ≤ -dmS := by linarith
    fin_cases i <;> simp [solve, turnSup, a, b]
  · subst h
    by_cases d : dmD = 0 <;> by_cases s : 0 ≤ dmD <;> fin_cases i <;> simp [solve, turnSup, d, s]
  · have a : 0 ≤ dmS := h.le
    have b : ¬ 0 ≤ -dmS := by linarith
    fin_cases i <;> simp [solve, turnSup, a, b]

/-- **C186** (direction, demand side). -/
theorem C186_turn_demand (dmS dmD : ℝ) (Tp : Fin 4 → ℝ) (UA cpS cpD : ℝ) (i : Fin 4) :
    solve dmS (-dmD) (fun j => Tp (turnDmd j)) UA cpS cpD i = solve dmS dmD Tp UA cpS cpD (turnDmd i) := by
  rcases lt_trichotomy dmD 0 with h | h | h
  · have a : ¬ 0 ≤ dmD := not_le.2 h
    have b : 0 ≤ -dmD := by linarith
    fin_cases i <;> simp [solve, turnDmd, a, b]
  · subst h
    by_cases d : dmS = 0 <;> by_cases s : 0 ≤ dmS <;> fin_cases i <;> simp [solve, turnDmd, d, s]
  · have a : 0 ≤ dmD := h.le
    have b : ¬ 0 ≤ -dmD := by linarith
    fin_cases i <;> simp [solve, turnDmd, a, b]

/-- With water flowing backwards on the supply side the mixed example of C32 gives the same temperatures at the
exchanged ports. -/
example : solve (-1) 2 (fun j => ![80, 70, 20, 30] (turnSup j)) 4200 4200 4200 0 =
    solve 1 2 ![80, 70, 20, 30] 4200 4200 4200 1 :=
  C186_turn_supply 1 2 ![80, 70, 20, 30] 4200 4200 4200 0

/-- Between the capacity flows: the exponent of the textbook formula. -/
theorem expo {UA c d : ℝ} (hc : 0 < c) (hd : 0 < d) : (c / d - 1) * (UA / c) = UA * (1 / d - 1 / c) := by
  field_simp

/-- The denominators of the formula are not zero. -/
theorem den_ne {UA c d : ℝ} (hc : 0 < c) (hd : 0 < d) (hUA : 0 ≤ UA) (hne : c ≠ d) :
    1 - c / d * Real.exp (UA * (1 / d - 1 / c)) ≠ 0 := by
  rcases lt_or_gt_of_ne hne with h | h
  · have h1 : Real.exp (UA * (1 / d - 1 / c)) ≤ 1 := by
      rw [Real.exp_le_one_iff]
      refine mul_nonpos_of_nonneg_of_nonpos hUA ?_
      have := one_div_lt_one_div_of_lt hc h
      linarith
    have h2 : c / d < 1 := (div_lt_one hd).2 h
    have h3 : 0 < c / d := div_pos hc hd
    have h4 := Real.exp_pos (UA * (1 / d - 1 / c))
    nlinarith
  · have h1 : 1 ≤ Real.exp (UA * (1 / d - 1 / c)) := by
      refine Real.one_le_exp (mul_nonneg hUA ?_)
      have := one_div_lt_one_div_of_lt hd h
      linarith
    have h2 : 1 < c / d := (one_lt_div hd).2 h
    nlinarith

/-- The formula of the code below its limit, for different capacity flows. -/
theorem pSup_ne {UA c d : ℝ} (hc : 0 < c) (hd : 0 < d) (hne : c ≠ d) (hx : UA * (1 / d - 1 / c) < 100) :
    pSup (UA / c) (c / d) =
      (1 - Real.exp (UA * (1 / d - 1 / c))) / (1 - c / d * Real.exp (UA * (1 / d - 1 / c))) := by
  have h1 : c / d ≠ 1 := fun h => hne ((div_eq_one_iff_eq hd.ne').1 h)
  unfold pSup
  simp only [expo hc hd]
  exact if_pos ⟨h1, hx⟩

/-- The formula of the code for equal capacity flows. -/
theorem pSup_eq {UA c : ℝ} (hc : 0 < c) : pSup (UA / c) (c / c) = UA / (c + UA) := by
  unfold pSup
  simp only [div_self hc.ne', sub_self, zero_mul, ne_eq, not_true_eq_false, false_and, if_false]
  rw [if_neg (by norm_num)]
  by_cases h : c + UA = 0
  · have : 1 + UA / c = 0 := by field_simp; linarith
    rw [this, h]; simp
  · have : 1 + UA / c = (c + UA) / c := by field_simp
    rw [this, div_div_div_cancel_right₀ hc.ne']

/-- The formula of the code above its limit. -/
theorem pSup_big {UA c d : ℝ} (hc : 0 < c) (hd : 0 < d) (hx : 100 < UA * (1 / d - 1 / c)) :
    pSup (UA / c) (c / d) = d / c := by
  unfold pSup
  simp only [expo hc hd]
  rw [if_neg (fun h => absurd h.2 (not_lt.2 hx.le)), if_pos hx, one_div_div]

/-- The share of the demand side is the share of the supply side with the sides exchanged. -/
theorem pSup_swap {UA c d : ℝ} (hc : 0 < c) (hd : 0 < d) (hUA : 0 ≤ UA) (h1 : UA * (1 / d - 1 / c) < 100)
    (h2 : UA * (1 / c - 1 / d) < 100) : pSup (UA / d) (d / c) = pSup (UA / c) (c / d) * (c / d) := by
  by_cases hne : c = d
  · subst hne; rw [div_self hc.ne', mul_one]
  · rw [pSup_ne hc hd hne h1, pSup_ne hd hc (Ne.symm hne) h2]
    have n1 := den_ne hc hd hUA hne
    have n2 := den_ne hd hc hUA (Ne.symm hne)
    have e : UA * (1 / c - 1 / d) = -(UA * (1 / d - 1 / c)) := by ring
    rw [e, Real.exp_neg] at n2 ⊢
    have e0 := Real.exp_pos (UA * (1 / d - 1 / c))
    set e := Real.exp (UA * (1 / d - 1 / c))
    have k : 1 - d / c * e⁻¹ = -(1 - c / d * e) * (d / c * e⁻¹) := by field_simp; ring
    rw [div_eq_iff n2, k]
    obtain ⟨u, hu⟩ : ∃ u, u = 1 - c / d * e := ⟨_, rfl⟩
    rw [← hu] at n1 ⊢
    field_simp
    ring

/-- What appears at the ports if the two sides of `solve` are exchanged, in terms of the shares. -/
theorem swap_ports (dmS dmD : ℝ) (Tp : Fin 4 → ℝ) (UA cpS cpD B : ℝ) (hB : 0 ≤ B)
    (h : dmS ≠ 0 → dmD ≠ 0 →
      let c := |dmS| * cpS
      let d := |dmD| * cpD
      |pSup (UA / c) (c / d) - pSup (UA / d) (d / c) * (d / c)| ≤ B ∧
      |pSup (UA / d) (d / c) - pSup (UA / c) (c / d) * (c / d)| ≤ B) (i : Fin 4) :
    |solve dmD dmS (fun j => Tp (otherSide j)) UA cpD cpS i - solve dmS dmD Tp UA cpS cpD (otherSide i)| ≤
      B * |Tp (supIn dmS) - Tp (dmdIn dmD)| := by
  have hr : 0 ≤ B * |Tp (supIn dmS) - Tp (dmdIn dmD)| := mul_nonneg hB (abs_nonneg _)
  by_cases hS : dmS = 0
  · subst hS
    refine le_trans (le_of_eq ?_) hr
    rw [abs_eq_zero, sub_eq_zero]
    by_cases d : dmD = 0 <;> by_cases s : 0 ≤ dmD <;> fin_cases i <;> simp [solve, otherSide, d, s]
  · by_cases hD : dmD = 0
    · subst hD
      refine le_trans (le_of_eq ?_) hr
      rw [abs_eq_zero, sub_eq_zero]
      by_cases s : 0 ≤ dmS <;> fin_cases i <;> simp [solve, otherSide, hS, s]
    · obtain ⟨k1, k2⟩ := h hS hD
      obtain ⟨a1, a2, a3, a4⟩ := solve_flow dmS dmD Tp UA cpS cpD hS hD
      obtain ⟨b1, b2, b3, b4⟩ := solve_flow dmD dmS (fun j => Tp (otherSide j)) UA cpD cpS hD hS
      have o1 : otherSide (supIn dmD) = dmdIn dmD := by unfold supIn dmdIn; split_ifs <;> rfl
      have o2 : otherSide (dmdIn dmS) = supIn dmS := by unfold supIn dmdIn; split_ifs <;> rfl
      have o3 : otherSide (supOut dmD) = dmdOut dmD := by unfold supOut dmdOut; split_ifs <;> rfl
      have o4 : otherSide (dmdOut dmS) = supOut dmS := by unfold supOut dmdOut; split_ifs <;> rfl
      have all : i = supIn dmD ∨ i = supOut dmD ∨ i = dmdIn dmS ∨ i = dmdOut dmS := by
        unfold supIn supOut dmdIn dmdOut
        split_ifs <;> fin_cases i <;> simp
      simp only [o1, o2] at b1 b2 b3 b4
      rcases all with e | e | e | e <;> subst e
      · rw [b1, o1, a3, sub_self, abs_zero]; exact hr
      · rw [b2, o3, a4, ← neg_sub (Tp (supIn dmS)), mul_neg, sub_neg_eq_add, add_sub_add_left_eq_sub, ← sub_mul,
          abs_mul]
        exact mul_le_mul_of_nonneg_right k2 (abs_nonneg _)
      · rw [b3, o2, a1, sub_self, abs_zero]; exact hr
      · rw [b4, o4, a2, ← neg_sub (Tp (supIn dmS)), mul_neg, ← sub_eq_add_neg, sub_sub_sub_cancel_left, ← sub_mul,
          abs_mul]
        exact mul_le_mul_of_nonneg_right k1 (abs_nonneg _)

/-- **C186** (sides; partial: both exponents below the limit of the formula): with the two circuits exchanged, the
same temperatures appear at the exchanged ports, for all flows in either direction or none. -/
theorem C186_sides_partial (dmS dmD : ℝ) (Tp : Fin 4 → ℝ) {UA cpS cpD : ℝ} (hcS : 0 < cpS) (hcD : 0 < cpD)
    (hUA : 0 ≤ UA) (hx : |UA * (1 / (|dmD| * cpD) - 1 / (|dmS| * cpS))| < 100) (i : Fin 4) :
    solve dmD dmS (fun j => Tp (otherSide j)) UA cpD cpS i = solve dmS dmD Tp UA cpS cpD (otherSide i) := by
  have key := swap_ports dmS dmD Tp UA cpS cpD 0 le_rfl (fun hS hD => by
    intro c d
    have hc : 0 < c := mul_pos (abs_pos.2 hS) hcS
    have hd : 0 < d := mul_pos (abs_pos.2 hD) hcD
    obtain ⟨x1, x2⟩ := abs_lt.1 hx
    have y1 : UA * (1 / d - 1 / c) < 100 := x2
    have y2 : UA * (1 / c - 1 / d) < 100 := by
      have : UA * (1 / c - 1 / d) = -(UA * (1 / d - 1 / c)) := by ring
      have x1' : -100 < UA * (1 / d - 1 / c) := x1
      linarith
    rw [pSup_swap hc hd hUA y1 y2]
    constructor
    · have : c / d * (d / c) = 1 := by field_simp
      rw [mul_assoc, this, mul_one, sub_self, abs_zero]
    · rw [sub_self, abs_zero]) i
  rw [zero_mul] at key
  exact sub_eq_zero.1 (abs_eq_zero.1 (le_antisymm key (abs_nonneg _)))

example : |(10000 : ℝ) * (1 / (|(2 : ℝ)| * 4200) - 1 / (|(-1 : ℝ)| * 4200))| < 100 := by norm_num [abs_lt]

/-- Beyond the limit the formula and its cut-off differ by no more than the exponential. -/
theorem pSup_tail {UA c d : ℝ} (hc : 0 < c) (hd : 0 < d) (hUA : 0 ≤ UA) (hx : 100 < UA * (1 / d - 1 / c)) :
    |pSup (UA / c) (c / d) - pSup (UA / d) (d / c) * (d / c)| ≤ Real.exp (-100) ∧
      |pSup (UA / d) (d / c) - pSup (UA / c) (c / d) * (c / d)| ≤ Real.exp (-100) := by
  have hdc : d < c := by
    by_contra h
    have h1 := one_div_le_one_div_of_le hc (not_lt.1 h)
    nlinarith
  have hr : d / c < 1 := (div_lt_one hc).2 hdc
  have hr0 : 0 < d / c := div_pos hd hc
  have e : UA * (1 / c - 1 / d) = -(UA * (1 / d - 1 / c)) := by ring
  rw [pSup_big hc hd hx, pSup_ne hd hc hdc.ne (by linarith), e]
  have ev := Real.exp_pos (-(UA * (1 / d - 1 / c)))
  have ew : Real.exp (-(UA * (1 / d - 1 / c))) ≤ Real.exp (-100) := Real.exp_le_exp.2 (by linarith)
  have e1 : Real.exp (-(UA * (1 / d - 1 / c))) ≤ 1 := Real.exp_le_one_iff.2 (by linarith)
  set v := Real.exp (-(UA * (1 / d - 1 / c)))
  have hden : 0 < 1 - d / c * v := by nlinarith
  have hdev : (1 : ℝ) - (1 - v) / (1 - d / c * v) = v * ((1 - d / c) / (1 - d / c * v)) := by
    obtain ⟨u, hu⟩ : ∃ u, u = 1 - d / c * v := ⟨_, rfl⟩
    rw [← hu] at hden ⊢
    have k : u - (1 - v) = v * (1 - d / c) := by rw [hu]; ring
    rw [mul_div_assoc', ← k, sub_div u, div_self hden.ne']
  have hf0 : 0 ≤ (1 - d / c) / (1 - d / c * v) := div_nonneg (by linarith) hden.le
  have hf1 : (1 - d / c) / (1 - d / c * v) ≤ 1 := by rw [div_le_one hden]; nlinarith
  have hb : |(1 : ℝ) - (1 - v) / (1 - d / c * v)| ≤ Real.exp (-100) := by
    rw [hdev, abs_of_nonneg (mul_nonneg ev.le hf0)]
    exact le_trans (mul_le_of_le_one_right ev.le hf1) ew
  have hone : d / c * (c / d) = 1 := by field_simp
  constructor
  · have : d / c - (1 - v) / (1 - d / c * v) * (d / c) = d / c * (1 - (1 - v) / (1 - d / c * v)) := by ring
    rw [this, abs_mul, abs_of_pos hr0]
    exact le_trans (mul_le_of_le_one_left (abs_nonneg _) hr.le) hb
  · rw [hone, abs_sub_comm]
    exact hb

/-- **C186** (sides, everywhere but exactly at the limit of the formula): exchanging the circuits changes no
temperature by more than `e⁻¹⁰⁰` times the temperature difference between the inlets. -/
theorem C186_sides_close_partial (dmS dmD : ℝ) (Tp : Fin 4 → ℝ) {UA cpS cpD : ℝ} (hcS : 0 < cpS) (hcD : 0 < cpD)
    (hUA : 0 ≤ UA) (hx : |UA * (1 / (|dmD| * cpD) - 1 / (|dmS| * cpS))| ≠ 100) (i : Fin 4) :
    |solve dmD dmS (fun j => Tp (otherSide j)) UA cpD cpS i - solve dmS dmD Tp UA cpS cpD (otherSide i)| ≤
      Real.exp (-100) * |Tp (supIn dmS) - Tp (dmdIn dmD)| := by
  rcases lt_or_gt_of_ne hx with h | h
  · rw [C186_sides_partial dmS dmD Tp hcS hcD hUA h, sub_self, abs_zero]
    positivity
  · refine swap_ports dmS dmD Tp UA cpS cpD _ (Real.exp_pos _).le (fun hS hD => ?_) i
    intro c d
    have hc : 0 < c := mul_pos (abs_pos.2 hS) hcS
    have hd : 0 < d := mul_pos (abs_pos.2 hD) hcD
    have h' : 100 < |UA * (1 / d - 1 / c)| := h
    rcases lt_abs.1 h' with k | k
    · exact pSup_tail hc hd hUA k
    · have := pSup_tail hd hc hUA (by linarith [show UA * (1 / c - 1 / d) = -(UA * (1 / d - 1 / c)) by ring])
      exact ⟨this.2, this.1⟩

/-- A tiny demand flow: beyond the limit. -/
example : |(10000 : ℝ) * (1 / (|(1 / 100 : ℝ)| * 4200) - 1 / (|(-1 : ℝ)| * 4200))| ≠ 100 := by
  norm_num [abs_of_pos]

/-- **C186** fails exactly at the limit: connected one way round the demand water leaves with 3050 degrees, with the
circuits exchanged the same water leaves with at most 80 degrees. -/
theorem C186_fails_limit :
    ∃ (dmS dmD UA cpS cpD : ℝ) (Tp : Fin 4 → ℝ), 0 < dmS ∧ 0 < dmD ∧ 0 < UA ∧ 0 < cpS ∧ 0 < cpD ∧
      solve dmS dmD Tp UA cpS cpD 3 = 3050 ∧
      solve dmD dmS (fun j => Tp (otherSide j)) UA cpD cpS 1 ≤ 80 := by
  refine ⟨101, 1, 101, 1, 1, ![80, 0, 20, 0], by norm_num, by norm_num, by norm_num, by norm_num,
    by norm_num, ?_, ?_⟩
  · obtain ⟨-, -, -, e4⟩ := solve_flow 101 1 ![80, 0, 20, 0] 101 1 1 (by norm_num) (by norm_num)
    have : pSup (101 / (|(101 : ℝ)| * 1)) (|(101 : ℝ)| * 1 / (|(1 : ℝ)| * 1)) = 1 / 2 := by
      unfold pSup
      norm_num
    rw [this] at e4
    have e5 : dmdOut 1 = 3 := by simp [dmdOut]
    rw [e5] at e4
    rw [e4]
    simp [supIn, dmdIn]
    norm_num
  · have hs := C33_second_law_partial 1 101 (fun j => (![80, 0, 20, 0] : Fin 4 → ℝ) (otherSide j)) 101 1 1
      one_ne_zero (by norm_num) one_pos one_pos (by norm_num) (by norm_num)
    have h1 := hs.1.2
    have e5 : supOut 1 = 1 := by simp [supOut]
    rw [e5] at h1
    refine le_trans h1 ?_
    simp [supIn, dmdIn, otherSide]
    norm_num

/-! ## C187 -/

/-- The two laws of a counterflow heat exchanger below the limit of the formula: the heat given off is taken up, and
the temperature differences at the two ends have the ratio of the textbook. -/
theorem ends (dmS dmD : ℝ) (Tp : Fin 4 → ℝ) {UA cpS cpD : ℝ} (hS : dmS ≠ 0) (hD : dmD ≠ 0) (hcS : 0 < cpS)
    (hcD : 0 < cpD) (hUA : 0 ≤ UA) (hx : UA * (1 / (|dmD| * cpD) - 1 / (|dmS| * cpS)) < 100) :
    let T := solve dmS dmD Tp UA cpS cpD
    let c := |dmS| * cpS
    let d := |dmD| * cpD
    T (supOut dmS) - Tp (dmdIn dmD) = Real.exp (UA * (1 / d - 1 / c)) * (Tp (supIn dmS) - T (dmdOut dmD)) ∧
    d * (T (dmdOut dmD) - Tp (dmdIn dmD)) = c * (Tp (supIn dmS) - T (supOut dmS)) ∧
    (c = d → UA * (T (supOut dmS) - Tp (dmdIn dmD)) = c * (Tp (supIn dmS) - T (supOut dmS))) := by
  intro T c d
  have hc : 0 < c := mul_pos (abs_pos.2 hS) hcS
  have hd : 0 < d := mul_pos (abs_pos.2 hD) hcD
  obtain ⟨-, a2, -, a4⟩ := solve_flow dmS dmD Tp UA cpS cpD hS hD
  have hb := C32_energy_balance_partial dmS dmD Tp UA cpS cpD hS hD hcD
  change T (supOut dmS) = Tp (supIn dmS) - pSup (UA / c) (c / d) * _ at a2
  change T (dmdOut dmD) = Tp (dmdIn dmD) + pSup (UA / c) (c / d) * (c / d) * _ at a4
  refine ⟨?_, hb.symm, ?_⟩
  · rw [a2, a4]
    by_cases hne : c = d
    · rw [← hne, sub_self, mul_zero, Real.exp_zero, div_self hc.ne']; ring
    · rw [pSup_ne hc hd hne hx]
      have n1 := den_ne hc hd hUA hne
      set e := Real.exp (UA * (1 / d - 1 / c))
      obtain ⟨u, hu⟩ : ∃ u, u = 1 - c / d * e := ⟨_, rfl⟩
      have k : c / d * e = 1 - u := by rw [hu]; ring
      have k1 : 1 - (1 - e) / u = e * ((1 - c / d) / u) := by
        rw [mul_div_assoc', show e * (1 - c / d) = u - (1 - e) by linear_combination -hu, sub_div u]
        rw [← hu] at n1
        rw [div_self n1]
      have k2 : 1 - (1 - e) / u * (c / d) = (1 - c / d) / u := by
        rw [show 1 - c / d = u - (1 - e) * (c / d) by linear_combination -hu, sub_div u]
        rw [← hu] at n1
        rw [div_self n1]
        ring
      rw [← hu]
      linear_combination (Tp (supIn dmS) - Tp (dmdIn dmD)) * (k1 - e * k2)
  · intro hcd
    rw [a2, ← hcd, pSup_eq hc]
    have : c + UA ≠ 0 := by positivity
    field_simp
    ring

/-- **C187** (partial: below the limit of the formula): the heat given off is the heat transfer value times the
logarithmic mean of the temperature differences at the two ends, for all flows in either direction; with equal
capacity flows, times the difference that is the same at both ends. -/
theorem C187_mean_partial (dmS dmD : ℝ) (Tp : Fin 4 → ℝ) {UA cpS cpD : ℝ} (hS : dmS ≠ 0) (hD : dmD ≠ 0)
    (hcS : 0 < cpS) (hcD : 0 < cpD) (hUA : 0 ≤ UA)
    (hx : UA * (1 / (|dmD| * cpD) - 1 / (|dmS| * cpS)) < 100)
    (hΔ : Tp (supIn dmS) ≠ Tp (dmdIn dmD)) :
    let T := solve dmS dmD Tp UA cpS cpD
    let Q := |dmS| * cpS * (Tp (supIn dmS) - T (supOut dmS))
    let x := Tp (supIn dmS) - T (dmdOut dmD)
    let y := T (supOut dmS) - Tp (dmdIn dmD)
    0 < x / y ∧ (|dmS| * cpS ≠ |dmD| * cpD → UA ≠ 0 → Real.log (x / y) ≠ 0 ∧ Q = UA * ((x - y) / Real.log (x / y))) ∧
    (|dmS| * cpS = |dmD| * cpD → x = y ∧ Q = UA * x) := by
  intro T Q x y
  obtain ⟨h1, h2, h3⟩ := ends dmS dmD Tp hS hD hcS hcD hUA hx
  have hc : 0 < |dmS| * cpS := mul_pos (abs_pos.2 hS) hcS
  have hd : 0 < |dmD| * cpD := mul_pos (abs_pos.2 hD) hcD
  set c := |dmS| * cpS
  set d := |dmD| * cpD
  change y = Real.exp (UA * (1 / d - 1 / c)) * x at h1
  change d * (T (dmdOut dmD) - Tp (dmdIn dmD)) = Q at h2
  have e0 := Real.exp_pos (UA * (1 / d - 1 / c))
  have hx0 : x ≠ 0 := by
    intro hx0
    rw [hx0, mul_zero] at h1
    have k1 : T (dmdOut dmD) = Tp (supIn dmS) := by simp only [x] at hx0; linarith
    have k2 : T (supOut dmS) = Tp (dmdIn dmD) := by simp only [y] at h1; linarith
    have k3 : d * (Tp (supIn dmS) - Tp (dmdIn dmD)) = c * (Tp (supIn dmS) - Tp (dmdIn dmD)) := by
      have := h2; simp only [Q] at this; rw [k1, k2] at this; exact this
    have k4 : d = c := mul_right_cancel₀ (sub_ne_zero.2 hΔ) k3
    have k5 : UA * y = c * (Tp (supIn dmS) - T (supOut dmS)) := h3 k4.symm
    rw [h1, mul_zero, k2] at k5
    exact (mul_ne_zero hc.ne' (sub_ne_zero.2 hΔ)) k5.symm
  have hr : x / y = Real.exp (-(UA * (1 / d - 1 / c))) := by
    rw [h1, Real.exp_neg]
    field_simp
  refine ⟨hr ▸ Real.exp_pos _, fun hne hU => ?_, fun he => ?_⟩
  · have hl : Real.log (x / y) = UA * (1 / c - 1 / d) := by
      rw [hr, Real.log_exp]; ring
    have hl0 : Real.log (x / y) ≠ 0 := by
      rw [hl]
      refine mul_ne_zero hU (sub_ne_zero.2 fun h => hne ?_)
      rw [one_div, one_div] at h
      exact inv_injective h
    refine ⟨hl0, ?_⟩
    have hxy : x - y = Q * (1 / c - 1 / d) := by
      have k1 : x - y = (Tp (supIn dmS) - T (supOut dmS)) - (T (dmdOut dmD) - Tp (dmdIn dmD)) := by
        simp only [x, y]; ring
      rw [k1, show T (dmdOut dmD) - Tp (dmdIn dmD) = Q / d by rw [← h2]; field_simp]
      have hQ : Q = c * (Tp (supIn dmS) - T (supOut dmS)) := rfl
      rw [hQ]
      field_simp
    rw [mul_div_assoc', eq_div_iff hl0, hl, hxy]
    ring
  · have k : x = y := by
      rw [h1, he, sub_self, mul_zero, Real.exp_zero, one_mul]
    refine ⟨k, ?_⟩
    rw [k]
    exact (h3 he).symm

/-- **C187** (the function of the library; partial as above): with different capacity flows, `log_mean_temp_diff` of the four temperatures
at the ports gives the mean difference with which the heat exchanger works; with equal ones it gives no number (`0 / 0`). -/
theorem C187_function_partial (dmS dmD : ℝ) (Tp : Fin 4 → ℝ) {UA cpS cpD : ℝ} (hS : dmS ≠ 0) (hD : dmD ≠ 0)
    (hcS : 0 < cpS) (hcD : 0 < cpD) (hUA : 0 < UA)
    (hx : UA * (1 / (|dmD| * cpD) - 1 / (|dmS| * cpS)) < 100)
    (hΔ : Tp (supIn dmS) ≠ Tp (dmdIn dmD)) :
    let T := solve dmS dmD Tp UA cpS cpD
    let m := Conductance.lmtd (T (supIn dmS)) (T (dmdOut dmD)) (T (supOut dmS)) (T (dmdIn dmD))
    (|dmS| * cpS ≠ |dmD| * cpD → ∃ v, m = some v ∧ |dmS| * cpS * (Tp (supIn dmS) - T (supOut dmS)) = UA * v) ∧
    (|dmS| * cpS = |dmD| * cpD → m = none) := by
  intro T m
  obtain ⟨p, q1, q2⟩ := C187_mean_partial dmS dmD Tp hS hD hcS hcD hUA.le hx hΔ
  obtain ⟨a1, -, a3, -⟩ := solve_flow dmS dmD Tp UA cpS cpD hS hD
  have hm : m = Conductance.lmtd (Tp (supIn dmS)) (T (dmdOut dmD)) (T (supOut dmS)) (Tp (dmdIn dmD)) := by
    simp only [m, T]
    rw [a1, a3]
  rw [hm]
  unfold Conductance.lmtd
  change 0 < (Tp (supIn dmS) - T (dmdOut dmD)) / (T (supOut dmS) - Tp (dmdIn dmD)) at p
  have n1 : T (supOut dmS) - Tp (dmdIn dmD) ≠ 0 := by
    intro h; rw [h, div_zero] at p; exact lt_irrefl _ p
  have n2 : Tp (supIn dmS) - T (dmdOut dmD) ≠ 0 := by
    intro h; rw [h, zero_div] at p; exact lt_irrefl _ p
  rw [if_neg n1, if_neg n2, if_neg (not_lt.2 p.le)]
  constructor
  · intro hne
    obtain ⟨l, e⟩ := q1 hne hUA.ne'
    refine ⟨_, if_neg fun h => l ?_, e⟩
    change Real.log ((Tp (supIn dmS) - T (dmdOut dmD)) / (T (supOut dmS) - Tp (dmdIn dmD))) = 0
    rw [h, Real.log_one]
  · intro he
    refine if_pos ?_
    have := (q2 he).1
    change Tp (supIn dmS) - T (dmdOut dmD) = T (supOut dmS) - Tp (dmdIn dmD) at this
    rw [this, div_self n1]

/-- **C187** (side by side): heat exchangers of the same size next to each other, each with the same share of the flows, show
the temperatures of a single one with the sum of their heat transfer values (and any multiple likewise). -/
theorem C187_parallel (dmS dmD : ℝ) (Tp : Fin 4 → ℝ) (UA cpS cpD : ℝ) {k : ℝ} (hk : 0 < k) :
    solve (k * dmS) (k * dmD) Tp (k * UA) cpS cpD = solve dmS dmD Tp UA cpS cpD := by
  have h1 : ∀ a : ℝ, (0 ≤ k * a) = (0 ≤ a) := fun a => propext (mul_nonneg_iff_of_pos_left hk)
  have h2 : ∀ a : ℝ, (if 0 ≤ a then k * a else -(k * a)) = k * if 0 ≤ a then a else -a := by
    intro a; split_ifs <;> ring
  have h3 : ∀ a : ℝ, (k * a ≠ 0) = (a ≠ 0) := by
    intro a; simp [hk.ne']
  have h4 : ∀ a b : ℝ, k * a / (k * b) = a / b := fun a b => mul_div_mul_left _ _ hk.ne'
  unfold solve
  simp only [h1, h2, h3, mul_assoc, h4]

/-- Half the demand flow, 80 and 20 degrees. -/
example : (5000 : ℝ) * (1 / (|(1 / 2 : ℝ)| * 4200) - 1 / (|(1 : ℝ)| * 4200)) < 100 ∧
    |(1 : ℝ)| * 4200 ≠ |(1 / 2 : ℝ)| * 4200 := by norm_num [abs_of_pos]

/-- **C187** (cutting; partial: below the limit of the formula): two heat exchangers one behind the other in
counterflow, the supply water first through the first, the demand water first through the second, show at their
outer ports the temperatures of a single one with the sum of their heat transfer values. -/
theorem C187_cut_partial (dmS dmD : ℝ) (T1 T2 Tp : Fin 4 → ℝ) {UA UB cpS cpD : ℝ} (hS : dmS ≠ 0) (hD : dmD ≠ 0)
    (hcS : 0 < cpS) (hcD : 0 < cpD) (hUA : 0 ≤ UA) (hUB : 0 ≤ UB)
    (hx : (UA + UB) * (1 / (|dmD| * cpD) - 1 / (|dmS| * cpS)) < 100)
    (hs0 : T1 (supIn dmS) = Tp (supIn dmS)) (hd0 : T2 (dmdIn dmD) = Tp (dmdIn dmD))
    (hs1 : T2 (supIn dmS) = solve dmS dmD T1 UA cpS cpD (supOut dmS))
    (hd1 : T1 (dmdIn dmD) = solve dmS dmD T2 UB cpS cpD (dmdOut dmD)) :
    solve dmS dmD T2 UB cpS cpD (supOut dmS) = solve dmS dmD Tp (UA + UB) cpS cpD (supOut dmS) ∧
    solve dmS dmD T1 UA cpS cpD (dmdOut dmD) = solve dmS dmD Tp (UA + UB) cpS cpD (dmdOut dmD) := by
  have hc : 0 < |dmS| * cpS := mul_pos (abs_pos.2 hS) hcS
  have hd : 0 < |dmD| * cpD := mul_pos (abs_pos.2 hD) hcD
  have xa : UA * (1 / (|dmD| * cpD) - 1 / (|dmS| * cpS)) < 100 := by
    rcases le_total 0 (1 / (|dmD| * cpD) - 1 / (|dmS| * cpS)) with h | h
    · nlinarith [mul_nonneg hUB h]
    · nlinarith [mul_nonpos_of_nonneg_of_nonpos hUA h]
  have xb : UB * (1 / (|dmD| * cpD) - 1 / (|dmS| * cpS)) < 100 := by
    rcases le_total 0 (1 / (|dmD| * cpD) - 1 / (|dmS| * cpS)) with h | h
    · nlinarith [mul_nonneg hUA h]
    · nlinarith [mul_nonpos_of_nonneg_of_nonpos hUB h]
  obtain ⟨a1, a2, a3⟩ := ends dmS dmD T1 hS hD hcS hcD hUA xa
  obtain ⟨b1, b2, b3⟩ := ends dmS dmD T2 hS hD hcS hcD hUB xb
  obtain ⟨c1, c2, c3⟩ := ends dmS dmD Tp hS hD hcS hcD (add_nonneg hUA hUB) hx
  rw [add_mul, Real.exp_add] at c1
  have n1 : ∀ h : |dmS| * cpS ≠ |dmD| * cpD, _ := fun h => den_ne hc hd (add_nonneg hUA hUB) h
  rw [add_mul, Real.exp_add] at n1
  simp only [hs0, hs1, hd0, hd1] at a1 a2 a3 b1 b2 b3
  set c := |dmS| * cpS
  set d := |dmD| * cpD
  set e := Real.exp (UA * (1 / d - 1 / c))
  set f := Real.exp (UB * (1 / d - 1 / c))
  set s0 := Tp (supIn dmS)
  set d0 := Tp (dmdIn dmD)
  set s1 := solve dmS dmD T1 UA cpS cpD (supOut dmS)
  set d1 := solve dmS dmD T2 UB cpS cpD (dmdOut dmD)
  set s2 := solve dmS dmD T2 UB cpS cpD (supOut dmS)
  set d2 := solve dmS dmD T1 UA cpS cpD (dmdOut dmD)
  set s := solve dmS dmD Tp (UA + UB) cpS cpD (supOut dmS)
  set t := solve dmS dmD Tp (UA + UB) cpS cpD (dmdOut dmD)
  have key : s2 = s := by
    by_cases hcd : c = d
    · have h1 := a3 hcd
      have h2 := b3 hcd
      have h3 := c3 hcd
      have e1 : s1 - d1 = s2 - d0 := by
        have : f = 1 := by simp only [f]; rw [hcd, sub_self, mul_zero, Real.exp_zero]
        rw [this] at b1; linarith
      rw [e1] at h1
      have : (c + (UA + UB)) * (s2 - s) = 0 := by linear_combination h1 + h2 - h3
      rcases mul_eq_zero.1 this with h | h
      · exfalso; linarith
      · linarith
    · have n := n1 hcd
      have h1 : s2 - d0 = e * f * (s0 - d2) := by rw [b1, a1]; ring
      have h2 : d * (d2 - d0) = c * (s0 - s2) := by linear_combination a2 + b2
      have : (1 - c / d * (e * f)) * (s2 - s) = 0 := by
        have k1 : d2 - t = -(c / d) * (s2 - s) := by field_simp; linear_combination h2 - c2
        linear_combination h1 - c1 - e * f * k1
      rcases mul_eq_zero.1 this with h | h
      · exact absurd h n
      · linarith
  refine ⟨key, ?_⟩
  have : d * (d2 - t) = 0 := by
    have h2 : d * (d2 - d0) = c * (s0 - s2) := by linear_combination a2 + b2
    rw [key] at h2
    linear_combination h2 - c2
  rcases mul_eq_zero.1 this with h | h
  · exact absurd h hd.ne'
  · linarith

/-- Two heat exchangers with equal capacity flows of 1, each with a heat transfer value of 1, between 80 and 20
degrees: 60 and 40 degrees in between on the supply and demand side, together as one with a value of 2. -/
example :
    let T1 : Fin 4 → ℝ := ![80, 0, 40, 0]
    let T2 : Fin 4 → ℝ := ![60, 0, 20, 0]
    solve 1 1 T1 1 1 1 (supOut 1) = T2 (supIn 1) ∧ solve 1 1 T2 1 1 1 (dmdOut 1) = T1 (dmdIn 1) ∧
    solve 1 1 T2 1 1 1 (supOut 1) = 40 ∧ solve 1 1 ![80, 0, 20, 0] 2 1 1 (supOut 1) = 40 := by
  intro T1 T2
  obtain ⟨-, a2, -, -⟩ := solve_flow 1 1 T1 1 1 1 one_ne_zero one_ne_zero
  obtain ⟨-, b2, -, b4⟩ := solve_flow 1 1 T2 1 1 1 one_ne_zero one_ne_zero
  obtain ⟨-, c2, -, -⟩ := solve_flow 1 1 ![80, 0, 20, 0] 2 1 1 one_ne_zero one_ne_zero
  have h1 : pSup (1 / (|(1 : ℝ)| * 1)) (|(1 : ℝ)| * 1 / (|(1 : ℝ)| * 1)) = 1 / 2 := by norm_num [pSup]
  have h2 : pSup (2 / (|(1 : ℝ)| * 1)) (|(1 : ℝ)| * 1 / (|(1 : ℝ)| * 1)) = 2 / 3 := by norm_num [pSup]
  rw [h1] at a2 b2 b4
  rw [h2] at c2
  rw [a2, b2, b4, c2]
  simp [T1, T2, supIn, dmdIn]
  norm_num

end Verif.PlateHex
