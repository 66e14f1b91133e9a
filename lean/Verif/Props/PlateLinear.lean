import Verif.Props.PlateHex

/-!
# C206: a plate heat exchanger answers in proportion to its inlet temperatures
-/

namespace Verif.PlateHex

/-- **C206**: the temperatures at the ports are linear in the temperatures of the water that comes in: what two sets of
temperatures cause together is what they cause alone, in any proportions; for all flows in either direction or none. -/
theorem C206_superposition (dmS dmD UA cpS cpD a b : ℝ) (Tp Tp' : Fin 4 → ℝ) (i : Fin 4) :
    solve dmS dmD (fun j => a * Tp j + b * Tp' j) UA cpS cpD i =
      a * solve dmS dmD Tp UA cpS cpD i + b * solve dmS dmD Tp' UA cpS cpD i := by
  unfold solve
  dsimp only
  fin_cases i <;> simp only [Fin.isValue, Fin.zero_eta, Fin.mk_one, Fin.reduceFinMk, Matrix.cons_val] <;> split_ifs <;>
    dsimp only <;> ring

/-- **C206**: with all temperatures shifted, everything is shifted. -/
theorem C206_shift (dmS dmD UA cpS cpD b : ℝ) (Tp : Fin 4 → ℝ) (i : Fin 4) :
    solve dmS dmD (fun j => Tp j + b) UA cpS cpD i = solve dmS dmD Tp UA cpS cpD i + b := by
  unfold solve
  dsimp only
  fin_cases i <;> simp only [Fin.isValue, Fin.zero_eta, Fin.mk_one, Fin.reduceFinMk, Matrix.cons_val] <;> split_ifs <;>
    dsimp only <;> ring

/-- **C206**: the heat given off by the supply water is proportional to the difference between the inlet temperatures: there is a
factor which depends on the flows, the heat capacities and the heat transfer value only. -/
theorem C206_proportional (dmS dmD UA cpS cpD : ℝ) (hS : dmS ≠ 0) (hD : dmD ≠ 0) :
    ∃ f : ℝ, ∀ Tp : Fin 4 → ℝ,
      |dmS| * cpS * (Tp (supIn dmS) - solve dmS dmD Tp UA cpS cpD (supOut dmS)) =
        f * (Tp (supIn dmS) - Tp (dmdIn dmD)) := by
  refine ⟨|dmS| * cpS * pSup (UA / (|dmS| * cpS)) (|dmS| * cpS / (|dmD| * cpD)), fun Tp => ?_⟩
  obtain ⟨-, e2, -, -⟩ := solve_flow dmS dmD Tp UA cpS cpD hS hD
  rw [e2]
  ring

/-- **C206**, partial: if no water that comes in is colder than before, no water that goes out is; unless `(R - 1) * NTU` is exactly
100.  Missing: at exactly 100, where it is false (`C206_fails_limit`). -/
theorem C206_monotone_partial (dmS dmD UA cpS cpD : ℝ) {Tp Tp' : Fin 4 → ℝ} (hT : ∀ i, Tp i ≤ Tp' i) (hcS : 0 < cpS)
    (hcD : 0 < cpD) (hUA : 0 ≤ UA)
    (h100 : (|dmS| * cpS / (|dmD| * cpD) - 1) * (UA / (|dmS| * cpS)) ≠ 100) (i : Fin 4) :
    solve dmS dmD Tp UA cpS cpD i ≤ solve dmS dmD Tp' UA cpS cpD i := by
  have key : ∀ U : Fin 4 → ℝ, (∀ i, 0 ≤ U i) → 0 ≤ solve dmS dmD U UA cpS cpD i := by
    intro U hU
    by_cases hS : dmS = 0
    · subst hS
      unfold solve
      dsimp only
      simp only [le_refl, ne_eq, not_true_eq_false, false_and, if_false, if_true]
      fin_cases i <;> simp only [Fin.isValue, Fin.zero_eta, Fin.mk_one, Fin.reduceFinMk, Matrix.cons_val] <;>
        (try split_ifs) <;> exact hU _
    by_cases hD : dmD = 0
    · subst hD
      unfold solve
      dsimp only
      simp only [le_refl, ne_eq, not_true_eq_false, and_false, if_false, if_true]
      fin_cases i <;> simp only [Fin.isValue, Fin.zero_eta, Fin.mk_one, Fin.reduceFinMk, Matrix.cons_val] <;>
        (try split_ifs) <;> exact hU _
    obtain ⟨b1, b2, -, -⟩ := C33_second_law_partial dmS dmD U UA cpS cpD hS hD hcS hcD hUA h100
    obtain ⟨e1, -, e3, -⟩ := solve_flow dmS dmD U UA cpS cpD hS hD
    have i1 : 0 ≤ solve dmS dmD U UA cpS cpD (supIn dmS) := by rw [e1]; exact hU _
    have i2 : 0 ≤ solve dmS dmD U UA cpS cpD (supOut dmS) := (le_min (hU _) (hU _)).trans b1.1
    have i3 : 0 ≤ solve dmS dmD U UA cpS cpD (dmdIn dmD) := by rw [e3]; exact hU _
    have i4 : 0 ≤ solve dmS dmD U UA cpS cpD (dmdOut dmD) := (le_min (hU _) (hU _)).trans b2.1
    unfold supIn at i1
    unfold supOut at i2
    unfold dmdIn at i3
    unfold dmdOut at i4
    by_cases h1 : 0 ≤ dmS <;> by_cases h2 : 0 ≤ dmD <;> simp only [h1, h2, if_true, if_false] at i1 i2 i3 i4 <;>
      fin_cases i <;> assumption
  have := key (fun j => 1 * Tp' j + (-1) * Tp j) fun j => by have := hT j; linarith
  rw [C206_superposition] at this
  linarith

/-- Water of 80 and 20 degrees in equal flows; with a supply of 90 degrees all water that leaves is hotter, and 70 instead of
60 degrees of difference transfer 7/6 of the heat. -/
example : solve 1 1 ![80, 0, 20, 0] 1 1 1 1 = 50 ∧ solve 1 1 ![80, 0, 20, 0] 1 1 1 3 = 50 ∧
    solve 1 1 ![90, 0, 20, 0] 1 1 1 1 = 55 ∧ solve 1 1 ![90, 0, 20, 0] 1 1 1 3 = 55 ∧
    ((|1| * 1 / (|1| * 1) - 1) * (1 / (|1| * 1)) : ℝ) ≠ 100 := by
  have hp : pSup 1 1 = 1 / 2 := by
    unfold pSup
    norm_num
  refine ⟨?_, ?_, ?_, ?_, by norm_num⟩ <;> simp [solve, hp, Matrix.cons_val] <;> norm_num

/-- **C206** (monotony) fails when `(R - 1) * NTU` is exactly 100: with *warmer* demand water at the inlet (21 instead of 20
degrees) the demand water leaves *colder*, by 49.5 degrees. -/
theorem C206_fails_limit : ∃ (dmS dmD UA cpS cpD : ℝ) (Tp Tp' : Fin 4 → ℝ), 0 < dmS ∧ 0 < dmD ∧ 0 < UA ∧ 0 < cpS ∧ 0 < cpD ∧
    (∀ i, Tp i ≤ Tp' i) ∧ solve dmS dmD Tp' UA cpS cpD (dmdOut dmD) = solve dmS dmD Tp UA cpS cpD (dmdOut dmD) - 99 / 2 := by
  refine ⟨101, 1, 101, 1, 1, ![80, 0, 20, 0], ![80, 0, 21, 0], by norm_num, by norm_num, by norm_num, by norm_num,
    by norm_num, ?_, ?_⟩
  · intro i
    fin_cases i <;> simp <;> norm_num
  · obtain ⟨-, -, -, e4⟩ := solve_flow 101 1 ![80, 0, 20, 0] 101 1 1 (by norm_num) (by norm_num)
    obtain ⟨-, -, -, e5⟩ := solve_flow 101 1 ![80, 0, 21, 0] 101 1 1 (by norm_num) (by norm_num)
    rw [e4, e5]
    have : pSup (101 / (|(101 : ℝ)| * 1)) (|(101 : ℝ)| * 1 / (|(1 : ℝ)| * 1)) = 1 / 2 := by
      unfold pSup
      norm_num
    rw [this]
    simp [supIn, dmdIn]
    norm_num

end Verif.PlateHex
