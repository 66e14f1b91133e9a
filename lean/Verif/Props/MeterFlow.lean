import Verif.Model.MeterFlow
import Verif.Props.Flows
import Mathlib.Tactic.IntervalCases
import Mathlib.Tactic.NormNum

/-!
# C113: a mass flow meter shows the flow through the cell it is attached to
-/

set_option linter.unusedSectionVars false

namespace Verif.MeterFlow

open Verif.Flows

variable {K : Type*} [Field K] [LinearOrder K] [IsStrictOrderedRing K]

/-- Specification: the water that passes a cell.  In a column of cells this is what flows from the cell to the next
one, that is, everything that entered through ports at or above the cell; for the last cell, what flows into it from
the cell before.  At three-way parts, cells are ports.  A plate exchanger has the cells supply in and out, demand in
and out; the cells of the other exchangers are in rows (water, gas) and (supply, wall, demand). -/
def through : Part K → ℕ → Option K
  | .pipe _ io, _ => some io
  | .storage n ports, k => some (((ports.filter (·.1 ≤ min k (n - 2))).map Prod.snd).sum)
  | .pump io, _ => some io
  | .valve io, k => if h : k < 3 then some (io ⟨k, h⟩) else none
  | .connector io, k => if h : k < 3 then some (io ⟨k, h⟩) else none
  | .plateHex sup dmd, k => if k < 2 then some sup else some dmd
  | .condHex water gas, k => if k % 2 = 0 then some water else some gas
  | .numHex _ sup dmd, k => if k % 3 = 0 then some sup else if k % 3 = 2 then some dmd else none

/-- **C113**, partial: pipes, pumps and valves. -/
theorem C113_pipe_partial (n : ℕ) (io : K) (k : ℕ) (hk : k < n) :
    massflow (.pipe n io) k = through (.pipe n io) k := by
  simp [massflow, cells, resDm, massflowIdx, dmInvariant, through, hk]

theorem C113_pump_partial (io : K) (k : ℕ) (hk : k < 2) : massflow (.pump io) k = through (.pump io) k := by
  simp [massflow, cells, resDm, massflowIdx, dmInvariant, through, hk]

theorem C113_valve_partial (io : Fin 3 → K) (k : ℕ) (hk : k < 3) :
    massflow (.valve io) k = through (.valve io) k := by
  interval_cases k <;> simp [massflow, cells, resDm, massflowIdx, dmInvariant, through]

/-- **C113**, partial: storages, branched pipes and pipes with a valve, whatever the number and place of ports. -/
theorem C113_storage_partial (n : ℕ) (hn : 2 ≤ n) (ports : List (ℕ × K))
    (hs : (ports.map Prod.fst).Pairwise (· ≤ ·)) (hr : ∀ p ∈ ports, p.1 < n) (hb : (ports.map Prod.snd).sum = 0)
    (k : ℕ) (hk : k < n) : massflow (.storage n ports) k = through (.storage n ports) k := by
  obtain ⟨-, -, -, -, -, h6, h7⟩ := C20_cells_balanced n hn ports hs hr hb
  have e : massflow (.storage n ports) k =
      some ((processVar n (ports.map Prod.fst) (ports.map Prod.snd)).dm k) := by
    simp [massflow, cells, resDm, massflowIdx, dmInvariant, hk]
  rw [e]
  unfold through
  congr 1
  rcases Nat.lt_or_ge (k + 1) n with h | h
  · rw [h6 k h, min_eq_left (by omega)]
    rfl
  · have : k = n - 1 := by omega
    subst this
    rw [h7, min_eq_right (by omega)]
    rfl

/-- **C113**, partial: the first side of an exchanger. -/
theorem C113_supply_partial (n : ℕ) (sup dmd : K) (k : ℕ) (hk : k < n) :
    massflow (.numHex n sup dmd) (3 * k) = through (.numHex n sup dmd) (3 * k) := by
  have h : 3 * k < n * 3 := by omega
  simp [massflow, cells, resDm, massflowIdx, dmInvariant, through, h]

theorem C113_water_partial (water gas : K) (k : ℕ) (hk : k < 2) :
    massflow (.condHex water gas) (2 * k) = through (.condHex water gas) (2 * k) := by
  interval_cases k <;> simp [massflow, cells, resDm, massflowIdx, dmInvariant, through]

/-- **C113** (error): a meter cannot be attached to a cell that the part does not have. -/
theorem C113_outside (p : Part K) (k : ℕ) : (massflow p k).isSome → k < cells p := by
  unfold massflow
  split_ifs with h
  · exact fun _ => h
  · simp

example : massflow (.pipe 3 (2 : ℚ)) 2 = some 2 ∧ massflow (.pipe 3 (2 : ℚ)) 3 = none := by decide +kernel

/-- **C113** is false on the demand side of a numeric heat exchanger: the meter shows the flow of the supply side. -/
theorem C113_fails_demand (n : ℕ) (sup dmd : K) (k : ℕ) (hk : k < n) :
    massflow (.numHex n sup dmd) (3 * k + 2) = some sup ∧ through (.numHex n sup dmd) (3 * k + 2) = some dmd := by
  have h : 3 * k + 2 < n * 3 := by omega
  constructor
  · simp [massflow, cells, resDm, massflowIdx, dmInvariant, h]
  · have h1 : (3 * k + 2) % 3 = 2 := by omega
    simp [through, h1]

/-- **C113** is false on the flue gas side of the condensing heat exchanger: the meter shows the flow of water. -/
theorem C113_fails_gas (water gas : K) (k : ℕ) (hk : k < 2) :
    massflow (.condHex water gas) (2 * k + 1) = some water ∧
      through (.condHex water gas) (2 * k + 1) = some gas := by
  have h : 2 * k + 1 < 4 := by omega
  constructor
  · simp [massflow, cells, resDm, massflowIdx, dmInvariant, h]
  · have h1 : (2 * k + 1) % 2 = 1 := by omega
    simp [through]

/-- **C113** is false of plate heat exchangers and connectors: the meter shows zero, whatever flows. -/
theorem C113_fails_plate (sup dmd : K) (k : ℕ) (hk : k < 4) : massflow (.plateHex sup dmd) k = some 0 := by
  interval_cases k <;> simp [massflow, cells, resDm, massflowIdx, dmInvariant]

theorem C113_fails_connector (io : Fin 3 → K) (k : ℕ) (hk : k < 3) : massflow (.connector io) k = some 0 := by
  interval_cases k <;> simp [massflow, cells, resDm, massflowIdx, dmInvariant]

/-- A storage of five cells: 3 enter at the top, 1 leaves at cell 2, 2 at the bottom. -/
example : (List.range 5).map (massflow (.storage 5 [(0, (3 : ℚ)), (2, -1), (4, -2)])) =
    [some 3, some 3, some 2, some 2, some 2] := by decide +kernel

example : through (.storage 5 [(0, (3 : ℚ)), (2, -1), (4, -2)]) 1 = some 3 ∧
    through (.storage 5 [(0, (3 : ℚ)), (2, -1), (4, -2)]) 4 = some 2 := by decide +kernel

/-- A heat exchanger with 0.4 on the supply and 0.7 on the demand side: a meter at a demand cell shows 0.4. -/
example : massflow (.numHex 10 (0.4 : ℚ) 0.7) 29 = some 0.4 ∧ through (.numHex 10 (0.4 : ℚ) 0.7) 29 = some 0.7 :=
  C113_fails_demand 10 0.4 0.7 9 (by norm_num)

end Verif.MeterFlow
