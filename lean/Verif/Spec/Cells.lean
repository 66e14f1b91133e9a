import Verif.Model.Cells
import Mathlib.Algebra.BigOperators.Group.Finset.Basic
import Mathlib.Data.Finset.Range

/-!
# Energy balance of a column of cells

The physical quantities the energy balance is about, written down independently of the differentials.
-/

namespace Verif.Cells

variable {K : Type*} [Field K] [LinearOrder K]

/-- Heat capacity of cell `k`: water plus wall. -/
def heatCapacity (mat : Mat K) (g : Geo K) (s : Inp K) (k : ℕ) : K :=
  mat.cp (s.T k) * mat.rho (s.T k) * g.vCell + g.mcpWll

/-- Specific enthalpy of water. -/
def enthalpy (mat : Mat K) (T : K) : K := mat.cp T * T

/-- Conductance of a port: half a cell of the other part and half an own cell in series, parallel to the
port wall. -/
def portConductance (mat : Mat K) (g : Geo K) (s : Inp K) (p : Port K) : K :=
  p.uaWll + p.area / (p.gsp / 2 / mat.lam p.T + g.gs / 2 / mat.lam (s.T p.idx))

/-- Heat flow from the ambient through shell and lids. -/
def fromAmbient (g : Geo K) (s : Inp K) : K :=
  (∑ k ∈ Finset.range g.n, s.uaAmb k * (s.Tamb - s.T k)) +
    s.lidTop * (s.Tamb - s.T 0) + s.lidBot * (s.Tamb - s.T (g.n - 1))

/-- Heat conducted through the ports. -/
def throughPorts (mat : Mat K) (g : Geo K) (s : Inp K) (ports : List (Port K)) : K :=
  (ports.map fun p => portConductance mat g s p * (p.T - s.T p.idx)).sum

/-- Enthalpy flow through the ports: inflow brings the enthalpy of the connected port, outflow takes the
enthalpy of the own cell. -/
def enthalpyThroughPorts (mat : Mat K) (s : Inp K) (ports : List (Port K)) : K :=
  (ports.map fun p => if 0 ≤ p.io then p.io * enthalpy mat p.T else p.io * enthalpy mat (s.T p.idx)).sum

/-- Rate of change of the heat content for temperature rates `dT`. -/
def heatRate (mat : Mat K) (g : Geo K) (s : Inp K) (dT : ℕ → K) : K :=
  ∑ k ∈ Finset.range g.n, heatCapacity mat g s k * dT k

end Verif.Cells
