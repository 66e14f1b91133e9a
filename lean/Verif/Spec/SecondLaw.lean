import Verif.Spec.MaxPrinciple

/-!
# What enters a part with respect to a function of the temperature

The heat balance of a part (`Spec/Cells.lean`) with `φ` of the temperatures instead of the temperatures; for `φ T = T` these
are the heat flows themselves.
-/

namespace Verif.Cells

variable {K : Type*} [Field K] [LinearOrder K]

/-- From the ambient, through shell and lids. -/
def ambientOf (φ : K → K) (g : Geo K) (s : Inp K) : K :=
  (∑ k ∈ Finset.range g.n, s.uaAmb k * (φ s.Tamb - φ (s.T k))) +
    s.lidTop * (φ s.Tamb - φ (s.T 0)) + s.lidBot * (φ s.Tamb - φ (s.T (g.n - 1)))

/-- By conduction through the ports. -/
def conductedOf (φ : K → K) (mat : Mat K) (g : Geo K) (s : Inp K) (ports : List (Port K)) : K :=
  (ports.map fun p => portConductance mat g s p * (φ p.T - φ (s.T p.idx))).sum

/-- With water of the specific heat `c` through the ports: inflow has the temperature of the connected port, outflow that
of the own cell. -/
def carriedOf (φ : K → K) (c : K) (s : Inp K) (ports : List (Port K)) : K :=
  (ports.map fun p => if 0 ≤ p.io then p.io * (c * φ p.T) else p.io * (c * φ (s.T p.idx))).sum

/-- Everything that enters. -/
def suppliedOf (φ : K → K) (c : K) (mat : Mat K) (g : Geo K) (s : Inp K) (ports : List (Port K)) : K :=
  ambientOf φ g s + conductedOf φ mat g s ports + carriedOf φ c s ports

end Verif.Cells
