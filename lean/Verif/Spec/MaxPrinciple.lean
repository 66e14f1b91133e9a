import Verif.Spec.Cells

/-!
# What bounds the temperatures of one explicit step

The total conductance of a cell, written down independently of the differentials.
-/

namespace Verif.Cells

variable {K : Type*} [Field K] [LinearOrder K]

/-- Conductance of the face between cells `k` and `k + 1`: two half cells in series, parallel to the wall.
`buoy` is the increase of the conductivity by buoyancy. -/
def faceConductance (mat : Mat K) (g : Geo K) (s : Inp K) (k : ℕ) : K :=
  s.buoy k * (g.aCell / (g.gs / 2 / mat.lam (s.T k) + g.gs / 2 / mat.lam (s.T (k + 1)))) + g.uaTbWll

/-- Everything that is connected to cell `k` by conduction: both neighbours, the ambient through the shell
and the lids, the ports. -/
def totalConductance (mat : Mat K) (g : Geo K) (s : Inp K) (ports : List (Port K)) (k : ℕ) : K :=
  (if 0 < k then faceConductance mat g s (k - 1) else 0) +
  (if k + 1 < g.n then faceConductance mat g s k else 0) +
  s.uaAmb k + (if k = 0 then s.lidTop else 0) + (if k + 1 = g.n then s.lidBot else 0) +
  ((ports.filter (·.idx = k)).map (portConductance mat g s)).sum

/-- Water that flows into cell `k` through its ports. -/
def inflowThroughPorts (ports : List (Port K)) (k : ℕ) : K :=
  ((ports.filter (·.idx = k)).map fun p => max p.io 0).sum

/-- `L` bounds the specific heat between `m` and `M`: the enthalpy grows with the temperature and by at most
`L` per degree. -/
def EnthalpySlope (mat : Mat K) (m M L : K) : Prop :=
  ∀ a b, m ≤ a → a ≤ b → b ≤ M →
    0 ≤ enthalpy mat b - enthalpy mat a ∧ enthalpy mat b - enthalpy mat a ≤ L * (b - a)

/-- All temperatures a part sees lie between `m` and `M`. -/
structure Within (g : Geo K) (s : Inp K) (ports : List (Port K)) (m M : K) : Prop where
  cells : ∀ k < g.n, m ≤ s.T k ∧ s.T k ≤ M
  ambient : m ≤ s.Tamb ∧ s.Tamb ≤ M
  ports : ∀ p ∈ ports, m ≤ p.T ∧ p.T ≤ M

/-- Physically meaningful constants; the conductivity of the fluid is only asked to be positive at the temperatures
that occur (that of water is a polynomial, which is negative far above the boiling point). -/
structure Physical (mat : Mat K) (g : Geo K) (s : Inp K) (ports : List (Port K)) : Prop where
  lam : ∀ k < g.n, 0 < mat.lam (s.T k)
  gs : 0 < g.gs
  aCell : 0 ≤ g.aCell
  uaTbWll : 0 ≤ g.uaTbWll
  buoy : ∀ k, 0 ≤ s.buoy k
  uaAmb : ∀ k, 0 ≤ s.uaAmb k
  lidTop : 0 ≤ s.lidTop
  lidBot : 0 ≤ s.lidBot
  ports : ∀ p ∈ ports, 0 ≤ p.area ∧ 0 ≤ p.gsp ∧ 0 ≤ p.uaWll ∧ 0 < mat.lam p.T
  cap : ∀ k < g.n, 0 < heatCapacity mat g s k

end Verif.Cells
