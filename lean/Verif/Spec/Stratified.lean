import Verif.Spec.MaxPrinciple

/-!
# Layering of a storage

Cell 0 is the top of a storage.
-/

namespace Verif.Cells

variable {K : Type*} [Field K] [LinearOrder K]

/-- No cell is warmer than the cell above it. -/
def Stratified (g : Geo K) (T : ℕ → K) : Prop := ∀ k, k + 1 < g.n → T (k + 1) ≤ T k

/-- What is connected to the ports fits into the layers: it is not colder than the cell below the port and
not warmer than the cell above it. -/
def PortsFit (g : Geo K) (s : Inp K) (ports : List (Port K)) : Prop :=
  ∀ p ∈ ports, (p.idx + 1 < g.n → s.T (p.idx + 1) ≤ p.T) ∧ (0 < p.idx → p.T ≤ s.T (p.idx - 1))

/-- Rate at which the temperature of cell `k` approaches the temperature of the ambient: conductance of shell
and lids over heat capacity. -/
def lossRate (mat : Mat K) (g : Geo K) (s : Inp K) (k : ℕ) : K :=
  (s.uaAmb k + (if k = 0 then s.lidTop else 0) + (if k + 1 = g.n then s.lidBot else 0)) /
    heatCapacity mat g s k

/-- Losses do not disturb the layers: neighbouring cells lose at the same rate, or the lower one loses faster
and is warmer than the ambient, or the upper one approaches a warmer ambient faster. -/
def LossesFit (mat : Mat K) (g : Geo K) (s : Inp K) : Prop :=
  ∀ k, k + 1 < g.n → lossRate mat g s k = lossRate mat g s (k + 1) ∨
    (lossRate mat g s k ≤ lossRate mat g s (k + 1) ∧ s.Tamb ≤ s.T (k + 1)) ∨
    (lossRate mat g s (k + 1) ≤ lossRate mat g s k ∧ s.T k ≤ s.Tamb)

end Verif.Cells
