import Verif.Model.HexNum
import Verif.Spec.MaxPrinciple
import Mathlib.Algebra.Order.Group.Abs

/-!
# Heat balance of a heat exchanger with two sides

In terms of what is seen at the ports: the flow and the temperatures at which water enters and leaves.
-/

namespace Verif.HexNum

variable {K : Type*} [Field K] [LinearOrder K]

/-- Temperature at which water enters side `c`: that of the connected port on the inflow end. -/
def inletT (s : Inp K) (c : ℕ) : K := if 0 ≤ s.dm c then (s.port (2 * c)).T else (s.port (2 * c + 1)).T

/-- Temperature at which water leaves side `c`: that of the cell at the outflow end. -/
def outletT (g : Geo K) (s : Inp K) (c : ℕ) : K :=
  if 0 ≤ s.dm c then s.ext g.n (2 * c + 1) else s.ext 1 (2 * c + 1)

/-- Heat flow which the water of side `c` leaves behind: flow times difference of the enthalpies. -/
def heatGiven (mat : Cells.Mat K) (g : Geo K) (s : Inp K) (c : ℕ) : K :=
  |s.dm c| * (mat.cp (inletT s c) * inletT s c - mat.cp (outletT g s c) * outletT g s c)

/-- Heat flow by conduction through the two ports of side `c`. -/
def portHeat (mat : Cells.Mat K) (g : Geo K) (s : Inp K) (c : ℕ) : K :=
  uaPort mat g s (2 * c) * ((s.port (2 * c)).T - s.ext 1 (2 * c + 1))
    + uaPort mat g s (2 * c + 1) * ((s.port (2 * c + 1)).T - s.ext g.n (2 * c + 1))

/-- Nothing changes with time. -/
def Steady (mat : Cells.Mat K) (g : Geo K) (s : Inp K) : Prop := ∀ k < g.n, ∀ j < 3, dT mat g s k j = 0

/-- Row of the cell at port `i`: the first row for the inlets 0 and 2, the last row for 1 and 3. -/
def portRow (g : Geo K) (i : ℕ) : ℕ := if i % 2 = 0 then 0 else g.n - 1

/-- Conduction between port `i` and its cell as documented: half of the port's cell and half of the own cell in
series, parallel to the wall of the port. -/
def portConductance (mat : Cells.Mat K) (g : Geo K) (s : Inp K) (i : ℕ) : K :=
  (s.port i).area / ((s.port i).gsp / (2 * mat.lam (s.port i).T)
      + g.gs / (2 * mat.lam (T s (portRow g i) (2 * (i / 2))))) + (s.port i).uaWll

/-- All temperatures the exchanger sees lie between `m` and `M`. -/
structure Within (g : Geo K) (s : Inp K) (m M : K) : Prop where
  cells : ∀ k < g.n, ∀ j < 3, m ≤ T s k j ∧ T s k j ≤ M
  ports : ∀ i < 4, m ≤ (s.port i).T ∧ (s.port i).T ≤ M

/-- Everything connected to row `k` of side `c`: the rows above and below, the wall, the ports, and `L` times the
water that passes through one channel. -/
def fluidLoad (mat : Cells.Mat K) (g : Geo K) (s : Inp K) (L : K) (k c : ℕ) : K :=
  ua1 mat g s k (2 * c) + ua1 mat g s (k + 1) (2 * c) + ua2 g s k (c + 1)
    + (if k = 0 then uaPort mat g s (2 * c) else 0) + (if k + 1 = g.n then uaPort mat g s (2 * c + 1) else 0)
    + L * (|s.dm c| / divisor g c)

/-- Everything connected to row `k` of the wall. -/
def wallLoad (mat : Cells.Mat K) (g : Geo K) (s : Inp K) (k : ℕ) : K :=
  ua1 mat g s k 1 + ua1 mat g s (k + 1) 1 + ua2 g s k 1 + ua2 g s k 2

end Verif.HexNum
