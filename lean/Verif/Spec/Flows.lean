import Mathlib.Algebra.BigOperators.Group.List.Basic
import Mathlib.Algebra.Order.Field.Basic

/-!
# What it means that a flow field is balanced

Independent of the model: a part is a column of `n` cells; ports are given by their cell and the flow into
the part (negative: out of the part).  `down k` is the flow from cell `k - 1` into cell `k`, `up k` the flow
from cell `k + 1` into cell `k`.
-/

namespace Verif.Flows

variable {K : Type*} [Field K] [LinearOrder K]

/-- Sum of the port flows at or above cell `k`. -/
def above (ports : List (ℕ × K)) (k : ℕ) : K := ((ports.filter (·.1 ≤ k)).map Prod.snd).sum

/-- What flows into cell `k` through ports. -/
def portInflow (ports : List (ℕ × K)) (k : ℕ) : K :=
  ((ports.filter (·.1 = k)).map fun p => max p.2 0).sum

/-- What flows out of cell `k` through ports. -/
def portOutflow (ports : List (ℕ × K)) (k : ℕ) : K :=
  ((ports.filter (·.1 = k)).map fun p => max (-p.2) 0).sum

/-- Everything that enters cell `k` leaves it: from above, from below and through the ports. -/
def CellBalance (n : ℕ) (down up : ℕ → K) (ports : List (ℕ × K)) (k : ℕ) : Prop :=
  down k + up k + portInflow ports k =
    (if k + 1 < n then down (k + 1) else 0) + (if 0 < k then up (k - 1) else 0) + portOutflow ports k

end Verif.Flows
