import Verif.Spec.HexNum
import Mathlib.Data.Real.Basic

/-!
# What passes through a heat exchanger with respect to a function of the temperature
-/

namespace Verif.HexNum

variable {K : Type*} [Field K] [LinearOrder K]

/-- What the water of side `c` leaves behind, if water of the temperature `T` carries `F T` per mass.  With the enthalpy
for `F` this is the heat given. -/
def left (F : K → K) (g : Geo K) (s : Inp K) (c : ℕ) : K := |s.dm c| * (F (inletT s c) - F (outletT g s c))

/-- What is conducted through the two ports of side `c`, driven by the differences of `f` of the temperatures. -/
def conducted (f : K → K) (mat : Cells.Mat K) (g : Geo K) (s : Inp K) (c : ℕ) : K :=
  uaPort mat g s (2 * c) * (f (s.port (2 * c)).T - f (s.ext 1 (2 * c + 1)))
    + uaPort mat g s (2 * c + 1) * (f (s.port (2 * c + 1)).T - f (s.ext g.n (2 * c + 1)))

/-- `p` is the slope of `f` with respect to the temperature and of `F` with respect to the enthalpy `H`, in the sense that
both lie above their tangents between `a` and `b`.  For the entropy with the opposite sign, `p` is the negative inverse of
the absolute temperature. -/
structure Tangents (p f F H : K → K) (a b : K) : Prop where
  temp : ∀ T u, a ≤ T → T ≤ b → a ≤ u → u ≤ b → p T * (u - T) ≤ f u - f T
  enth : ∀ T u, a ≤ T → T ≤ b → a ≤ u → u ≤ b → p T * (H u - H T) ≤ F u - F T

end Verif.HexNum
