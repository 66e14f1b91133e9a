import Verif.Model.TimeLoop
import Mathlib.Tactic.NormNum

/-!
# The check for invalid values in the main loop (`simenv.py` 5103–5127)

A value is `none` if it is NaN.
-/

namespace Verif.NanCheck

/-- Temperatures and mass flows of one part. -/
structure PartState (K : Type*) where
  /-- `part.T` -/
  T : List (Option K)
  /-- `part.dm` -/
  dm : List (Option K)

/-- `np.any(np.isnan(x))`. -/
def anyNan {K : Type*} (l : List (Option K)) : Bool := l.any Option.isNone

/-- `isanynan` of one part (`simenv.py` 5108–5110). -/
def isAnyNan {K : Type*} (p : PartState K) : Bool := anyNan p.T && anyNan p.dm

/-- Is `i` a valid index of an array of `n` rows, negative indices counting from the end? -/
def validIdx (n : ℕ) (i : ℤ) : Bool := decide (-(n : ℤ) ≤ i) && decide (i < (n : ℤ))

/-- What the check does. -/
inductive Outcome
  | goesOn
  | stopped
  | indexError
  deriving DecidableEq, Repr

/-- The check after one step (`simenv.py` 5104–5127): `total` is `_total_stepnum`, `rows` the length
of `time_vec` and of `_solver_state`.  The message reads `time_vec[total - 5000]`, the stop writes
`_solver_state[total]`. -/
def nanCheck {K : Type*} (total rows : ℕ) (parts : List (PartState K)) : Outcome :=
  bif (total % 5000 == 0) && parts.any isAnyNan then
    bif validIdx rows ((total : ℤ) - 5000) && validIdx rows (total : ℤ) then .stopped
    else .indexError
  else .goesOn

/-- The time frame after the check: `self.timeframe = 1e-9` (`simenv.py` 5124). -/
def timeframeAfter (tf : ℚ) : Outcome → ℚ
  | .stopped => 1 / 10 ^ 9
  | _ => tf

/-- `_reset_simenv` calls `set_timeframe(timeframe=self.timeframe, …)` (`simenv.py` 4779–4785), which
stores the time frame it is given (`simenv.py` 238–453). -/
def resetTimeframe (tf : ℚ) : ℚ := tf

end Verif.NanCheck
