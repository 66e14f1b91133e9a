import Verif.Model.Timeframe

/-!
# The documented option ranges of `set_timeframe`

Written from the doc text in `/repo/multisim/simenv.py:275-336`, independently of the code.
-/

namespace Verif.Timeframe.Spec
open Verif.Timeframe

/-- The number a Python value stands for: an `int` or a `float` itself, `True` is 1 and `False` 0. -/
def number : Py → Option ℚ
  | .int n => some n
  | .float q => some q
  | .bool true => some 1
  | .bool false => some 0
  | .other => none

/-- Option `v` is omitted or has a number in the range. `real = true`: must be a float. -/
def InRange (float : Bool) (range : ℚ → Prop) (v : Option Py) : Prop :=
  ∀ x, v = some x → ∃ q, (if float then x = .float q else number x = some q) ∧ range q

/-- Value used for an option: the given one or the default. -/
def value (dflt : ℚ) (v : Option Py) : ℚ := ((v.bind number).getD dflt)

/-- The documented ranges for adaptive steps.  `lowest` is the smallest admissible
`max_stepsize`: 0 in the documentation. -/
structure Documented (lowest : ℚ) (timeframe : Py) (kw : Kwargs) : Prop where
  timeframe : InRange false (fun q => 0 < q) (some timeframe)
  rtol : InRange true (fun q => 0 < q ∧ q < 1) (kw "rtol")
  atol : InRange true (fun q => 0 < q ∧ q < 1) (kw "atol")
  max_stepsize : InRange false (fun q => lowest < q) (kw "max_stepsize")
  min_stepsize : InRange false (fun q => 0 < q ∧ q < value 100 (kw "max_stepsize"))
    (kw "min_stepsize")
  max_factor : InRange false (fun q => 1 < q) (kw "max_factor")
  min_factor : InRange true (fun q => 0 < q ∧ q < 1) (kw "min_factor")
  max_speed : ∀ x, kw "max_speed" = some x → ∃ b, x = .bool b
  safety_factor : InRange true (fun q => 0 < q ∧ q < 1) (kw "safety_factor")
  factor_recovery : InRange false (fun q => 0 < q) (kw "factor_recovery")

end Verif.Timeframe.Spec
