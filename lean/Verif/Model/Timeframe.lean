import Mathlib.Algebra.Order.Field.Rat
import Mathlib.Data.Rat.Floor

/-!
# `SimEnv.set_timeframe`

Transcription of `/repo/multisim/simenv.py:243-453`.

Python values are `int`, finite `float`, `bool` or anything else.  Note that `isinstance(True, int)`
holds in Python, so a `bool` passes the `(int, float)` checks with the value 0 or 1.
Infinite floats and NaN are not modelled.
-/

namespace Verif.Timeframe

/-- A Python argument value. -/
inductive Py where
  | int (n : ℤ)
  | float (q : ℚ)
  | bool (b : Bool)
  | other
  deriving DecidableEq

/-- Numerical value if `isinstance(x, (int, float))`. -/
def Py.num? : Py → Option ℚ
  | .int n => some n
  | .float q => some q
  | .bool b => some (if b then 1 else 0)
  | .other => none

/-- Numerical value if `isinstance(x, float)`. -/
def Py.float? : Py → Option ℚ
  | .float q => some q
  | _ => none

/-- Value if `isinstance(x, bool)`. -/
def Py.bool? : Py → Option Bool
  | .bool b => some b
  | _ => none

inductive PyErr where
  | assertionError
  | typeError
  deriving DecidableEq

/-- What `set_timeframe` stores for adaptive steps. -/
structure Stored where
  timeframe : ℚ
  rtol : ℚ
  atol : ℚ
  maxStep : ℚ
  minStep : ℚ
  maxFactor : ℚ
  minFactor : ℚ
  maxSpeed : Bool
  safety : ℚ
  fctrRec : ℚ
  timestep : ℚ
  numSteps : ℤ
  deriving DecidableEq

/-- Stored data for constant steps. -/
structure StoredFixed where
  timeframe : ℚ
  timestep : ℚ
  numSteps : ℤ
  deriving DecidableEq

/-- Keyword arguments. -/
abbrev Kwargs := String → Option Py

/-- `if key in kwargs: assert <get> and <cond>; x = kwargs[key] else: x = default`. -/
def opt (get : Py → Option ℚ) (cond : ℚ → Bool) (dflt : ℚ) (v : Option Py) : Except PyErr ℚ :=
  match v with
  | none => .ok dflt
  | some v =>
    match get v with
    | none => .error .assertionError
    | some q => if cond q then .ok q else .error .assertionError

/-- `check_vN`, `simenv.py:386-392`: `assert isinstance(...)('...')` calls a `bool`, so Python raises
a `TypeError` whenever the key is given.  Otherwise the check is on. -/
def checkVN (v : Option Py) : Except PyErr Bool :=
  match v with
  | none => .ok true
  | some _ => .error .typeError

/-- `max_speed`, `simenv.py:393-399`. -/
def optBool (v : Option Py) : Except PyErr Bool :=
  match v with
  | none => .ok false
  | some v =>
    match v.bool? with
    | none => .error .assertionError
    | some b => .ok b

/-- `set_timeframe` with `adaptive_steps=True`, `simenv.py:270-453` (adaptive branch 340-422). -/
def setAdaptive (timeframe : Py) (kw : Kwargs) : Except PyErr Stored := do
  let tf ← opt Py.num? (fun q => 0 < q) 0 (some timeframe)                       -- 274-277
  let rtol ← opt Py.float? (fun q => 0 < q ∧ q < 1) (1 / 1000) (kw "rtol")       -- 341-347
  let atol ← opt Py.float? (fun q => 0 < q ∧ q < 1) (1 / 1000000) (kw "atol")    -- 348-354
  let maxStep ← opt Py.num? (fun q => 1 / 10 ^ 8 < q) 100 (kw "max_stepsize")    -- 355-362
  let minStep ← opt Py.num? (fun q => 0 < q ∧ q < maxStep) (1 / 10 ^ 8)
    (kw "min_stepsize")                                                          -- 363-370
  let maxFactor ← opt Py.num? (fun q => 1 < q) 2 (kw "max_factor")               -- 371-378
  let minFactor ← opt Py.float? (fun q => 0 < q ∧ q < 1) (1 / 5) (kw "min_factor") -- 379-385
  let _vN ← checkVN (kw "check_vN")                                              -- 386-392
  let maxSpeed ← optBool (kw "max_speed")                                        -- 393-399
  let safety ← opt Py.float? (fun q => 0 < q ∧ q < 1) (9 / 10) (kw "safety_factor") -- 400-406
  let rec' ← opt Py.num? (fun q => 0 < q) 50 (kw "factor_recovery")              -- 409-416
  .ok { timeframe := tf, rtol := rtol, atol := atol, maxStep := maxStep, minStep := minStep,
        maxFactor := maxFactor, minFactor := minFactor, maxSpeed := maxSpeed, safety := safety,
        fctrRec := rec', timestep := 1, numSteps := ⌈tf / 1⌉ }                   -- 419-447

/-- `set_timeframe` with `adaptive_steps=False`, `simenv.py:423-441`. -/
def setFixed (timeframe : Py) (kw : Kwargs) : Except PyErr StoredFixed := do
  let tf ← opt Py.num? (fun q => 0 < q) 0 (some timeframe)
  match kw "timestep" with
  | none => .error .assertionError
  | some v =>
    let h ← opt Py.num? (fun q => 0 < q) 0 (some v)
    .ok { timeframe := tf, timestep := h, numSteps := ⌈tf / h⌉ }

end Verif.Timeframe
