import Mathlib.Data.List.Basic
import Mathlib.Algebra.Order.Field.Basic
import Mathlib.Algebra.Order.Ring.Int

/-!
# Assigning time series

Transcription of `SimEnv.assign_boundary_cond` (`/repo/multisim/simenv.py:1330-1558`), `_initialize_dynamic_BC`
(`1560-1566`), the writing part of `_update_dyn_BC` (`2738-2761`) and of `_initialize_actuator` (`1127-1232`) with the
uncontrolled variants of pumps (`/repo/multisim/parts/pump.py:204-321`), mixing valves
(`/repo/multisim/parts/mixingvalve.py:296-383`), pipes with valve (`/repo/multisim/parts/pipe_with_valve.py:166-192`),
pipes with pump (`/repo/multisim/parts/pipe_with_pump.py:92-126`) and CHP plants
(`/repo/multisim/parts/chp_plant.py:460-501`).

Simplifications: the checks of types, of NaN and of even spacing (`1386-1399, 1421-1424`) are made by the caller of the
model (`Series` are well formed); start dates (`1400-1411`) are in `Model/Protocol.lean`.  A variable that is a number is
an array of length one here, as line 1508 makes it.  Two-dimensional variables are not modelled.
-/

namespace Verif.Assign

variable {K : Type*}

/-- A time series: stamps in nanoseconds, and values. -/
structure Series (K : Type*) where
  stamps : List ℤ
  values : List K

/-- The arrays a series can be written to. -/
inductive Arr
  | ports
  | variable (part name : String)
  | setpoint (control : String)
  deriving DecidableEq

/-- The arguments `open_port`, `part` with `variable_name` and `array_index`, `control`; other combinations. -/
inductive Dest
  | openPort (name : String)
  | part (name var : String) (index : ℤ)
  | control (name : String)
  | other

/-- The state of the environment. -/
structure Env (K : Type*) where
  /-- `boundary_conditions[name]['port_id']` -/
  portId : String → Option ℕ
  /-- the arrays; `none`: does not exist -/
  arrays : Arr → Option (List K)
  /-- `_dyn_BC_timevec`, seconds; `none`: empty -/
  timevec : Option (List ℤ)
  /-- simulated time in nanoseconds -/
  timeframe : ℤ
  /-- `_dyn_BC`: array, position in it (`none`: the view is empty), values -/
  dyn : List (Arr × Option ℕ × List K)

/-- Limit of a slice as Python reads it. -/
def limit (n : ℕ) (j : ℤ) : ℕ := (min (n : ℤ) (if j < 0 then max 0 (n + j) else j)).toNat

/-- The view `array[slice(a, a + 1)]` of an array of length `n`: its only position, if it is not empty
(`simenv.py:1485, 1526, 1550`). -/
def view (n : ℕ) (a : ℤ) : Option ℕ := if limit n a < limit n (a + 1) then some (limit n a) else none

/-- Comparison with the stamps of the first series or, for the first series, check of its length and storage of its
stamps in seconds (`simenv.py:1426-1477`).  `none` is a refusal. -/
def checkTime (e : Env K) (s : Series K) : Option (Env K) :=
  match e.timevec with
  | some tv => if tv.length = s.stamps.length ∧ tv.map (· * 1000000000) = s.stamps then some e else none
  | none =>
    match s.stamps with
    | a :: b :: _ =>
      if e.timeframe < (b - a) * s.stamps.length then
        some { e with timevec := some (s.stamps.map (· / 1000000000)) }
      else none
    | _ => none

/-- The target (`simenv.py:1479-1555`); `none` is a refusal. -/
def target (e : Env K) : Dest → Option (Arr × Option ℕ)
  | .openPort name => (e.portId name).bind fun i => (e.arrays .ports).map fun l => (.ports, view l.length i)
  | .part p v i => (e.arrays (.variable p v)).bind fun l =>
      if i < l.length then some (.variable p v, view l.length i) else none
  | .control c => (e.arrays (.setpoint c)).map fun l => (.setpoint c, view l.length 0)
  | .other => none

/-- `assign_boundary_cond`; the second component tells whether the call was accepted. -/
def assign (e : Env K) (s : Series K) (d : Dest) : Env K × Bool :=
  match checkTime e s with
  | none => (e, false)
  | some e' =>
    match target e' d with
    | none => (e', false)
    | some (a, v) => ({ e' with dyn := e'.dyn ++ [(a, v, s.values)] }, true)

/-- Writing one value: `BC[0][0] = x`; an empty view is an `IndexError`. -/
def write (m : Arr → Option (List K)) (a : Arr) (v : Option ℕ) (x : K) : Option (Arr → Option (List K)) :=
  v.map fun k => fun b => if b = a then (m b).map fun l => l.set k x else m b

/-- The loop over the boundary conditions in `_initialize_dynamic_BC` (with `f` the first value) and `_update_dyn_BC`
(with `f` the interpolation of `Model/DynBC.lean`). -/
def updateAll (f : List K → Option K) :
    List (Arr × Option ℕ × List K) → (Arr → Option (List K)) → Option (Arr → Option (List K))
  | [], m => some m
  | (a, v, vals) :: t, m => (f vals).bind fun x => (write m a v x).bind (updateAll f t)

section Actuator

variable [Field K]

/-- Actuators. -/
inductive Kind
  | pump | pipeWithPump | pipeWithValve | mixingValve | chp
  deriving DecidableEq

/-- The value given for an actuator without controller: a constant, or the values of a series for each step. -/
inductive Source (K : Type*)
  | const (v : K)
  | series (v : ℕ → K)

/-- The variables of an actuator: first mass flow, openings of the ports A and B, modulation. -/
structure Act (K : Type*) where
  dm : K
  pfA : K
  pfB : K
  modulation : K

/-- The variable a series is written to. -/
inductive Var
  | dm | modulation
  deriving DecidableEq

/-- Initialisation with a start value: pump 229-231, 257-321; pipe with pump 107-110; pipe with valve 181-189 with
`simenv.py:1203` and the default `variable_name='dm'` (`1127`); mixing valve 327-340 and 341-365, which always raise;
CHP plant 499-501.  The second component is the target of the series. -/
def initAct (k : Kind) (start : K) (s : Source K) : Option (Act K × Option Var) :=
  match k, s with
  | .pump, .const v => some (⟨v, 0, 0, 0⟩, none)
  | .pump, .series _ => some (⟨start, 0, 0, 0⟩, some .dm)
  | .pipeWithPump, .const v => some (⟨v, 0, 0, 0⟩, none)
  | .pipeWithPump, .series _ => some (⟨start, 0, 0, 0⟩, some .dm)
  | .pipeWithValve, .const v => some (⟨0, v, 1 - v, 0⟩, none)
  | .pipeWithValve, .series _ => some (⟨0, start, 1 - start, 0⟩, some .dm)
  | .mixingValve, _ => none
  | .chp, .const v => some (⟨0, 0, 0, v⟩, none)
  | .chp, .series _ => some (⟨0, 0, 0, start⟩, some .modulation)

/-- Writing the value of the series. -/
def writeVar (a : Act K) (t : Option Var) (x : K) : Act K :=
  match t with
  | none => a
  | some .dm => { a with dm := x }
  | some .modulation => { a with modulation := x }

/-- The actuator during the simulation: before step `i + 1` the value `i` of the series has been written, then the flow
of pipes with valves and CHP plants is overwritten by the flow net (`flow`). -/
def actAt (k : Kind) (s : Source K) (flow : ℕ → K) (init : Act K × Option Var) : ℕ → Act K
  | 0 => writeVar init.1 init.2 (match s with | .const v => v | .series v => v 0)
  | i + 1 =>
    let a := writeVar (actAt k s flow init i) init.2 (match s with | .const v => v | .series v => v (i + 1))
    match k with
    | .pipeWithValve => { a with dm := flow (i + 1) }
    | .mixingValve => { a with dm := flow (i + 1) }
    | .chp => { a with dm := flow (i + 1) }
    | _ => a

/-- What the actuator does: the flow of a pump, the opening of port A, the modulation. -/
def effect (k : Kind) (a : Act K) : K :=
  match k with
  | .pump => a.dm
  | .pipeWithPump => a.dm
  | .pipeWithValve => a.pfA
  | .mixingValve => a.pfA
  | .chp => a.modulation

end Actuator

end Verif.Assign
