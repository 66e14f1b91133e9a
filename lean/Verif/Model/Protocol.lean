/-!
# Setting up and starting a simulation (`simenv.py`)

The public calls that prepare a simulation environment and start it, as a state machine: each call
changes the attributes it assigns and then either returns or raises.  A call that raises keeps the
assignments made before the exception, as in Python.

Simplifications:
* part names are distinct, the arguments of parts, ports, connections and controllers are valid and
  all ports are connected (these checks are modelled in `Model/Registry.lean` and `Model/Ports.lean`);
* of the arguments of `set_timeframe` only `adaptive_steps` is kept, the others are valid (their
  checks are modelled in `Model/Timeframe.lean`);
* the checks of `set_disksaving` concerning folder and file are one Boolean;
* dates are integers; the series of open ports and of parts are assigned at one place, after the
  parts were constructed.
-/

namespace Verif.Protocol

/-- The two solver methods that `set_solver` can choose (`simenv.py` 618–660). -/
inductive Meth
  | heun
  | heunAdaptive
  deriving DecidableEq, Repr

/-- Kinds of exceptions. -/
inductive Err
  | assertion
  | attribute
  | type
  | zeroDivision
  | userWarning
  | file
  deriving DecidableEq, Repr

/-- The attributes of `SimEnv` that the calls read and write (`simenv.py` 52–55, 150–235). -/
structure Env where
  /-- `_timeframe_set` -/
  timeframeSet : Bool := false
  /-- `_solver_set` -/
  solverSet : Bool := false
  /-- `_disksaving_set` -/
  diskSet : Bool := false
  /-- `_initialized` -/
  initialized : Bool := false
  /-- `adaptive_steps` -/
  adaptive : Bool := false
  /-- does the attribute `_max_factor` exist? -/
  maxFactor : Bool := false
  /-- `solver`, if the attribute exists -/
  solver : Option Meth := none
  /-- `__infer_start_date`, if the attribute exists -/
  infer : Option Bool := none
  /-- `_disk_store['start_date']` -/
  start : Option Int := none
  /-- `__save_to_disk` -/
  save : Bool := false
  /-- does `_disk_store` contain the temporary store `path_tmp`? -/
  storeReady : Bool := false
  /-- does the attribute `_save_every_n_steps` exist? -/
  saveEvery : Bool := false
  /-- cells of the parts in `__postpone['add_part']` (0 for a part that is not solved numerically) -/
  parts : List Nat := []
  /-- first time stamps of the series in `__postpone['dyn_BC']` -/
  series : List Int := []
  /-- `_dyn_BC_timevec[0]`, if a series was assigned -/
  timevec : Option Int := none
  /-- `_num_cells_tot_nmrc` -/
  cells : Nat := 0
  /-- have the ports been connected? -/
  linked : Bool := false
  /-- has `_get_topology` filled `flow_net`? -/
  topology : Bool := false
  deriving DecidableEq, Repr

/-- State after a call and the exception it raised, if any. -/
abbrev Res := Env × Option Err

/-- Run `f` unless an exception was raised. -/
def andThen (r : Res) (f : Env → Res) : Res :=
  match r.2 with
  | none => f r.1
  | some x => (r.1, some x)

/-- `assert b`. -/
def check (b : Bool) (x : Err) (e : Env) : Res :=
  (e, bif b then none else some x)

/-- `SimEnv.set_timeframe` with valid further arguments (`simenv.py` 338–453): the attribute
`_max_factor` is only assigned for adaptive steps. -/
def setTimeframe (adaptive : Bool) (e : Env) : Res :=
  ({ e with adaptive := adaptive, maxFactor := e.maxFactor || adaptive, timeframeSet := true }, none)

/-- The method chosen by `set_solver` (`simenv.py` 640–662). -/
def chosen (adaptive : Bool) : Meth :=
  bif adaptive then .heunAdaptive else .heun

/-- `SimEnv.set_solver` (`simenv.py` 593–689): `solver` is assigned before `allow_implicit` is
checked. -/
def setSolver (name : String) (allowImplicit : Option Bool) (e : Env) : Res :=
  andThen (check e.timeframeSet .assertion e) fun e =>
  andThen (check (name == "heun") .assertion e) fun e =>
  andThen (check allowImplicit.isSome .assertion { e with solver := some (chosen e.adaptive) }) fun e =>
  ({ e with solverSet := true }, none)

/-- `SimEnv.set_disksaving` (`simenv.py` 511–591).  `start = none` is `start_date='infer'`;
`folderOk` says that the checks of folder and file (570–580) pass. -/
def setDisk (save : Bool) (start : Option Int) (folderOk : Bool) (e : Env) : Res :=
  bif save then
    andThen (check folderOk .file
      { e with save := true, start := start, infer := some start.isNone, storeReady := false,
               saveEvery := true }) fun e =>
    ({ e with storeReady := true, diskSet := true }, none)
  else
    ({ e with save := false, start := start, infer := some start.isNone, storeReady := false,
              saveEvery := true, diskSet := true }, none)

/-- `assign_boundary_cond`: all series begin with the same time stamp (`simenv.py` 1425–1470). -/
def addSeries (d : Int) (e : Env) : Res :=
  andThen (check (e.timevec.isNone || e.timevec == some d) .assertion e) fun e =>
  ({ e with timevec := some d }, none)

/-- `assign_boundary_cond`: check or infer the start date (`simenv.py` 1402–1412).  Without an
earlier `set_disksaving` the attribute `__infer_start_date` does not exist. -/
def assignSeries (d : Int) (e : Env) : Res :=
  match e.diskSet, e.infer with
  | true, some false => andThen (check (e.start == some d) .assertion e) (addSeries d)
  | true, some true => addSeries d { e with start := some d }
  | false, some _ => addSeries d e
  | _, none => (e, some .attribute)

/-- The loop over the postponed series (`simenv.py` 4408–4411). -/
def assignAll : List Int → Env → Res
  | [], e => (e, none)
  | d :: l, e => andThen (assignSeries d e) (assignAll l)

/-- `SimEnv._build_simenv` (`simenv.py` 4546–4619) with `_call_postponed` (4374–4428) and `_add_part`
(784–791, 890): parts, series, connections, then the checks of solver, time frame and disk saving,
then the topology.  Connecting ports twice is refused (1975–1982). -/
def build (e : Env) : Res :=
  andThen (check (!e.parts.isEmpty) .assertion e) fun e =>
  andThen (check (e.solverSet && e.timeframeSet) .assertion e) fun e =>
  andThen (assignAll e.series { e with cells := e.cells + e.parts.sum }) fun e =>
  andThen (check (!e.linked) .assertion e) fun e =>
  andThen (check (e.solverSet && e.timeframeSet && e.diskSet) .assertion { e with linked := true })
    fun e =>
  ({ e with topology := true }, none)

/-- `SimEnv._reset_simenv` (`simenv.py` 4779–4802): the arguments of the last `set_timeframe` must
exist. -/
def reset (e : Env) : Res :=
  andThen (check e.timeframeSet .attribute e) fun e => setTimeframe e.adaptive e

/-- `SimEnv._initialize_arrays` (`simenv.py` 4621–4745): divides by the number of cells (4643) and
passes `_max_factor` to the parts (4671). -/
def initArrays (e : Env) : Res :=
  andThen (check e.saveEvery .attribute e) fun e =>
  andThen (check (decide (0 < e.cells)) .zeroDivision e) fun e =>
  andThen (check e.maxFactor .attribute e) fun e =>
  ({ e with initialized := true }, none)

/-- `SimEnv.initialize_sim` (`simenv.py` 4804–4845). -/
def initSim (buildSimenv resetSimenv : Bool) (e : Env) : Res :=
  andThen (bif buildSimenv then build e else (e, none)) fun e =>
  andThen (bif resetSimenv then reset e else (e, none)) fun e =>
  initArrays e

/-- Result of a call: it returned, it raised, or it is a `start_sim` that simulated.  In the last
case the solver method used, whether mass flows were computed from a flow net, and whether the
results were kept are recorded. -/
inductive Result
  | returned
  | raised (x : Err)
  | simulated (m : Meth) (flowNet kept : Bool)
  deriving DecidableEq, Repr

/-- `SimEnv.start_sim` (`simenv.py` 5032–5072).  It passes four arguments to the solver method (5067–5072):
`_heun_adaptive` takes four (3919–3921), `_heun` takes three (3862) and is called in vain.  At the end `_finalize_sim` writes to the temporary
store (4875–4890), which fails if the store was never created: the results are not kept. -/
def startSim (e : Env) : Result :=
  bif !e.initialized then .raised .userWarning
  else bif e.diskSet && e.start.isNone then .raised .type
  else match e.solver with
  | none => .raised .attribute
  | some .heun => .raised .type
  | some .heunAdaptive => .simulated .heunAdaptive e.topology (!e.save || e.storeReady)

/-- The public calls. -/
inductive Call
  | setTimeframe (adaptive : Bool)
  | setSolver (name : String) (allowImplicit : Option Bool)
  | setDisk (save : Bool) (start : Option Int) (folderOk : Bool)
  | addPart (cells : Nat)
  | addSeries (first : Int)
  | initSim (buildSimenv resetSimenv : Bool)
  | start
  deriving DecidableEq, Repr

/-- Turn a state and an exception into a state and a result. -/
def ofRes (r : Res) : Env × Result :=
  match r.2 with
  | none => (r.1, .returned)
  | some x => (r.1, .raised x)

/-- One call. -/
def call (e : Env) : Call → Env × Result
  | .setTimeframe a => ofRes (setTimeframe a e)
  | .setSolver n i => ofRes (setSolver n i e)
  | .setDisk s d f => ofRes (setDisk s d f e)
  | .addPart n => ({ e with parts := e.parts ++ [n] }, .returned)
  | .addSeries d => ({ e with series := e.series ++ [d] }, .returned)
  | .initSim b r => ofRes (initSim b r e)
  | .start => (e, startSim e)

end Verif.Protocol
