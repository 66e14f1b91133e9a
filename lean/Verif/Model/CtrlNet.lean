import Verif.Model.Controls
import Verif.Model.Sensor

/-!
# Several controllers: masters, references and links

Model of the arguments of a controller which refer to parts and other controllers
(`/repo/multisim/controls.py:30-600`, `SimEnv._add_control`, `/repo/multisim/simenv.py:1645-1665`) and of the pass over
all controllers in a step (`simenv.py:2706-2715`).  Which exception is raised is modelled; its text is not.  Dead times
are left out (`Model/Deadtime.lean`), temperatures are given from outside
as they do not change during the pass.
-/

namespace Verif.CtrlNet

open Verif.Controls

variable {K : Type} [Field K] [LinearOrder K]

inductive Err where
  | assertion | key | value
  deriving DecidableEq

/-- `process_CV_mode`, `controls.py:104`. -/
inductive Mode where
  | direct | partSpecific | custom | linked
  deriving DecidableEq

/-- `master_type` with `master_controller` or `master_part` and its variable, `controls.py:455-600`. -/
inductive MasterArg where
  | controller (name : String)
  | part (name : String)

/-- Arguments of `add_control` that refer to something.  `none` stands for an argument that is not given, and for
`'none'` as `reference_part`. -/
structure Args (K : Type) where
  name : String
  actuator : String
  mode : Mode
  part : String
  port : Sensor.Arg
  refPart : Option String
  refPort : Option Sensor.Arg
  setpoint : Option K
  refSPdiff : Option K
  differenceToRef : Option K
  /-- `sub_controller`, with `dependency_kind == 'concurrent'` -/
  sub : Option (Bool × MasterArg)
  cfg : Cfg K
  law : Law K

/-- What a part has. -/
structure Part where
  /-- `constr_type` -/
  kind : String
  sensor : Sensor.Part
  isActuator : Bool
  /-- set to a constant value or a time series when it was added -/
  given : Bool

/-- Where the setpoint comes from: `controls.py:266-298`. -/
inductive Source (K : Type) where
  | const (x : K)
  | ref (part : String) (cell : ℕ) (diff : K)
  /-- linked controllers have none -/
  | missing

/-- Whom a controller depends on, with `_master_act_offst` of a master controller. -/
inductive Master (K : Type) where
  | controller (name : String) (off : K)
  | part (name : String)

/-- A controller that was added. -/
structure Ctl (K : Type) where
  name : String
  actuator : String
  mode : Mode
  part : String
  cell : ℕ
  source : Source K
  master : Option (Master K)
  cfg : Cfg K
  law : Law K

/-- `assert`. -/
def check (b : Prop) [Decidable b] (e : Err) : Except Err Unit := if b then .ok () else .error e

/-- A value that must be there. -/
def need {α : Type} (x : Option α) (e : Err) : Except Err α :=
  match x with
  | some a => .ok a
  | none => .error e

/-- Setpoint or reference, `controls.py:209-298`. -/
def source (parts : String → Option Part) (a : Args K) : Except Err (Source K) :=
  match a.refPart with
  | none => if a.mode = .linked then .ok .missing else (need a.setpoint .assertion).map .const
  | some r => do
    let p ← need (parts r) .assertion
    let q ← need a.refPort .assertion
    let cell ← need (Sensor.resolve p.sensor q) .assertion
    if a.mode = .linked then .ok .missing
    else do
      let _ ← need a.refSPdiff .assertion
      let d ← need a.differenceToRef .key
      .ok (.ref r cell d)

/-- The search for the controller of the reference actuator, `controls.py:339-424`.  If there is none, an error text is
made but nothing raised. -/
def link (parts : String → Option Part) (cs : List (Ctl K)) (a : Args K) : Except Err Unit :=
  if a.mode ≠ .linked then .ok ()
  else do
    let r ← need a.refPart .assertion
    check ((parts a.actuator).map Part.kind = (parts r).map Part.kind) .assertion
    match cs.find? (fun c => c.actuator = r) with
    | none => .ok ()
    | some c => if c.mode = .linked then .ok () else .error .value

/-- The master, `controls.py:436-600`. -/
def master (parts : String → Option Part) (cs : List (Ctl K)) (a : Args K) : Except Err (Option (Master K)) :=
  match a.sub with
  | none => .ok none
  | some (_, .controller n) => do
    let c ← need (cs.find? fun c => c.name = n) .assertion
    .ok (some (.controller n c.cfg.off))
  | some (_, .part n) => do
    check ((parts n).isSome) .assertion
    .ok (some (.part n))

/-- `_add_control` (`simenv.py:1656-1660`) and the constructor; `cs` are the controllers added before. -/
def add (parts : String → Option Part) (cs : List (Ctl K)) (a : Args K) : Except Err (Ctl K) := do
  check (∀ c ∈ cs, c.name ≠ a.name) .assertion
  let p ← need (parts a.actuator) .assertion
  check (p.isActuator = true) .assertion
  check (p.given = false ∧ ∀ c ∈ cs, c.actuator ≠ a.actuator) .assertion
  let q ← need (parts a.part) .assertion
  let cell ← need (Sensor.resolve q.sensor a.port) .assertion
  let src ← source parts a
  link parts cs a
  let m ← master parts cs a
  .ok ⟨a.name, a.actuator, a.mode, a.part, cell, src, m, { a.cfg with sub := a.sub.map Prod.fst }, a.law⟩

/-- The list of controllers after all calls of `add_control`, in their order. -/
inductive Built (parts : String → Option Part) : List (Ctl K) → Prop where
  | nil : Built parts []
  | snoc {cs : List (Ctl K)} (h : Built parts cs) (a : Args K) {c : Ctl K} (hc : add parts cs a = .ok c) :
    Built parts (cs ++ [c])

/-- What a pass finds: temperatures of cells, variables of master parts, second sensors, step length. -/
structure World (K : Type) where
  T : String → ℕ → K
  var : String → K
  /-- the second sensor of a controller of the type `TwoSensors` -/
  onVal : String → K
  dt : K

/-- `controls.py:864-865` -/
def setpoint (w : World K) : Source K → K
  | .const x => x
  | .ref p i d => w.T p i + d
  | .missing => 0

/-- `_master_act_cv[0] == _master_act_offst`; `acts` are the actuators of the controllers before. -/
def masterOff (w : World K) (acts : List (String × K)) : Option (Master K) → Bool
  | none => false
  | some (.controller n off) => acts.lookup n = some off
  | some (.part n) => w.var n = 0

/-- `Controls.ctrl` of one controller, `controls.py:841-907`: nothing is done for linked ones.  The control variable
is written to the actuator as by `_process_cv_direct`. -/
def step (w : World K) (acts : List (String × K)) (c : Ctl K) (s : St K) : St K :=
  if c.mode = .linked then s
  else
    ctrl c.cfg (c.law.run c.cfg)
      { dt := w.dt, sp := setpoint w c.source, pv := w.T c.part c.cell,
        error := setpoint w c.source - w.T c.part c.cell, onVal := w.onVal c.name, masterOff := masterOff w acts c.master } s

/-- The pass over all controllers in their order, `simenv.py:2714-2715`. -/
def pass (w : World K) : List (Ctl K × St K) → List (String × K) → List (Ctl K × St K)
  | [], _ => []
  | (c, s) :: l, acts =>
    let s' := step w acts c s
    (c, s') :: pass w l (acts ++ [(c.name, s'.act)])

/-- Passes of several steps. -/
def passes (l : List (Ctl K × St K)) (ws : List (World K)) : List (Ctl K × St K) :=
  ws.foldl (fun l w => pass w l []) l

end Verif.CtrlNet
