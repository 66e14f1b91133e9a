import Mathlib.Algebra.Order.Field.Basic

/-!
# Controllers

Transcription of `Controls.ctrl` and its helpers (`/repo/multisim/controls.py:841-950`), of the controllers
`PID`, `BangBang` and `TwoSensors` (`/repo/multisim/parts/controllers.py:366-494, 527-552, 629-658`) and of
their reset.  Control values are real numbers or elements of any ordered field; NaN and infinity do not
occur, except that an infinite `anti_windup` is `none`.

Not modelled: custom CV functions.  Linked controllers, setpoints taken from a reference part and the order of several
controllers are `Verif/Model/CtrlNet.lean`.
`part_specific` CV processing is `Verif/Model/Valve.lean`.  The dead time is `Verif/Model/Deadtime.lean`: here
the error that a controller sees is an input of the call.
-/

namespace Verif.Controls

variable {K : Type*} [Field K] [LinearOrder K]

/-- Settings common to all controllers (`controls.py:143-176, 600-780`). -/
structure Cfg (K : Type*) where
  /-- `_cv_sat_min`, `_cv_sat_max`. -/
  satMin : K
  satMax : K
  /-- `_llim`, `_ulim`. -/
  llim : K
  ulim : K
  /-- `_off_state`. -/
  off : K
  /-- `slope`; `none` for `(0, 0)`. -/
  slope : Option (K × K)
  /-- `invert`. -/
  invert : Bool
  /-- `sub_controller` and `dependency_kind`: `some true` is concurrent, `some false` sequential. -/
  sub : Option Bool
  /-- `time_domain`. -/
  discrete : Bool
  /-- `steady_state`. -/
  steady : Bool

/-- What the constructor enforces: `controls.py:156-158, 729`; limits of the actuators in `pump.py` and
`three_w_valve.py`. -/
structure Cfg.Ok (c : Cfg K) : Prop where
  sat : c.satMin < c.satMax
  lim : c.llim ≤ c.ulim
  slopeSign : ∀ n p, c.slope = some (n, p) → n < 0 ∧ 0 < p

/-- Attributes of a controller that change, and the actuator cell. -/
structure St (K : Type*) where
  cv : K
  prevCv : K
  error : K
  prevError : K
  prev2Error : K
  iTerm : K
  prevITerm : K
  deriv : K
  /-- `_act_cv[0]`. -/
  act : K

/-- State after construction, `controls.py:640-655, 756-770`; the actuator keeps its own value. -/
def St.init (act : K) : St K := ⟨0, 0, 0, 0, 0, 0, 0, 0, act⟩

/-- What a call of `ctrl` sees: the step length, setpoint, process value, the error after the dead time, the
value of the second sensor, and if the master is at its off state. -/
structure Inp (K : Type*) where
  dt : K
  sp : K
  pv : K
  error : K
  onVal : K
  masterOff : Bool

/-- `x if lo <= x <= hi else hi if x > hi else lo`. -/
def clip (lo hi x : K) : K := if lo ≤ x ∧ x ≤ hi then x else if hi < x then hi else lo

/-- `_clip_cv_to_saturation`, `controls.py:919-926`. -/
def clipSat (c : Cfg K) (x : K) : K := if x < c.satMin then c.satMin else if c.satMax < x then c.satMax else x

/-- Clipping to `± anti_windup`, `controllers.py:393-400, 449-456`. -/
def clipAw (aw : Option K) (x : K) : K :=
  match aw with
  | none => x
  | some a => if x < -a then -a else if a < x then a else x

/-- `self._invert`. -/
def inv (c : Cfg K) : K := if c.invert then -1 else 1

/-- Whether `_subcontroller_check` switches the controller off, `controls.py:932-950`. -/
def offByMaster (c : Cfg K) (i : Inp K) : Bool :=
  match c.sub with
  | none => false
  | some true => i.masterOff
  | some false => !i.masterOff

/-- `_subcontroller_check`. -/
def subCheck (c : Cfg K) (pid : Bool) (i : Inp K) (s : St K) : St K :=
  if offByMaster c i then { s with cv := c.off, iTerm := if pid then 0 else s.iTerm } else s

/-- The part of `ctrl` before the controller is called, `controls.py:845-864, 887-890`. -/
def shift (c : Cfg K) (i : Inp K) (s : St K) : St K :=
  let s := { s with prevCv := s.cv }
  let s := if c.steady then s
    else if c.discrete then { s with prev2Error := s.prevError, prevError := s.error }
    else { s with prevError := s.error, prevITerm := s.iTerm }
  { s with error := i.error }

/-- Slope limit, `controls.py:895-905`. -/
def slopeLimit (c : Cfg K) (i : Inp K) (s : St K) : St K :=
  match c.slope with
  | none => s
  | some (n, p) =>
    let cur := (s.cv - s.prevCv) / i.dt
    { s with cv := if n ≤ cur ∧ cur ≤ p then s.cv
        else if p < cur then s.prevCv + p * i.dt else s.prevCv + n * i.dt }

/-- `_process_cv_direct`, `controls.py:909-917`. -/
def processDirect (c : Cfg K) (s : St K) : St K := { s with act := clip c.llim c.ulim s.cv }

/-- `Controls.ctrl`, `controls.py:841-907`, with the control law `run`. -/
def ctrl (c : Cfg K) (run : Inp K → St K → St K) (i : Inp K) (s : St K) : St K :=
  processDirect c (slopeLimit c i (run i (shift c i s)))

/-- A sequence of calls. -/
def calls (c : Cfg K) (run : Inp K → St K → St K) (s : St K) (is : List (Inp K)) : St K :=
  is.foldl (fun s i => ctrl c run i s) s

/-! ## PID -/

/-- Settings of a PID controller, `controllers.py:15-365`. -/
structure Pid (K : Type*) where
  kp : K
  ki : K
  kd : K
  /-- `_anti_windup`. -/
  aw : Option K
  /-- `_RC` if the derivative is filtered. -/
  rc : Option K

/-- First order low pass of the derivative, `controllers.py:403-421, 459-475`. -/
def Pid.filter (p : Pid K) (i : Inp K) (s : St K) (d : K) : K :=
  match p.rc with
  | none => d
  | some rc => s.deriv + i.dt / (rc + i.dt) * (d - s.deriv)

/-- The control law of `PID.run_controller`, `controllers.py:390-491`. -/
def Pid.law (p : Pid K) (c : Cfg K) (i : Inp K) (s : St K) : St K :=
  if c.discrete then
    if p.ki ≠ 0 then
      { s with
        deriv := p.filter i s (s.error - 2 * s.prevError + s.prev2Error)
        cv := clipSat c (clipAw p.aw s.cv + p.kp * (s.error - s.prevError) + p.ki * i.dt * s.error
          + p.kd / i.dt * p.filter i s (s.error - 2 * s.prevError + s.prev2Error)) }
    else
      { s with
        deriv := p.filter i s (s.error - s.prevError)
        cv := clipSat c (p.kp * s.error + p.kd / i.dt * p.filter i s (s.error - s.prevError)) }
  else
    { s with
      iTerm := clipAw p.aw (i.dt * s.error + s.prevITerm)
      deriv := p.filter i s (s.error - s.prevError)
      cv := clipSat c ((p.kp * s.error + p.ki * clipAw p.aw (i.dt * s.error + s.prevITerm)
        + p.kd * (p.filter i s (s.error - s.prevError) / i.dt)) * inv c) }

/-- `PID.run_controller`, `controllers.py:375-494`. -/
def Pid.run (p : Pid K) (c : Cfg K) (i : Inp K) (s : St K) : St K := subCheck c true i (p.law c i s)

/-! ## Bang-bang -/

/-- Switching of `BangBang.run_controller`, `controllers.py:537-546`, and inversion; `hyst` is the argument
`hysteresis` with its sign. -/
def bangBangLaw (hyst : K) (c : Cfg K) (i : Inp K) (s : St K) : St K :=
  { s with cv := (if i.pv < i.sp - |hyst| / 2 then (if hyst < 0 then c.off else c.satMax)
      else if i.sp + |hyst| / 2 < i.pv then (if hyst < 0 then c.satMax else c.off)
      else s.cv) * inv c }

/-- `BangBang.run_controller`, `controllers.py:536-552`. -/
def bangBang (hyst : K) (c : Cfg K) (i : Inp K) (s : St K) : St K := subCheck c false i (bangBangLaw hyst c i s)

/-! ## Two sensors -/

/-- Settings: `activation_value`, and if the two signs are `lower`. -/
structure Two (K : Type*) where
  actVal : K
  actLower : Bool
  deactLower : Bool

/-- The on-condition, `controllers.py:640-645`. -/
def Two.on (t : Two K) (i : Inp K) : Prop := if t.actLower then i.onVal < t.actVal else t.actVal < i.onVal

/-- The off-condition, `controllers.py:647-652`. -/
def Two.off (t : Two K) (i : Inp K) : Prop := if t.deactLower then i.pv < i.sp else i.sp < i.pv

instance (t : Two K) (i : Inp K) : Decidable (t.on i) := by unfold Two.on; infer_instance
instance (t : Two K) (i : Inp K) : Decidable (t.off i) := by unfold Two.off; infer_instance

/-- Switching of `TwoSensors.run_controller`, `controllers.py:639-652`, and inversion. -/
def Two.law (t : Two K) (c : Cfg K) (i : Inp K) (s : St K) : St K :=
  { s with cv := (if t.off i then c.off else if t.on i then c.satMax else s.cv) * inv c }

/-- `TwoSensors.run_controller`, `controllers.py:638-658`. -/
def Two.run (t : Two K) (c : Cfg K) (i : Inp K) (s : St K) : St K := subCheck c false i (t.law c i s)

/-- One of the three control laws. -/
inductive Law (K : Type*) where
  | pid (p : Pid K)
  | bang (hyst : K)
  | two (t : Two K)

/-- `run_controller` of the respective class. -/
def Law.run (l : Law K) (c : Cfg K) : Inp K → St K → St K :=
  match l with
  | .pid p => p.run c
  | .bang h => bangBang h c
  | .two t => t.run c

/-! ## Reset -/

/-- `_reset_to_init_cond`, the same in all three classes (`controllers.py:366-373, 527-534, 629-636`). -/
def reset (s : St K) : St K :=
  { s with cv := 0, prevCv := 0, deriv := 0, error := 0, prevError := 0, prev2Error := 0, prevITerm := 0 }

end Verif.Controls
