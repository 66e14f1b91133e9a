import Verif.Model.TimeLoop
import Verif.Model.StepControl

/-!
# The report of a simulation (`/repo/multisim/simenv.py:5532-5617`)

One row of the arrays `time_vec`, `_solver_state`, `_failed_steps` is written per step
(`simenv.py:4171-4242`, `5079-5081`); the arrays are flushed, appended and cropped together
(`TimeLoop`).  Steps of the adaptive solver only: no other solver runs (C91).  Left out: version, file name, wall clock times, quartiles of the step size.
-/

namespace Verif.Report

/-- One entry of `time_vec`, `_solver_state`, `_failed_steps`. -/
structure Row (K : Type*) where
  time : K
  state : ℕ
  failed : ℕ

variable {K : Type*} [Field K] [LinearOrder K]

/-- The entries of the report. -/
structure Info (K : Type*) where
  /-- `Simulation success` -/
  success : Bool
  /-- is the number of steps titled `Sim. failed at step` instead of `Sim. solved in n steps`? -/
  failed : Bool
  /-- the number given with that title -/
  steps : ℕ
  /-- `failure reason` is `Invalid value encountered` -/
  invalid : Bool
  /-- `Normal steps (including repeated)` -/
  normal : ℕ
  /-- `Steps limited to maximum stepsize` -/
  atMax : ℕ
  /-- `Steps limited to minimum stepsize` -/
  atMin : ℕ
  /-- `Roundoff error governed step solution` -/
  roundoff : ℕ
  /-- `Number of repeated steps` -/
  repeated : ℕ
  /-- `Total timeframe in s` -/
  total : K
  /-- `Mean stepsize in s` -/
  mean : K

/-- Entry of `states` (`simenv.py:5533-5542`): how often a solver state occurs, 0 if it does not. -/
def states (rows : List (Row K)) (s : ℕ) : ℕ := (rows.map (·.state)).count s

/-- `np.diff`. -/
def diff : List K → List K
  | a :: b :: l => (b - a) :: diff (b :: l)
  | _ => []

/-- `time_step_vec`: the differences, the last one twice (`simenv.py:4947-4951`). -/
def stepVec (ts : List K) : List K := diff ts ++ (diff ts).getLast?.toList

/-- `time_vec.max()`; an empty array does not occur. -/
def maxTime : List K → K
  | [] => 0
  | t :: ts => ts.foldl max t

/-- `_write_report` (`simenv.py:5532-5609`). -/
def report (rows : List (Row K)) (stepnum : ℕ) : Info K :=
  let failure := (states rows 98 != 0) || (states rows 99 != 0)          -- 5545
  { success := states rows 99 == 0                                       -- 5565
    failed := failure                                                    -- 5546-5550
    steps := stepnum
    invalid := failure && (states rows 98 != 0)                          -- 5551-5556
    normal := states rows 4                                              -- 5572-5579
    atMax := states rows 5
    atMin := states rows 6
    roundoff := states rows 7
    repeated := (rows.map (·.failed)).sum                                -- 5580
    total := maxTime (rows.map (·.time))                                 -- 5584
    mean := (stepVec (rows.map (·.time))).sum / ((stepVec (rows.map (·.time))).length : K) } -- 5586

/-- `_finalize_sim` followed by `_write_report`; `stepnum` is raised by the stored steps
(`simenv.py:4885`, `5420-5422`). -/
def finish (p : TimeLoop.Par (Row K)) (b : TimeLoop.Buf (Row K)) : Except TimeLoop.Err (Info K) := do
  let rows ← TimeLoop.finalize p b
  .ok (report rows (b.totalStep + b.stepnum))

/-- A run to the end of the time frame and its report. -/
def solved (p : TimeLoop.Par (Row K)) (n : ℕ) (row0 : Row K) (rs : List (Row K)) :
    Except TimeLoop.Err (Info K) := do
  let b ← TimeLoop.loop p (TimeLoop.Buf.init p n row0) rs
  finish p b

/-- Steps after each of which the run goes on (`simenv.py:5071-5091`). -/
def goOn (p : TimeLoop.Par (Row K)) : TimeLoop.Buf (Row K) → List (Row K) →
    Except TimeLoop.Err (TimeLoop.Buf (Row K))
  | b, [] => .ok b
  | b, r :: rs => do
    let b ← TimeLoop.writeRow p true b r
    goOn p b rs

/-- `self._solver_state[self._total_stepnum] = 98` (`simenv.py:5126`), the mark set by the check for
invalid values when it stops the run (`NanCheck`). -/
def mark (b : TimeLoop.Buf (Row K)) : Except TimeLoop.Err (TimeLoop.Buf (Row K)) :=
  if b.totalStep < b.rows.length then
    .ok { b with rows := b.rows.modify b.totalStep fun r => { r with state := 98 } }
  else .error .indexError

/-- A run stopped by the check for invalid values after the steps `rs`, and its report. -/
def stopped (p : TimeLoop.Par (Row K)) (n : ℕ) (row0 : Row K) (rs : List (Row K)) :
    Except TimeLoop.Err (Info K) := do
  let b ← goOn p (TimeLoop.Buf.init p n row0) rs
  let b ← mark b
  finish p b

/-- The rows written by the steps of the adaptive solver from time `t` on
(`simenv.py:4171-4242`, `5079-5081`). -/
noncomputable def adaptiveRows (t : ℝ) : List StepControl.Step → List (Row ℝ)
  | [] => []
  | s :: ss => ⟨t + s.h, s.code, s.failed⟩ :: adaptiveRows (t + s.h) ss

/-- Row 0: the initial state. -/
def row0 : Row K := ⟨0, 0, 0⟩

end Verif.Report
