import Mathlib.Algebra.Module.Basic
import Mathlib.Algebra.Order.Field.Basic
import Mathlib.Tactic.NormNum

/-!
# What one attempt of the solver computes

Transcription of the data flow of one pass of the retry loop in `SimEnv._heun_adaptive`
(`/repo/multisim/simenv.py:3966-4123`, `4220`, `4242`) for explicit numeric parts and non-numeric parts; implicit
parts (`solve_num_impl`, solved by `scipy.optimize.root`) are not modelled.  Whether the attempt is accepted is
the subject of `Model/StepControl.lean`.

A part is an arbitrary function of its own memory (`H`: everything the part keeps between two evaluations, such as
its heat transfer coefficients), the port array, its temperatures and the step length.  Parts do not read the
temperatures of other parts except through the port array.
-/

namespace Verif.Attempt

variable {K X H N P : Type*}

/-- Result of evaluating the differential of a part: the differential, the part's memory afterwards, and whether
its stability check passed. -/
structure Eval (X H : Type*) where
  dT : X
  mem : H
  stable : Bool

/-- A numeric part: its differential (`solve_num_expl[part]`). -/
abbrev Diff (K X H P : Type*) := H → P → X → K → Eval X H

/-- State of a numeric part. -/
structure PState (X H : Type*) where
  /-- `res[stepnum - 1]`, not written in a solver call -/
  prev : X
  /-- `T` -/
  T : X
  /-- `res[stepnum]` -/
  res : X
  /-- `_df0` -/
  df0 : X
  /-- `_df1` -/
  df1 : X
  /-- everything else the part keeps -/
  mem : H

/-- A system: numeric parts, non-numeric parts (`solve_nonnum[part]`) and the port update functions, which get the
temperatures (or results) of the numeric and the states of the non-numeric parts. -/
structure System (K X H N P : Type*) where
  diffs : List (Diff K X H P)
  solves : List (N → P → K → N)
  interm : List X → List N → P → P
  result : List X → List N → P → P

/-- State of the environment in a solver call. -/
structure State (X H N P : Type*) where
  parts : List (PState X H)
  nonnum : List N
  ports : P
  stable : Bool

variable [Field K] [AddCommGroup X] [Module K X]

/-- Predictor of one part, `simenv.py:3983-3989`. -/
def predict1 (ports : P) (h : K) (d : Diff K X H P) (s : PState X H) : PState X H :=
  { s with
    T := s.prev + h • (d s.mem ports s.prev h).dT
    df0 := (d s.mem ports s.prev h).dT
    mem := (d s.mem ports s.prev h).mem }

/-- Predictor loop, `simenv.py:3974-3993`: leaves at the first unstable part; the flag tells whether there was
none. -/
def predict (ports : P) (h : K) : List (Diff K X H P) → List (PState X H) → List (PState X H) × Bool
  | d :: ds, s :: ss =>
    if (d s.mem ports s.prev h).stable then
      (predict1 ports h d s :: (predict ports h ds ss).1, (predict ports h ds ss).2)
    else (predict1 ports h d s :: ss, false)
  | _, ss => (ss, true)

/-- Corrector of one part, `simenv.py:4030-4049` and `precomp_funs.py:3748, 3780`. -/
def correct1 (ports : P) (h : K) (d : Diff K X H P) (s : PState X H) : PState X H :=
  { s with
    df1 := (d s.mem ports s.T h).dT
    res := s.prev + (h / 2) • (s.df0 + (d s.mem ports s.T h).dT)
    T := s.prev + (h / 2) • (s.df0 + (d s.mem ports s.T h).dT)
    mem := (d s.mem ports s.T h).mem }

/-- Corrector loop, `simenv.py:4028-4049` (no stability check). -/
def correct (ports : P) (h : K) : List (Diff K X H P) → List (PState X H) → List (PState X H)
  | d :: ds, s :: ss => correct1 ports h d s :: correct ports h ds ss
  | _, ss => ss

/-- Non-numeric parts, `simenv.py:4018-4019`, `4111-4112`. -/
def solveAll (ports : P) (h : K) : List (N → P → K → N) → List N → List N
  | f :: fs, n :: ns => f n ports h :: solveAll ports h fs ns
  | _, ns => ns

/-- The stable branch after the predictor, `simenv.py:4018-4123`. -/
def finish (sys : System K X H N P) (h : K) (parts : List (PState X H)) (nonnum : List N) (ports : P) :
    State X H N P :=
  let n1 := solveAll ports h sys.solves nonnum
  let p1 := sys.interm (parts.map PState.T) n1 ports
  let q := correct p1 h sys.diffs parts
  let n2 := solveAll p1 h sys.solves n1
  ⟨q, n2, sys.result (q.map PState.res) n2 p1, true⟩

/-- One attempt with step length `h`, `simenv.py:3966-4123`. -/
def attempt (sys : System K X H N P) (h : K) (s : State X H N P) : State X H N P :=
  if (predict s.ports h sys.diffs s.parts).2 then
    finish sys h (predict s.ports h sys.diffs s.parts).1 s.nonnum s.ports
  else ⟨(predict s.ports h sys.diffs s.parts).1, s.nonnum, s.ports, false⟩

/-- A rejected attempt: the port array is restored from the backup taken before the first attempt,
`simenv.py:3953`, `4220`, `4242`. -/
def rejected (sys : System K X H N P) (bkp : P) (h : K) (s : State X H N P) : State X H N P :=
  { attempt sys h s with ports := bkp }

/-- A solver call in which the attempts with the step lengths `hs` are rejected and one with `h` is accepted. -/
def call (sys : System K X H N P) (s : State X H N P) (hs : List K) (h : K) : State X H N P :=
  attempt sys h (hs.foldl (fun st h' => rejected sys s.ports h' st) s)

end Verif.Attempt
