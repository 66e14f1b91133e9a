import Mathlib.Algebra.Group.Basic

/-!
# When meters can be added and how they are dated

Transcription of `Meters.__init__` (`/repo/multisim/_utility/meters.py:17-68`) and of the way in which meters take their rows from the
results (`meters.py:129-133`, `193-207`, `209-250`, `334-345`), together with what `set_disksaving` (`/repo/multisim/simenv.py:511-591`)
and the end of a run (`simenv.py:4880-4984`, `5433-5530`) leave behind for them.

Simplifications: what a meter computes from a row of the results (C54, C113, C176) is a function `f`; resampling belongs to pandas and is a
parameter; names of meters are left out (C55).
-/

namespace Verif.MeterLife

variable {K R V : Type}

/-- The entries of `_disk_store` which are used here; `none`: there is no such entry. -/
structure Dict (K : Type) where
  /-- `start_date` -/
  date : Option K
  resample : Option Bool
  /-- there is a temporary store -/
  tmp : Bool
  /-- there is an entry `store`, lines 5439, 5509, 5512 -/
  store : Bool

/-- An environment. -/
structure Env (K R : Type) where
  save : Bool
  /-- `_disk_store`; `none` before the first call of `set_disksaving` -/
  dict : Option (Dict K)
  /-- `time_vec` -/
  times : List K
  /-- the rows of the results of all parts -/
  rows : List R

/-- How a call of `set_disksaving` with `save=True` ends. -/
inductive Outcome where
  | accepted
  /-- the frequency cannot be read, lines 553-561 -/
  | badFreq
  /-- folder or file, lines 571-580 -/
  | badPath

/-- What happens to an environment. -/
inductive Event (K R : Type) where
  | disksaving (save : Bool) (date : Option K) (resample : Bool) (o : Outcome)
  /-- a run with its times and results -/
  | run (times : List K) (rows : List R)

/-- The environment before anything was called. -/
def Env.new (K R : Type) : Env K R := ⟨false, none, [], []⟩

/-- A run which does not save or saves to the temporary store is finished, lines 4880-4984; otherwise an error is raised (here the
results are those of the run all the same, C93). -/
def step (s : Env K R) : Event K R → Env K R
  | .disksaving false date _ _ => { s with save := false, dict := some ⟨date, none, false, false⟩ }
  | .disksaving true date _ .badFreq => { s with save := true, dict := some ⟨date, none, false, false⟩ }
  | .disksaving true date r .badPath => { s with save := true, dict := some ⟨date, some r, false, false⟩ }
  | .disksaving true date r .accepted => { s with save := true, dict := some ⟨date, some r, true, false⟩ }
  | .run ts rs =>
    if s.save then
      match s.dict with
      | some d => if d.tmp then ⟨true, some { d with tmp := false, store := true }, ts, rs⟩ else { s with times := ts, rows := rs }
      | none => { s with times := ts, rows := rs }
    else { s with times := ts, rows := rs }

def after (h : List (Event K R)) : Env K R := h.foldl step (Env.new K R)

inductive Err where
  /-- no `_disk_store` -/
  | attribute
  | key
  /-- lengths differ -/
  | value
  deriving DecidableEq

/-- A `Meters` object: `_time_index`, `_resample` and whether its meters are saved. -/
structure Meters (K : Type) where
  index : List K
  resample : Bool
  saving : Bool

/-- `Meters.__init__`, `meters.py:18-68`. -/
def create [Add K] (s : Env K R) (start : K) : Except Err (Meters K) :=
  match s.dict with
  | none => .error .attribute
  | some d => match d.resample with
    | none => .error .key
    | some r => if s.save = true ∧ d.store = false then .error .key else .ok ⟨s.times.map (start + ·), r, s.save⟩

/-- The table of a meter, `meters.py:129-133`, `193`, `340-345`: time stamps and values. -/
def table (resample : List (K × V) → List (K × V)) (f : R → V) (m : Meters K) (s : Env K R) : Except Err (List (K × V)) :=
  if m.index.length = s.rows.length then
    .ok (if m.resample then resample (m.index.zip (s.rows.map f)) else m.index.zip (s.rows.map f))
  else .error .value

end Verif.MeterLife
