import Mathlib.Data.List.Basic

/-!
# Files written by simulations

Transcription of the file operations of simulations which save their results: `set_disksaving`
(`/repo/multisim/simenv.py:511-591`), `_free_memory` (`simenv.py:5323-5421`), `_finalize_sim` (`simenv.py:4880-4984`),
`_compress_store` (`simenv.py:5433-5530`) and the end of `_write_report` (`simenv.py:5612-5617`).  Several simulations, in one or in
several processes, work on one disk; each operation of one simulation is done as a whole.

Simplifications: paths are lists of characters, `os.path.abspath` (which puts the working directory before relative paths) is left out;
the disk can always be written; the contents of a store are the rows in the order in which they were appended, the report is no further
described; rows of different simulations fit together; what resampling and the choice of cells make of the rows (C59, C140) is a function
`out` given with the options.
-/

namespace Verif.StoreFiles

abbrev Name := List Char

/-- The ending `.h5`, line 548. -/
def h5 : Name := ['.', 'h', '5']

/-- The ending of the temporary store, line 583. -/
def tmp : Name := ['_', 't', 'm', 'p']

/-- The ending of the report, line 5614. -/
def csv : Name := ['_', 'R', 'E', 'P', 'O', 'R', 'T', '.', 'c', 's', 'v']

/-- `s.replace('.h5', '_REPORT.csv')`, line 5614: all occurrences from left to right. -/
def report : Name → Name
  | '.' :: 'h' :: '5' :: s => csv ++ report s
  | c :: s => c :: report s
  | [] => []

/-- Arguments of `set_disksaving` and what else it depends on. -/
structure Opts (R : Type) where
  save : Bool
  /-- `path` -/
  path : Name
  /-- the date, to the second, at which it is called (line 544) -/
  date : Name
  /-- `sim_name` or the name of the environment, line 536 -/
  name : Name
  overwrite : Bool
  createNew : Bool
  /-- `resample_freq` can be read or is not used, lines 552-561 -/
  freqOk : Bool
  /-- what is done to the rows in the end -/
  out : List R → List R

variable {R : Type}

/-- Path of the results, lines 542-549. -/
def Opts.target (o : Opts R) : Name := o.path ++ (o.date ++ ('_' :: (o.name ++ h5)))

/-- What a file contains. -/
inductive File (R : Type) where
  | rows (l : List R)
  | report

/-- The disk. -/
structure Disk (R : Type) where
  file : Name → Option (File R)
  dir : Name → Bool

/-- `__save_to_disk` and `_disk_store` of an environment. -/
structure Env (R : Type) where
  save : Bool
  path : Option Name
  pathTmp : Option Name
  out : List R → List R

structure State (R : Type) where
  disk : Disk R
  env : ℕ → Env R

inductive Err where
  /-- `ValueError` of the frequency -/
  | freq
  /-- folder or file not found -/
  | notFound
  /-- `FileExistsError` -/
  | exists_
  /-- `KeyError` -/
  | key
  deriving DecidableEq

/-- Write (or remove) a file. -/
def Disk.write (d : Disk R) (p : Name) (f : Option (File R)) : Disk R := { d with file := fun q => if q = p then f else d.file q }

def State.setEnv (s : State R) (e : ℕ) (v : Env R) : State R := { s with env := fun i => if i = e then v else s.env i }

def State.write (s : State R) (p : Name) (f : Option (File R)) : State R := { s with disk := s.disk.write p f }

/-- `set_disksaving`, lines 511-591: state afterwards and the error raised. -/
def setDisk (s : State R) (e : ℕ) (o : Opts R) : State R × Option Err :=
  if o.save = false then (s.setEnv e ⟨false, none, none, o.out⟩, none)
  else
    let s1 := s.setEnv e ⟨true, some o.target, none, o.out⟩
    if o.freqOk = false then (s1, some .freq)
    else if s.disk.dir o.path = false ∧ o.createNew = false then (s1, some .notFound)
    else
      let s2 : State R := { s1 with disk := { s.disk with dir := fun q => q == o.path || s.disk.dir q } }
      if (s.disk.file o.target).isSome ∧ o.overwrite = false then (s2, some .exists_)
      else ((s2.setEnv e ⟨true, some o.target, some (o.target ++ tmp), o.out⟩).write (o.target ++ tmp) (some (.rows [])), none)

/-- Saving the buffers, lines 5323-5421 (`mode='r+'` asks for a file that exists). -/
def flush (s : State R) (e : ℕ) (l : List R) : State R × Option Err :=
  if (s.env e).save = false then (s, none)
  else match (s.env e).pathTmp with
    | none => (s, some .key)
    | some q => match s.disk.file q with
      | some (.rows l') => (s.write q (some (.rows (l' ++ l))), none)
      | _ => (s, some .notFound)

/-- The end of a run, lines 4880-4984, 5433-5530, 5612-5617: the rest of the rows is saved, the store written to its place, the temporary
store removed and the report written. -/
def finish (s : State R) (e : ℕ) (l : List R) : State R × Option Err :=
  if (s.env e).save = false then (s, none)
  else match flush s e l with
    | (s1, some x) => (s1, some x)
    | (s1, none) => match (s1.env e).path, (s1.env e).pathTmp with
      | some p, some q => match s1.disk.file q with
        | some (.rows l') =>
          (((s1.write p (some (.rows ((s1.env e).out l')))).write q none).write (report p) (some .report), none)
        | _ => (s1, some .notFound)
      | _, _ => (s1, some .key)

/-- What simulations do to the disk. -/
inductive Event (R : Type) where
  | set (e : ℕ) (o : Opts R)
  | flush (e : ℕ) (l : List R)
  | finish (e : ℕ) (l : List R)

def step (s : State R) : Event R → State R × Option Err
  | .set e o => setDisk s e o
  | .flush e l => flush s e l
  | .finish e l => finish s e l

/-- The state after a history of events; errors end single operations, the other simulations go on. -/
def run (s : State R) (l : List (Event R)) : State R := l.foldl (fun s v => (step s v).1) s

end Verif.StoreFiles
