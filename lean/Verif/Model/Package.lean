import Mathlib.Data.List.Basic

/-!
# Packaging of results

Transcription of `package_results` (`/repo/multisim/utility_functions.py:167-285`) on Windows (paths are joined with
backslashes there).  File names are lists of characters.  Files are moved without errors; the file with the boundary
conditions, which is moved along with the results if there is one, is left out.
-/

namespace Verif.Package

/-- Names of files, without folder. -/
abbrev Name := List Char

/-- The text before and after the first occurrence of `f`. -/
def cut (f : Name) : Name → Option (Name × Name)
  | [] => if f = [] then some ([], []) else none
  | c :: s => if f.isPrefixOf (c :: s) then some ([], (c :: s).drop f.length)
      else (cut f s).map fun q => (c :: q.1, q.2)

/-- `s.split(f)[0]`. -/
def split0 (f s : Name) : Name :=
  match cut f s with
  | some q => q.1
  | none => s

/-- `s.split(f)[1]`; `none` is an IndexError. -/
def split1 (f s : Name) : Option Name := (cut f s).map fun q => split0 f q.2

/-- `f in s`. -/
def within (f s : Name) : Bool := (cut f s).isSome

/-- What the function finds. -/
structure Disk where
  /-- `name_feature` -/
  feature : Name
  /-- `path` -/
  path : Name
  /-- `ndate_chars` -/
  ndate : ℕ
  /-- names of the files `*feature*.h5` without ending, in the order of `glob` -/
  h5 : List Name
  /-- there is a report, lines 200, 231 -/
  report : Name → Bool
  /-- there is a file `.h5_tmp`, line 236 -/
  tmp : Name → Bool
  /-- names of the files `*feature*.log`, line 202 -/
  logs : List Name
  /-- folders which exist in `move_to` -/
  dirs : List Name

/-- What happens to a simulation. -/
inductive Outcome where
  | unresolved
  | pending
  /-- 'folder already existing' -/
  | skipped
  /-- moved to a new folder, with a new name, maybe together with a log -/
  | moved (dir pre : Name) (log : Option Name)
  deriving DecidableEq

/-- `log_idtfr`, lines 213-215. -/
def Disk.ident (d : Disk) (b : Name) : Option Name := (split1 d.feature b).map (d.feature ++ ·)

/-- `fpath_log`, lines 217-219: only if exactly one is found. -/
def Disk.log (d : Disk) (id : Name) : Option Name :=
  match d.logs.filter fun l => within id (d.path ++ l) with
  | [l] => some l
  | _ => none

/-- `new_name_prefix`, lines 222-226. -/
def Disk.pre (d : Disk) (b : Name) : Option Name → Name
  | some l => split0 ['.'] l
  | none => b.drop d.ndate

/-- One simulation, lines 208-273, with the folders which exist by then; `none` is an IndexError. -/
def Disk.step (d : Disk) (dirs : List Name) (b : Name) : Option (Outcome × List Name) :=
  (d.ident b).bind fun id => (split1 d.feature (d.pre b (d.log id))).map fun e =>
    if d.report b = false then (.unresolved, dirs)
    else if d.tmp b then (.pending, dirs)
    else if d.feature ++ e ∈ dirs then (.skipped, dirs)
    else (.moved (d.feature ++ e) (d.pre b (d.log id)) (d.log id), (d.feature ++ e) :: dirs)

/-- The loop; the second component is false if it was left by an exception. -/
def Disk.loop (d : Disk) : List Name → List Name → List (Name × Outcome) × Bool
  | _, [] => ([], true)
  | dirs, b :: bs =>
    match d.step dirs b with
    | none => ([], false)
    | some (o, dirs') => ((b, o) :: (d.loop dirs' bs).1, (d.loop dirs' bs).2)

/-- `package_results`. -/
def Disk.run (d : Disk) : List (Name × Outcome) × Bool := d.loop d.dirs d.h5

/-- The number of packaged results which is printed, line 280. -/
def Disk.reported (d : Disk) : ℕ := d.h5.length - (d.run.1.filter fun o => o.2 = .unresolved).length

/-- The folder a simulation was moved to. -/
def Outcome.dir? : Outcome → Option Name
  | .moved d _ _ => some d
  | _ => none

end Verif.Package
