import Mathlib.Data.List.Basic
import Mathlib.Data.List.Infix

/-!
# Loading results and databases by name

`load_results_by_name` (`/repo/multisim/utility_functions.py:104-149`) and `database_import` (`541-586`).  The file system
is an input: the entries of the folder of a set of simulations, and the pickled tables a search finds in a folder.  Names
are lists of characters; digits are the ASCII digits (`\d` of Python also matches the digits of other scripts).  What
`load_sim_results` returns for a file is the subject of C145 and abstract here.
-/

namespace Verif.ByName

/-- Exceptions. -/
inductive Err
  /-- `AssertionError` -/
  | assertion
  /-- `IndexError` -/
  | index
  /-- a local variable is read that was never set (`UnboundLocalError`) -/
  | unbound
  deriving DecidableEq

/-- An entry of the folder of a set: its name, if it is a folder, and the first file in it with the ending asked for (none
if there is no such file). -/
structure Entry (R : Type*) where
  name : List Char
  dir : Bool
  file : Option R

/-- `int(_re.findall(r'\d+', sd)[0])`, lines 136, 146: the first group of digits as a number; without digits an
`IndexError`. -/
def number (s : List Char) : Except Err ℕ :=
  match (s.dropWhile fun c => !c.isDigit).takeWhile Char.isDigit with
  | [] => .error .index
  | ds => .ok (ds.foldl (fun n c => 10 * n + (c.toNat - 48)) 0)

/-- Selection of the folders, lines 135-137: all entries of the listing whose number is asked for; the listing is `ldir`,
not the folders with the identifier found before. -/
def select {R : Type*} (nums : List ℕ) : List (Entry R) → Except Err (List (ℕ × Entry R))
  | [] => .ok []
  | e :: es =>
    match number e.name with
    | .error x => .error x
    | .ok n =>
      match select nums es with
      | .error x => .error x
      | .ok r => .ok (if n ∈ nums then (n, e) :: r else r)

/-- `_glob.glob(…)[0]`, lines 140-143: the result file of every chosen entry. -/
def resFiles {R : Type*} : List (ℕ × Entry R) → Except Err (List (ℕ × R))
  | [] => .ok []
  | (n, e) :: es =>
    match e.file with
    | none => .error .index
    | some f =>
      match resFiles es with
      | .error x => .error x
      | .ok r => .ok ((n, f) :: r)

/-- The dictionary filled in lines 145-148: a later item replaces an earlier one with the same key. -/
def dict {R : Type*} (l : List (ℕ × R)) (n : ℕ) : Option R := (l.reverse.find? fun p => p.1 == n).map Prod.snd

/-- `load_results_by_name`, lines 104-149; `nums` is `set_numbers` (a single number is the list of it). -/
def load {R : Type*} (ident : List Char) (nums : Option (List ℕ)) (ldir : List (Entry R)) : Except Err (ℕ → Option R) :=
  if (ldir.filter fun e => e.dir && decide (ident <:+: e.name)) = [] then .error .assertion else
  match nums with
  | none => .error .unbound
  | some ns =>
    match select ns ldir with
    | .error x => .error x
    | .ok sel =>
      if sel = [] then .error .assertion else
      match resFiles sel with
      | .error x => .error x
      | .ok fs => .ok (dict fs)

/-! ## `database_import` -/

/-- `file.split('\\')[-1].split('.')[0]`, lines 563, 568, 578, 583. -/
def stem (file : List Char) : List Char :=
  ((file.reverse.takeWhile fun c => c != '\\').reverse).takeWhile fun c => c != '.'

/-- The dictionary of the tables of `files`, lines 561-564, 576-579. -/
def readAll {R : Type*} (read : List Char → R) (files : List (List Char)) (name : List Char) : Option R :=
  (files.reverse.find? fun f => stem f == name).map read

/-- `database_import`, lines 541-586.  `pkg` is the folder of the package, `glob` lists the pickled tables of a folder,
`which = none` is `'all'`, `dialog` is the folder a user chooses when asked. -/
def dbImport {R : Type*} (read : List Char → R) (glob : List Char → List (List Char)) (pkg dialog : List Char)
    (standard : Bool) (path : Option (List Char)) (which : Option (List (List Char))) :
    Except Err (List Char → Option R) :=
  let pth : Option (List Char) :=
    if standard then some (pkg ++ "\\data_tables".toList)
    else if path.isNone ∨ path = some [] then some dialog else none
  match which with
  | none =>
    match pth with
    | none => .error .unbound
    | some p => .ok (readAll read (glob p))
  | some [] => .ok fun _ => none
  | some (_ :: _) => .error .unbound

end Verif.ByName
