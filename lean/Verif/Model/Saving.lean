import Mathlib.Data.List.Basic
import Mathlib.Data.List.Infix
import Mathlib.Data.List.SplitOn
import Mathlib.Logic.Function.Basic

/-!
# Saving results to disk and reading them back

Transcription of the treatment of `store_results` in `SimEnv.add_part` (`/repo/multisim/simenv.py:716-762`), of the
selection of columns in `_compress_store` (`5423-5530`) and of `return_stored_data` (`5619-5666`).

A table is the list of its columns; rows, resampling and compression do not matter here.  Simplifications: slices have
no step; the lists of `store_results` contain integers (Python counts booleans as integers, other elements are
refused at 750); names are lists of characters in the second half, where keys are taken apart.
-/

namespace Verif.Saving

section Select

/-- The argument `store_results`. -/
inductive Choice
  | bool (b : Bool)
  | int (j : ℤ)
  | slice (start stop : Option ℤ)
  /-- list or tuple -/
  | list (l : List ℤ)

/-- `True if store_results else False`, `simenv.py:722`. -/
def truthy : Choice → Bool
  | .bool b => b
  | .int j => j ≠ 0
  | .slice _ _ => true
  | .list l => !l.isEmpty

/-- `_disk_store_parts` and the names in `__postpone['add_part']`. -/
structure Env where
  chosen : String → Option Choice
  added : String → Bool

/-- Before the first call. -/
def Env.empty : Env := ⟨fun _ => none, fun _ => false⟩

/-- `_check_isadded` and the postponed addition, `simenv.py:762-772, 5706-5709`.  The second component tells whether
the call was accepted. -/
def register (e : Env) (name : String) : Env × Bool :=
  if e.added name then (e, false) else ({ e with added := Function.update e.added name true }, true)

/-- `add_part`, `simenv.py:716-762`; `grid` is the argument `grid_points`, if given.  The choice is written before the
checks at 743 and 762. -/
def addPart (e : Env) (name : String) (grid : Option ℕ) (choice : Choice) : Env × Bool :=
  let gps := grid.getD 1
  let c := if grid.isSome then choice else .bool (truthy choice)
  let e' := { e with chosen := Function.update e.chosen name (some c) }
  match c with
  | .bool _ => register e' name
  | .slice _ _ => register e' name
  | .int j => if j < gps then register e' name else (e', false)
  | .list l => if ∀ j ∈ l, j < gps then register e' name else (e, false)

/-- A call of `add_part`. -/
structure Call where
  name : String
  grid : Option ℕ
  choice : Choice

/-- A sequence of calls; refused ones are caught and the next one is made. -/
def addAll (e : Env) : List Call → Env
  | [] => e
  | c :: cs => addAll (addPart e c.name c.grid c.choice).1 cs

variable {V : Type*}

/-- `iloc` with a number: negative ones count from the end, others than those of columns are an `IndexError`. -/
def column (cols : List V) (j : ℤ) : Option V :=
  if 0 ≤ j then cols[j.toNat]?
  else if -(cols.length : ℤ) ≤ j then cols[(cols.length + j).toNat]?
  else none

/-- Limit of a slice as Python reads it: negative ones count from the end, all are moved into the range. -/
def clampIdx (n : ℕ) (j : ℤ) : ℕ := (min (n : ℤ) (if j < 0 then max 0 (n + j) else j)).toNat

/-- The columns of one table that are saved, `simenv.py:5454-5471`; `none` is an exception, no columns mean that
nothing is written (`continue` at 5457, `HDFStore.put` of an empty table). -/
def select (c : Choice) (cols : List V) : Option (List V) :=
  match c with
  | .bool false => some []
  | .bool true => some cols
  | .int j => if cols.length = 1 then some cols else (column cols j).map fun v => [v]
  | .list l => if cols.length = 1 then some cols else l.mapM (column cols)
  | .slice a b =>
    if cols.length = 1 then some cols
    else some ((cols.take (clampIdx cols.length (b.getD cols.length))).drop (clampIdx cols.length (a.getD 0)))

/-- The final store: all tables without compression (`simenv.py:5494-5530`), the selected columns with compression
(`5440-5489`). -/
def finalStore (compress : Bool) (chosen : String → Option Choice) :
    List ((String × String) × List V) → Option (List ((String × String) × List V))
  | [] => some []
  | (k, cols) :: t => do
    let l ← if compress then (chosen k.1).bind fun c => select c cols else some cols
    let r ← finalStore compress chosen t
    return if l.isEmpty then r else (k, l) :: r

/-- The table under a key, `store[key]`; `none` is a `KeyError`. -/
def get (st : List ((String × String) × List V)) (k : String × String) : Option (List V) :=
  (st.find? fun x => decide (x.1 = k)).map Prod.snd

end Select

section Names

variable {V : Type*}

/-- Names and keys. -/
abbrev Name := List Char

/-- The key of a table as `HDFStore.keys` shows it: `part + '/res'` with a leading slash (`simenv.py:5361-5372`,
`meters.py:355`). -/
def key (group table : Name) : Name := '/' :: (group ++ '/' :: table)

/-- The name of the meters' group, `meters.py:355`, and the text looked for at `simenv.py:5657`. -/
def metersName : Name := "meters".toList

/-- The key and the name of the vectors of the simulation, `simenv.py:4957, 5652`. -/
def vecsName : Name := "sim_vecs".toList

/-- The store: tables in the order of `keys()`. -/
abbrev Store (V : Type*) := List (Name × V)

/-- `store[key]` -/
def Store.get (st : Store V) (k : Name) : Option V := (st.find? fun x => decide (x.1 = k)).map Prod.snd

/-- What the returned dictionary has under a name. -/
inductive Entry (V : Type*)
  | part (res dm : V)
  | vecs (v : V)
  | meters (m : Name → Option V)

/-- The dictionary of meters, `simenv.py:5654-5659`: the tables whose key contains the text `meters`, under the
third piece of the key; later ones replace earlier ones. -/
def metersOf : Store V → (Name → Option V) → (Name → Option V)
  | [], m => m
  | (k, v) :: t, m =>
    if metersName <:+: k then metersOf t (Function.update m ((k.splitOn '/').getD 2 []) (some v)) else metersOf t m

/-- `return_stored_data`, `simenv.py:5636-5664`; further tables of a part (`_special_return_store`) are left out. -/
def returned (st : Store V) (parts : List Name) (name : Name) : Option (Entry V) :=
  if name = metersName ∧ ∃ x ∈ st, metersName <:+: x.1 then some (.meters (metersOf st fun _ => none))
  else if name = vecsName then (st.get ('/' :: vecsName)).map .vecs
  else if name ∈ parts then
    match st.get (key name "res".toList), st.get (key name "dm".toList) with
    | some r, some d => some (.part r d)
    | _, _ => none
  else none

end Names

end Verif.Saving
