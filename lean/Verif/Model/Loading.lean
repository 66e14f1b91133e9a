import Verif.Model.Saving

/-!
# Loading results

Transcription of `load_sim_results` (`/repo/multisim/utility_functions.py:46-101`).  The file is what
`HDFStore.walk` yields: for each group its path (`''` for the root) and its tables in order; names and paths are lists of
characters as in `Model/Saving.lean`.  An exception is `none`.

Simplifications: keys asked for are not empty; tables have rows (a table without rows directly at the root would be
dropped at line 79); tables at the root other than `sim_vecs` do not occur in results of simulations, in the joined table
their columns would appear as tables (line 91).  Joining (`pd.concat`) aligns the tables at their time stamps and is left
out: the joined table is the list of its parts with their double names.
-/

namespace Verif.Loading

open Verif.Saving (Name vecsName)

variable {V : Type*}

/-- What `walk` yields. -/
abbrev Walk (V : Type*) := List (Name × List (Name × V))

/-- The slash in front of keys, lines 53-60. -/
def slash (k : Name) : Name := if k.head? = some '/' then k else '/' :: k

/-- `_keys == 'all' or key in _keys`; `none` is `'all'`. -/
def wanted (keys : Option (List Name)) (k : Name) : Bool :=
  match keys with
  | none => true
  | some l => decide (k ∈ l.map slash)

/-- An entry of the dictionary: the tables of a group, or a table of the root. -/
inductive Loaded (V : Type*)
  | group (tabs : List (Name × V))
  | table (v : V)

/-- The loop over the groups, lines 65-77. -/
def entries (keys : Option (List Name)) : Walk V → Option (List (Name × Loaded V))
  | [] => some []
  | (p, ls) :: t =>
    (entries keys t).bind fun rest =>
      if p = [] then
        match ls with
        | [] => none
        | (l, v) :: _ => if wanted keys ('/' :: l) then some ((l, .table v) :: rest) else some rest
      else some ((p.tail, .group (ls.filter fun x => wanted keys (p ++ '/' :: x.1))) :: rest)

/-- Entries which are kept, line 79. -/
def nonempty : Loaded V → Bool
  | .group tabs => !tabs.isEmpty
  | .table _ => true

/-- The dictionary, lines 64-83. -/
def load (keys : Option (List Name)) (w : Walk V) : Option (List (Name × Loaded V)) :=
  (entries keys w).bind fun d =>
    let d := d.filter fun x => nonempty x.2
    if d.isEmpty then none else some d

/-- The tables which are joined, lines 86-94. -/
def joined (d : List (Name × Loaded V)) : List ((Name × Name) × V) :=
  d.flatMap fun x =>
    if vecsName <:+: x.1 then []
    else match x.2 with
      | .group tabs => tabs.map fun y => ((x.1, y.1), y.2)
      | .table _ => []

/-- `multiindex=True`, lines 85-101: the joined tables and the vectors of the simulation. -/
def loadJoined (keys : Option (List Name)) (w : Walk V) : Option (List ((Name × Name) × V) × Option (Loaded V)) :=
  (load keys w).bind fun d =>
    if (joined d).isEmpty then none
    else some (joined d, (d.find? fun x => decide (x.1 = vecsName)).map Prod.snd)

end Verif.Loading
