import Mathlib.Data.List.Basic
import Mathlib.Data.Int.Log
import Mathlib.Data.Real.Archimedean
import Mathlib.Algebra.Order.Floor.Ring

/-!
# Axis labels and numbers for tables

Transcription of `si_axlabel` (`/repo/multisim/_utility/plotting.py:525-657`, without handing the label to the axis)
and `sinum_frmt` (`660-686`).  Strings are lists of characters; `str.format` inserts its arguments as they are.
The number formats `.3G` and `.0f` are modelled by the number that is printed, not by its digits.
-/

namespace Verif.Label

/-- What ends a call without a result. -/
inductive Err
  | assertion
  | type
deriving DecidableEq

/-- `str.replace` of one character. -/
def replace1 (a : Char) (r : List Char) : List Char → List Char
  | [] => []
  | c :: l => if c = a then r ++ replace1 a r l else c :: replace1 a r l

/-- `str.replace` of the two characters `a b`, from left to right without overlaps. -/
def replace2 (a b : Char) (r : List Char) : List Char → List Char
  | c :: d :: l => if c = a ∧ d = b then r ++ replace2 a b r l else c :: replace2 a b r (d :: l)
  | l => l

/-- `style`; other values are refused, `plotting.py:582`. -/
inductive Style
  | SI
  | «in»
  | parentheses
  | IEEE

/-- The assertion in the loop, `plotting.py:597-601`: `'$' not in lbl and unt is None or '$' not in unt`; the operator
`in` fails for `None`. -/
def refuse (lbl : List Char) (unt : Option (List Char)) : Option Err :=
  if '$' ∉ lbl ∧ unt = none then none
  else match unt with
    | none => some .type
    | some u => if '$' ∈ u then some .assertion else none

/-- `unit_`, `plotting.py:603-609`: no unit for `''` and `'none'`; percent signs get one backslash. -/
def unitOf (unt : Option (List Char)) : Option (List Char) :=
  match unt with
  | none => none
  | some u => if u = [] ∨ u = "none".toList then none
      else some (replace1 '%' ['\\', '%'] (replace2 '\\' '%' ['%'] u))

/-- `axlabel`, `plotting.py:605-642`. -/
def axlabel (st : Style) (sp lbl : List Char) (unt : Option (List Char)) : List Char :=
  let l := replace1 ' ' sp lbl
  match unitOf unt with
  | none => '$' :: l ++ ['$']
  | some u =>
    let m := "\\mathrm{".toList ++ u ++ ['}']
    match st with
    | .SI => '$' :: l ++ sp ++ ['/'] ++ sp ++ m ++ ['$']
    | .«in» => '$' :: l ++ sp ++ "in".toList ++ sp ++ m ++ ['$']
    | .parentheses => '$' :: l ++ sp ++ "in".toList ++ sp ++ ['('] ++ m ++ [')'] ++ ['$']
    | .IEEE => '$' :: l ++ sp ++ ['('] ++ m ++ [')'] ++ ['$']

/-- The loop over labels and units, `plotting.py:595-643`. -/
def loop (st : Style) (sp : List Char) : List (List Char × Option (List Char)) → Except Err (List Char)
  | [] => .ok []
  | (lbl, unt) :: l =>
    match refuse lbl unt with
    | some e => .error e
    | none =>
      match loop st sp l with
      | .error e => .error e
      | .ok r => .ok (axlabel st sp lbl unt ++ r)

/-- What a user passes: one label, labels with one unit each, or labels without units, `plotting.py:583-592`. -/
inductive Arg
  | one (label : List Char) (unit : Option (List Char))
  | many (labels : List (List Char)) (units : List (Option (List Char)))
  | noUnits (labels : List (List Char)) (unit : Option (List Char))

/-- `label` and `unit` as tuples; a string as unit of several labels is refused unless it is `''` or `'none'`. -/
def pairs : Arg → Except Err (List (List Char × Option (List Char)))
  | .one l u => .ok [(l, u)]
  | .many ls us => if us.length = ls.length then .ok (ls.zip us) else .error .assertion
  | .noUnits ls u =>
    if u = none ∨ u = some [] ∨ u = some "none".toList then .ok (ls.zip (List.replicate ls.length u))
    else .error .assertion

/-- `si_axlabel`: the text of the label. -/
def siLabel (st : Style) (sp : List Char) (a : Arg) : Except Err (List Char) :=
  match pairs a with
  | .error e => .error e
  | .ok l =>
    match loop st sp l with
    | .error e => .error e
    | .ok r => .ok (replace2 '$' '$' (',' :: sp) r)

/-- A way of rounding to integers: `rnd` is the nearest integer, ties as the implementation likes. -/
structure Rounding where
  rnd : ℝ → ℤ
  near : ∀ x, |(rnd x : ℝ) - x| ≤ 1 / 2

/-- The number printed by `.3G`: three significant digits. -/
noncomputable def sig3 (ρ : Rounding) (x : ℝ) : ℝ :=
  if x = 0 then 0
  else
    let e := Int.log 10 |x|
    let m := (ρ.rnd (|x| / (10 : ℝ) ^ (e - 2)) : ℝ) * (10 : ℝ) ^ (e - 2)
    if x < 0 then -m else m

/-- The number printed by `sinum_frmt` for an `int` or `float` that is not `nan`, `plotting.py:677-682`. -/
noncomputable def sinum (ρ : Rounding) (x : ℝ) : ℝ :=
  if x < 1000 then sig3 ρ x else ρ.rnd x

end Verif.Label
