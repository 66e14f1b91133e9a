import Mathlib.Data.Rat.Floor
import Mathlib.Algebra.Order.Field.Rat

/-!
# Additional ports of a part

Transcription of `SimEnv._add_ports` (`/repo/multisim/simenv.py:902-1084`), used by `PipeBranched` and
`PipeWithValve`.  `Tes.__add_ports` (`/repo/multisim/parts/tes.py:629-812`) is the same without the
position kind `distance`.

Not modelled: the arrays that only get one more entry (`_T_port`, `_dm_port`, ...), the dictionary
`port_occurrence` (written but never read), the type checks of the dictionary entries.
-/

namespace Verif.Ports

/-- Python's `round` to an integer: half to even. -/
def pyRound (q : ℚ) : ℤ :=
  if q - ⌊q⌋ < 1 / 2 then ⌊q⌋
  else if 1 / 2 < q - ⌊q⌋ then ⌊q⌋ + 1
  else if ⌊q⌋ % 2 = 0 then ⌊q⌋ else ⌊q⌋ + 1

/-- The two flow direction marks. -/
inductive Dir where
  | inward
  | outward
  deriving DecidableEq

/-- Position of a new port. -/
inductive Pos where
  | index (i : ℤ)
  | volume (v : ℚ)
  | distance (d : ℚ)

/-- Geometry of the part: number of cells, volume of a cell, length. -/
structure Geo where
  numGp : ℕ
  vCell : ℚ
  length : ℚ

/-- The port table of a part: `_port_own_idx`, `port_names`, `dm_char`. -/
structure Table where
  idx : List ℤ
  names : List String
  chars : List Dir
  deriving DecidableEq

/-- Clipping to the range of cells, `simenv.py:1034-1041`. -/
def clipCell (g : Geo) (i : ℤ) : ℤ := if (g.numGp : ℤ) ≤ i then g.numGp - 1 else if i < 0 then 0 else i

/-- Cell of a position, `simenv.py:958-1041`; `none` is an `AssertionError`.
`_V_total` is `num_gp * V_cell`. -/
def cell (g : Geo) : Pos → Option ℤ
  | .index i =>
    if -1 ≤ i ∧ i ≤ (g.numGp : ℤ) - 1 then
      some (clipCell g (if i = -1 then g.numGp - 1 else i)) else none
  | .volume v =>
    if 0 ≤ v ∧ v ≤ g.numGp * g.vCell then
      some (clipCell g (pyRound ((v - (g.vCell / 2 - 1 / 10 ^ 9)) / g.vCell))) else none
  | .distance d =>
    if 0 ≤ d ∧ d ≤ g.length then
      let i := ⌊d / g.length * g.numGp - 1 / 10 ^ 9⌋
      some (clipCell g (if 0 ≤ i then i else 0)) else none

/-- `np.searchsorted` (side left) on a sorted array: the number of smaller entries. -/
def searchsorted (l : List ℤ) (v : ℤ) : ℕ := (l.takeWhile (· < v)).length

/-- `x[:i] + (a,) + x[i:]`. -/
def insertAt {α : Type} (l : List α) (i : ℕ) (a : α) : List α := l.take i ++ a :: l.drop i

/-- Insertion of one port, `simenv.py:1063-1080`. -/
def insertPort (t : Table) (key : String) (v : ℤ) : Table :=
  let i := searchsorted t.idx v
  { idx := insertAt t.idx i v, names := insertAt t.names i key, chars := t.chars ++ [.inward] }

/-- The loop over the new ports. -/
def addPorts (g : Geo) : Table → List (String × Pos) → Option Table
  | t, [] => some t
  | t, (key, pos) :: rest =>
    match cell g pos with
    | none => none
    | some v => addPorts g (insertPort t key v) rest

/-- Port table of a branched pipe before ports are added, `pipe.py:175-179`, `pipe_branched.py:58`. -/
def branched (g : Geo) : Table := ⟨[0, g.numGp - 1], ["in", "out"], [.inward, .inward]⟩

/-- Port table of a plain pipe, `pipe.py:175-183` (a plain pipe does not call `_add_ports`). -/
def plain (g : Geo) : Table := ⟨[0, g.numGp - 1], ["in", "out"], [.inward, .outward]⟩

end Verif.Ports
