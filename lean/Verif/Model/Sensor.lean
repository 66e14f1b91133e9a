import Verif.Model.Ports
import Mathlib.Data.List.Basic
import Mathlib.Data.List.Nodup

/-!
# Which temperature a controller reads

Transcription of `Controls.__check_args` (`/repo/multisim/controls.py:952-1106`) and of the view on the temperatures made
from its result (`controls.py:205-207`; likewise `parts/controllers.py:587-597`, `688-698`).  An exception is `none`.
The existence of the part is the subject of `Model/Registry.lean`.
-/

namespace Verif.Sensor

open Verif.Ports

/-- The argument for the port or cell. -/
inductive Arg where
  | name (s : String)
  | index (j : ℤ)
  /-- a value of any other type -/
  | other

/-- What a part has: `port_names`, `_port_own_idx` and `T.shape[0]`. -/
structure Part where
  names : List String
  own : List ℕ
  rows : ℕ

/-- `__check_args`, `controls.py:1026-1106`. -/
def resolve (p : Part) : Arg → Option ℕ
  | .name s => if s ∈ p.names then p.own[p.names.idxOf s]? else none
  | .index j =>
    if (0 ≤ j ∧ j < p.rows) ∨ (-(p.rows : ℤ) ≤ j ∧ j < 0) then
      some (if -1 < j then j else (p.rows : ℤ) + j).toNat else none
  | .other => none

/-- `T[i : i + 1 : 1]`, `controls.py:205-207`; a slice beyond the end is empty. -/
def view {α : Type*} (T : List α) (i : ℕ) : List α := (T.drop i).take 1

/-- A part with `n` cells and ports at its ends: `pipe.py:174-178`, `tes.py:259-261`, `pump.py:84-89`. -/
def pipe (n : ℕ) : Part := ⟨["in", "out"], [0, n - 1], n⟩

/-- A storage or branched pipe after ports were added. -/
def ofTable (g : Geo) (t : Table) : Part := ⟨t.names, t.idx.map Int.toNat, g.numGp⟩

/-- A pipe with valve: the port `B` is added and the names are set afterwards, `pipe_with_valve.py:72-85`. -/
def pipeValve (g : Geo) (loc : ℕ) : Part :=
  ⟨["A", "B", "AB"], (insertPort (branched g) "B" loc).idx.map Int.toNat, g.numGp⟩

/-- `connector_3w.py:61`, `93-102`; the mixing valve (`mixingvalve.py:96-123`) has the name `AB` for the last port. -/
def threeWay (last : String) : Part := ⟨["A", "B", last], [0, 1, 2], 3⟩

/-- `heatexchanger.py:166`, `236-245`. -/
def plateHex : Part := ⟨["sup_in", "sup_out", "dmd_in", "dmd_out"], [0, 1, 2, 3], 4⟩

/-- `hex_condensing_polynome.py:185`, `228-236`: `T` is a 2×2 grid and `_port_own_idx` numbers its flattened cells. -/
def condHex : Part := ⟨["water_in", "water_out", "fluegas_in", "fluegas_out"], [0, 2, 1, 3], 2⟩

/-- `hex_num.py:194`, `277-294`: `T` is an `n`×3 grid and `_port_own_idx` numbers its flattened cells (counter flow). -/
def hexNum (n : ℕ) : Part := ⟨["sup_in", "sup_out", "dmd_out", "dmd_in"], [0, (n - 1) * 3, 2, n * 3 - 1], n⟩

end Verif.Sensor
