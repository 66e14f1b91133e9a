import Verif.Model.Ports

/-!
# Places of mass flows

Transcription of the branch `target='massflow'` of `SimEnv._get_arr_idx` (`/repo/multisim/simenv.py:2980-3057`) with
`as_slice=True`, as called by `_get_topo_cond` (`3757-3798`), and of the sizes of the arrays `_dm_io` which the
constructors of the parts allocate.

`_T_port` has one dimension in all parts, so that the branches for more dimensions are not modelled.
-/

namespace Verif.FlowIndex

open Verif.Ports

/-- What is read from a part. -/
structure Part where
  /-- `port_names` -/
  names : List String
  /-- `_port_own_idx` -/
  own : List ℕ
  /-- `_dm_io.size` -/
  size : ℕ
  /-- `dm_invariant` -/
  invariant : Bool
  /-- `multiple_flows` -/
  multiple : Bool
  /-- `_flow_channels` -/
  channels : List String

/-- The flow channel of a port, `simenv.py:3016-3018`: the last one whose name occurs in the name of the port. -/
def channel (p : Part) (port : String) : Option String :=
  (p.channels.filter fun c => decide (c.toList <:+: port.toList)).getLast?

/-- Beginning of the slice, `simenv.py:2980-2981, 3003-3057`; `none` is an exception. -/
def start (p : Part) (port : String) : Option ℕ :=
  if port ∈ p.names then
    if p.invariant then
      if p.multiple then (channel p port).map p.channels.idxOf else some 0
    else if p.size = p.names.length then
      if p.multiple then none else some (p.names.idxOf port)
    else p.own[p.names.idxOf port]?
  else none

/-- The cell of `_dm_io` behind the view `_dm_io.reshape(-1)[slice(i, i + 1)]`, e.g. `pipe_branched.py:165-169`; `none`: there is
none, and writing the flow (`simenv.py:2659-2700`) is an `IndexError`. -/
def flowCell (p : Part) (port : String) : Option ℕ := (start p port).bind fun i => if i < p.size then some i else none

/-- Pipes and pumps, `pipe.py:175-179, 255-281`, `pump.py:89-183`. -/
def pipe (n : ℕ) : Part := ⟨["in", "out"], [0, n - 1], 1, true, false, []⟩

/-- Connectors and mixing valves, `connector_3w.py:102, 175-213`, `mixingvalve.py:114-123, 183-229`. -/
def threeWay (last : String) : Part := ⟨["A", "B", last], [0, 1, 2], 3, false, false, []⟩

/-- Plate heat exchangers, `heatexchanger.py:206, 243-245, 310-313`, and numeric ones (counterflow; with parallel flow the constructor
raises), `hex_num.py:249, 291-298, 366-369`. -/
def plateHex (counter : Bool) : Part :=
  ⟨if counter then ["sup_in", "sup_out", "dmd_out", "dmd_in"] else ["sup_in", "sup_out", "dmd_in", "dmd_out"], [0, 1, 2, 3],
    2, true, true, ["sup", "dmd"]⟩

/-- Condensing heat exchangers, `hex_condensing_polynome.py:200, 232-236, 304-307`. -/
def condHex : Part :=
  ⟨["water_in", "water_out", "fluegas_in", "fluegas_out"], [0, 1, 2, 3], 2, true, true, ["water", "fluegas"]⟩

/-- Branched pipes, `pipe_branched.py:48-103`: `Pipe` leaves one cell (`pipe.py:276-281`), and each added port gives the array the size
of `_T_port` (`simenv.py:1055-1061`). -/
def branchedPipe (t : Table) (new : List (String × Pos)) : Part :=
  ⟨t.names, t.idx.map Int.toNat, if new = [] then 1 else 2 + new.length, false, false, []⟩

/-- Storages, `tes.py:199, 236, 334-337, 755-757`: one cell per port. -/
def storage (t : Table) (new : List (String × Pos)) : Part :=
  ⟨t.names, t.idx.map Int.toNat, 2 + new.length, false, false, []⟩

/-- Pipes with valve, `pipe_with_valve.py:75-92, 142`: one added port, names replaced. -/
def pipeValve (t : Table) : Part := ⟨["A", "B", "AB"], t.idx.map Int.toNat, 3, false, false, []⟩

end Verif.FlowIndex
