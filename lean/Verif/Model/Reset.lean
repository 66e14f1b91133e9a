import Mathlib.Algebra.Order.Field.Basic

/-!
# Resetting the simulation environment

`SimEnv._reset_simenv` (`multisim/simenv.py:4782-4802`) calls `_reset_to_init_cond` of every part in the
order in which the parts were added.  The parts write into numpy arrays, and some of these arrays are shared:
a pipe whose first solved port has the opposite flow direction of its source port does not own its flow
array, it keeps a view of the array of the source part (`multisim/parts/pipe.py:547-562`).  The model
therefore uses one memory of numbered cells and gives every part the addresses of its cells.

Simplifications: only temperatures, mass flows and valve openings are modelled; the reset of the controllers
is in `Model/Controls.lean`; the first values of time series (`simenv.py:1560-1566`) are not modelled.
-/

namespace Verif.Reset

variable {K : Type*} [Field K]

/-- What `_reset_to_init_cond` does depends on the class only. -/
inductive Kind
  /-- `Pipe` and everything derived from it without an own reset: `HeatedPipe`, `CHPPlant`, `PipeWithPump`,
  `PipeWithValve` (`pipe.py:499-501`), and `Tes` (`tes.py:625-627`). -/
  | pipe
  /-- `HeatExchanger` (`heatexchanger.py:501-502`), `HexNum` (`hex_num.py:646-647`), `HEXCondPoly`
  (`hex_condensing_polynome.py:441-442`). -/
  | hex
  /-- `Connector3w` (`connector_3w.py:259-260`). -/
  | connector
  /-- `Pump` (`pump.py:344-345`). -/
  | pump
  /-- `MixingValve` and its splitting variant (`mixingvalve.py:404-414`). -/
  | valve
  deriving DecidableEq

/-- A part: the cells it writes and the values it had directly after `init_part`.  `dm` are the cells of the
flow array `_dm_io` (for pumps and pipes `dm` is the same array), `pf` the cells of the openings. -/
structure RPart (K : Type*) where
  kind : Kind
  temps : List ℕ
  tInit : ℕ → K
  dm : List ℕ
  dmInit : K
  pf : List ℕ
  pfInit : ℕ → K

/-- The memory. -/
abbrev Mem (K : Type*) := ℕ → K

/-- `array[:] = values`. -/
def writeAll (m : Mem K) (l : List ℕ) (v : ℕ → K) : Mem K := fun a => if a ∈ l then v a else m a

/-- `_reset_to_init_cond` of one part. -/
def resetPart (m : Mem K) (p : RPart K) : Mem K :=
  match p.kind with
  | .pipe => writeAll (writeAll m p.dm fun _ => 0) p.temps p.tInit
  | .hex => writeAll m p.temps p.tInit
  | .connector => m
  | .pump => writeAll m (p.dm.take 1) fun _ => p.dmInit
  | .valve => writeAll m p.pf p.pfInit

/-- `simenv.py:4791-4792`. -/
def resetAll (parts : List (RPart K)) (m : Mem K) : Mem K := parts.foldl resetPart m

end Verif.Reset
