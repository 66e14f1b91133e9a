import Verif.Model.Flows

/-!
# Which mass flow a meter shows

Transcription of `SimEnv._massflow_idx_from_temp_idx` (`/repo/multisim/simenv.py:3378-3392`), `_check_isinrange`
(`5765-5812`), of what the parts write into a row of `res_dm`, and of the column that `Meters.massflow`,
`Meters.volumeflow` and `Meters.heat_meter` select (`/repo/multisim/_utility/meters.py:117-127`, `260-274`,
`300-316`).  One row (one time step) is considered.  Cells are numbered as in the flattened temperature array;
negative numbers, which Python counts from the end, are not modelled.
-/

namespace Verif.MeterFlow

open Verif.Flows

variable {K : Type*} [Field K] [LinearOrder K]

/-- A part with the flows of the current step (`_dm_io`). -/
inductive Part (K : Type*)
  /-- `Pipe`, `HeatedPipe`, `CHPPlant`: number of cells and the flow -/
  | pipe (n : ℕ) (io : K)
  /-- `Tes`, `PipeBranched`, `PipeWithValve`: number of cells, cell of each port and the flow through it into the
  part -/
  | storage (n : ℕ) (ports : List (ℕ × K))
  /-- `Pump` -/
  | pump (io : K)
  /-- `MixingValve` with three ports -/
  | valve (io : Fin 3 → K)
  /-- `Connector3w` -/
  | connector (io : Fin 3 → K)
  /-- `HeatExchanger`: supply and demand side -/
  | plateHex (sup dmd : K)
  /-- `HEXCondPoly`: water and flue gas -/
  | condHex (water gas : K)
  /-- `HexNum`: rows, supply and demand side -/
  | numHex (n : ℕ) (sup dmd : K)

/-- `T.size`: `pipe.py:110`, `tes.py:193`, `pump.py:61`, `mixingvalve.py:73`, `connector_3w.py:61`,
`heatexchanger.py:167`, `hex_condensing_polynome.py:185`, `hex_num.py:194`. -/
def cells : Part K → ℕ
  | .pipe n _ => n
  | .storage n _ => n
  | .pump _ => 2
  | .valve _ => 3
  | .connector _ => 3
  | .plateHex _ _ => 4
  | .condHex _ _ => 4
  | .numHex n _ _ => n * 3

/-- `dm_invariant`: `pipe.py:255`, `tes.py:334`, `pipe_branched.py:102`, `pipe_with_valve.py:142`, `pump.py:138`,
`mixingvalve.py:183`, `connector_3w.py:175`, `heatexchanger.py:310`, `hex_condensing_polynome.py:304`,
`hex_num.py:366`. -/
def dmInvariant : Part K → Bool
  | .pipe _ _ => true
  | .storage _ _ => false
  | .pump _ => true
  | .valve _ => false
  | .connector _ => false
  | .plateHex _ _ => true
  | .condHex _ _ => true
  | .numHex _ _ _ => true

/-- The row of `res_dm`.  The number of columns is the size of `dm` (`simenv.py:4686-4688, 4710-4712`).  Written by
`_process_flow_invar` (`precomp_funs.py:115`), `_process_flow_var` (`202`), `solve_pump` (`3648`),
`MixingValve.solve` (`mixingvalve.py:655`), `condensing_hex_solve` (`precomp_funs.py:2992`) and
`_process_flow_multi_flow` (`242`).  Neither `solve_connector_3w` (`3274-3347`) nor `solve_platehex` write it: the row
keeps the zeros of its allocation. -/
def resDm : Part K → List K
  | .pipe _ io => [io]
  | .storage n ports => (List.range n).map (processVar n (ports.map Prod.fst) (ports.map Prod.snd)).dm
  | .pump io => [io]
  | .valve io => [io 0, io 1, io 2]
  | .connector _ => [0, 0, 0]
  | .plateHex _ _ => [0, 0]
  | .condHex water gas => [water, gas]
  | .numHex _ sup dmd => [sup, dmd]

/-- `_massflow_idx_from_temp_idx`, `simenv.py:3378-3392`. -/
def massflowIdx (p : Part K) (cell : ℕ) : ℕ := if dmInvariant p then 0 else cell

/-- What `Meters.massflow` shows for a cell, `meters.py:260-274`; `none` is an error.  The mass flow of a heat meter
and of a volume flow meter is found in the same way. -/
def massflow (p : Part K) (cell : ℕ) : Option K :=
  if cell < cells p then (resDm p)[massflowIdx p cell]? else none

end Verif.MeterFlow
