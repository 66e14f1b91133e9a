import Mathlib.Algebra.Order.Field.Basic
import Mathlib.Algebra.BigOperators.Group.List.Basic
import Mathlib.Tactic.NormNum

/-!
# Meters

Transcription of `Meters` (`/repo/multisim/_utility/meters.py`) and of the step length vector it uses
(`/repo/multisim/simenv.py:4947-4952`).

Result columns are lists over the result rows.  Resampling (`_resample_meter`, lines 340-345) is not modelled:
the columns are those of `resample=False`.  The material functions are parameters.
-/

namespace Verif.Meters

section StepVec

variable {K : Type*} [Field K]

/-- `np.diff` -/
def diffs : List K → List K
  | a :: b :: t => (b - a) :: diffs (b :: t)
  | _ => []

/-- `time_step_vec` (`simenv.py:4947-4952`): the differences, and the last of them a second time (nothing is
appended to an empty vector of differences). -/
def stepVec (t : List K) : List K := diffs t ++ (diffs t).getLast?.toList

/-- `np.cumsum`, starting from `acc` -/
def cumsumFrom (acc : K) : List K → List K
  | [] => []
  | x :: xs => (acc + x) :: cumsumFrom (acc + x) xs

/-- `np.cumsum` -/
def cumsum (xs : List K) : List K := cumsumFrom 0 xs

end StepVec

section HeatMeter

variable {K : Type*} [Field K] [LinearOrder K]

/-- One result row seen by a heat meter. -/
structure Row (K : Type*) where
  /-- forward flow temperature, `res` of the warm part -/
  Tff : K
  /-- return flow temperature, `res` of the cold part -/
  Trf : K
  /-- mass flow, `res_dm` of the selected part -/
  dm : K

/-- Element of the column `heatflow_kW` (`meters.py:156-162`). -/
def heatflow (cp : K → K) (r : Row K) : K := (r.Tff - r.Trf) * r.dm / 1e3 * (cp r.Trf + cp r.Tff) / 2

/-- Setting negative elements to zero (`meters.py:143, 170`). -/
def clip (x : K) : K := if x < 0 then 0 else x

/-- Columns of a heat meter with `full_output=True` (`meters.py:124-175`). -/
structure Columns (K : Type*) where
  /-- `flown_mass_kg` -/
  mass : List K
  /-- `flown_volume_m3` -/
  volume : List K
  /-- `flown_mass_pos_kg` -/
  massPos : List K
  /-- `flown_volume_pos_m3` -/
  volumePos : List K
  /-- `heatflow_kW` -/
  power : List K
  /-- `flown_heat_MJ` -/
  heatMJ : List K
  /-- `flown_heat_kWh` -/
  heatkWh : List K
  /-- `flown_heat_pos_MJ` -/
  heatPosMJ : List K
  /-- `flown_heat_pos_kWh` -/
  heatPoskWh : List K

/-- `Meters.heat_meter` (`meters.py:70-207`), computation of the columns from the result rows and the times of
the rows. -/
def heatMeter (cp rho : K → K) (rows : List (Row K)) (t : List K) : Columns K where
  mass := cumsum (List.zipWith (fun r h => r.dm * h) rows (stepVec t))
  volume := cumsum (List.zipWith (fun r h => r.dm / rho r.Trf * h) rows (stepVec t))
  massPos := cumsum (List.zipWith (fun r h => clip r.dm * h) rows (stepVec t))
  volumePos := cumsum (List.zipWith (fun r h => clip r.dm * h / rho r.Trf) rows (stepVec t))
  power := rows.map (heatflow cp)
  heatMJ := (cumsum (List.zipWith (fun r h => heatflow cp r * h) rows (stepVec t))).map (· / 1e3)
  heatkWh := ((cumsum (List.zipWith (fun r h => heatflow cp r * h) rows (stepVec t))).map (· / 1e3)).map (· / 3.6)
  heatPosMJ := (cumsum (List.zipWith (fun r h => clip (heatflow cp r) * h) rows (stepVec t))).map (· / 1e3)
  heatPoskWh :=
    ((cumsum (List.zipWith (fun r h => clip (heatflow cp r) * h) rows (stepVec t))).map (· / 1e3)).map (· / 3.6)

end HeatMeter

section Names

/-- The four kinds of meters (`meters.py:47-51`). -/
inductive Kind
  | heat | temperature | massflow | volumeflow
  deriving DecidableEq

/-- `meters` (the dictionaries of the kinds) and, for disk saving, the store with its keys `meters/<name>`
(`meters.py:354-360`).  `V` is the recorded table of a meter. -/
structure Store (V : Type*) where
  dict : Kind → String → Option V
  disk : String → Option V

/-- No meters (`meters.py:46-51`). -/
def Store.empty {V : Type*} : Store V := ⟨fun _ _ => none, fun _ => none⟩

/-- The dictionary in which the name is looked up: line 102 for heat meters, 222 for temperature, 270 for mass
flow — and 310 for volume flow, where it is the dictionary of the mass flow meters. -/
def checked : Kind → Kind
  | .heat => .heat
  | .temperature => .temperature
  | .massflow => .massflow
  | .volumeflow => .massflow

/-- Writing a table (`meters.py:204-207, 246-249, 287-290, 327-330`). -/
def Store.put {V : Type*} (s : Store V) (k : Kind) (name : String) (v : V) : Store V :=
  ⟨fun k' n => if k' = k ∧ n = name then some v else s.dict k' n,
    fun n => if n = name then some v else s.disk n⟩

/-- Adding a meter for an existing part and cell: `none` is the `AssertionError`; it is raised before anything
is written. -/
def Store.add {V : Type*} (s : Store V) (k : Kind) (name : String) (v : V) : Option (Store V) :=
  if (s.dict (checked k) name).isSome then none else some (s.put k name v)

/-- A sequence of calls by a user who goes on after a refused one. -/
def run {V : Type*} (s : Store V) : List (Kind × String × V) → Store V
  | [] => s
  | (k, n, v) :: cs => run ((s.add k n v).getD s) cs

end Names

end Verif.Meters
