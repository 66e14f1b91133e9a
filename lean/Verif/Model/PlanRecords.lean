import Verif.Model.Plan

/-!
# What the predictive controller stores about its plans

Transcription of the records of `ModelPredCHP` (`/repo/multisim/parts/controllers.py`): their allocation (lines 907-924,
967-970), what a planning step writes to them (`_longterm_opt_pred`, 1779-1928; `run_controller`, 2111-2124), and the
tables which are made of them at the end of a simulation (`_special_store_to_disk`, 1244-1309).

The results of the optimiser and of the adjustment to the state of charge are arbitrary inputs.  NaN is `none`.
`dropna(how='any', thresh=2)` keeps the rows with at least two values (pandas before 1.5; from 1.5 on it raises a
`TypeError`, since only one of the two arguments may be given).
-/

namespace Verif.Plan

variable {K : Type*} [Field K] [LinearOrder K] [IsStrictOrderedRing K] [FloorRing K]

/-- What a call of the optimiser results in. -/
structure Outcome (K : Type*) where
  /-- `_res_optimizer.status` -/
  status : ℤ
  /-- `_res_optimizer.x` -/
  plan : List K
  /-- `_longterm_adj_by_soc(_res_optimizer.x)` -/
  post : List K
  /-- `_res_optimizer.fun` -/
  cost : K
  /-- `opt_chp_now` and its cost, if the plan is not accepted, `controllers.py:1896-1928` -/
  now : K
  costNow : K
  /-- `_tes_soc_now`, `tes_soc_min`, `tes_soc_max` -/
  soc : K × K × K

/-- What happens in the first step of a call: emergency control switches on or off, or nothing happens and the optimiser
is called if it is time. -/
inductive Event (K : Type*)
  | emergency (on : Bool)
  | optimise (o : Outcome K)

/-- A row of the arrays `_opt_steptime`, `_opt_chp_mod`, `_opt_chp_mod_post`, `_opt_status`, `_opt_cost`. -/
structure Row (K : Type*) where
  steptime : Option (ℕ × K)
  plan : List (Option K)
  post : List (Option K)
  status : Option ℤ
  cost : Option K

/-- A row before anything is written to it; `m` is `_optsize`, `controllers.py:909-924`. -/
def Row.nan (K : Type*) (m : ℕ) : Row K := ⟨none, List.replicate m none, List.replicate m none, none, none⟩

/-- The last row before anything is written to it, `controllers.py:913-915`. -/
def Row.last (K : Type*) [Zero K] (m : ℕ) : Row K :=
  ⟨none, (List.replicate m none).set 0 (some 0), (List.replicate m none).set 0 (some 0), none, none⟩

/-- `row[:xs.size] = xs` -/
def overwrite (row : List (Option K)) (xs : List K) : List (Option K) := xs.map some ++ row.drop xs.length

/-- The plans which are accepted, `controllers.py:1877`. -/
def accepted (status : ℤ) : Bool := status ∈ [0, 3, 4, 8, 9]

/-- Row `k` after a planning step at time `t`, `controllers.py:1782-1785`, `1863-1884`, `1904-1909`, `2121`. -/
def record (k : ℕ) (t : K) (r : Row K) : Event K → Row K
  | .emergency on => { r with status := some (if on then 100 else -100) }
  | .optimise o =>
    if accepted o.status then
      ⟨some (k, t), overwrite r.plan o.plan, overwrite r.post o.post, some o.status, some o.cost⟩
    else
      ⟨some (k, t), r.plan.map fun _ => none, (overwrite r.post o.post).set 0 (some o.now), some 99, some o.costNow⟩

/-- The schedule, the rows and `_tes_socs`. -/
structure Book (K : Type*) where
  sched : St K
  rows : List (Row K)
  socs : List (K × K × K × K)

/-- At the beginning: one row for every planning time and one for the end of the time frame. -/
def Book.init (tf oe : K) (m : ℕ) : Book K :=
  ⟨St.init tf oe, List.replicate ⌈tf / oe⌉₊ (Row.nan K m) ++ [Row.last K m], []⟩

/-- `_tes_socs` after a planning step at time `t`, `controllers.py:1794-1801`. -/
def measured (t : K) (socs : List (K × K × K × K)) : Event K → List (K × K × K × K)
  | .emergency _ => socs
  | .optimise o => socs ++ [(t, o.soc)]

/-- A call at time `t`; `none` for an `IndexError`, `controllers.py:2102-2124`. -/
def Book.call (t : K) (e : Event K) (b : Book K) : Option (Book K) := do
  let (s, k) ← Plan.call t b.sched
  match k with
  | none => some { b with sched := s }
  | some k => some ⟨s, b.rows.modify k fun r => record k t r e, measured t b.socs e⟩

/-- Consecutive calls. -/
def Book.calls (b : Book K) : List (K × Event K) → Option (Book K)
  | [] => some b
  | (t, e) :: l => do Book.calls (← Book.call t e b) l

/-- Table `opt_stats` with `dropna(how='any')`, `controllers.py:1273-1276`, `1285-1293`: time stamp, step, status, cost;
`start` is the stamp of the first result. -/
def statsTable (start : K) (rows : List (Row K)) : List (K × ℕ × ℤ × K) :=
  rows.filterMap fun r =>
    match r.steptime, r.status, r.cost with
    | some (k, t), some st, some c => some (start + t, k, st, c)
    | _, _, _ => none

/-- `dropna(how='any', thresh=2)` of rows with time stamps, `controllers.py:1279-1284`. -/
def thresh (start : K) (col : Row K → List (Option K)) (rows : List (Row K)) : List (Option K × List (Option K)) :=
  rows.filterMap fun r =>
    if 2 ≤ ((col r).filter Option.isSome).length then some (r.steptime.map fun p => start + p.2, col r) else none

/-- Table `opt_res_longterm`. -/
def planTable (start : K) (rows : List (Row K)) := thresh start Row.plan rows

/-- Table `opt_res_longterm_postproc`. -/
def postTable (start : K) (rows : List (Row K)) := thresh start Row.post rows

/-- `loc[~index.duplicated()]`: the first row of each time stamp. -/
def firsts {α : Type*} : List (K × α) → List (K × α)
  | [] => []
  | r :: l => r :: (firsts l).filter fun q => q.1 ≠ r.1

/-- Table `tes_soc`, `controllers.py:1257-1265`, `1268-1269`. -/
def socTable (start : K) (socs : List (K × K × K × K)) : List (K × K × K × K) :=
  firsts ((if socs = [] then [(0, 0, 0, 0)] else socs).map fun r => (start + r.1, r.2))

end Verif.Plan
