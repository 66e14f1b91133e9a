import Verif.Model.ModelPred

/-!
# Table of storage capacities

`multisim/parts/controllers.py`: the rows `_tes_caps_res` that the predictive controller records, and what is stored on
the disk.  The conversion of the time to a time stamp and `dropna` (no row contains NaN) are not modelled.
-/

namespace Verif.ModelPred

variable {K : Type*} [Field K] [LinearOrder K]

/-- A row of `_tes_caps_res`: `(time, id, cap_lo, cap_hi)`. -/
structure Row (K : Type*) where
  time : K
  id : Int
  lo : K
  hi : K
deriving DecidableEq

/-- The row recorded by `_adapt_cap`, `controllers.py:1757-1776`; `s` is the state before. -/
def adaptRow (lower : Bool) (i : Inp K) (s : St K) : List (Row K) :=
  if s.cnsctv then []
  else [⟨i.time, if lower then -2 else -1, (adaptCap lower i s).lo.cur, (adaptCap lower i s).hi.cur⟩]

/-- The rows recorded by `_emergency_control`, `controllers.py:1681-1734`. -/
def emergencyRows (c : Cfg K) (i : Inp K) (s : St K) : List (Row K) :=
  (if on c i s then adaptRow c.two.actLower i s else []) ++
    (if c.two.off i.base then adaptRow c.two.deactLower i (activate c i s) else [])

/-- The row recorded by `_restore_adptd_caps`, `controllers.py:2028-2059`; `s` is the state before. -/
def restoreRow (c : Cfg K) (i : Inp K) (s : St K) : List (Row K) :=
  if s.adapted then
    if 1 ≤ restFactor c i.time s.lo ∧ 1 ≤ restFactor c i.time s.hi then []
    else [⟨i.time, 1, (restoreCaps c i s).lo.cur, (restoreCaps c i s).hi.cur⟩]
  else []

/-- The rows recorded by a call of `run_controller`, `controllers.py:2102-2161`. -/
def runRows (c : Cfg K) (i : Inp K) (s : St K) : List (Row K) :=
  emergencyRows c i s ++ if i.due then restoreRow c i (emergency c i s) else []

/-- `_tes_caps_res` after a sequence of calls. -/
def rows (c : Cfg K) (s : St K) : List (Inp K) → List (Row K)
  | [] => []
  | i :: is => runRows c i s ++ rows c (run c i s) is

/-- `tcapr.loc[~tcapr.index.duplicated()]`, `controllers.py:1268`: the first row of every time. -/
def firstRows : List K → List (Row K) → List (Row K)
  | _, [] => []
  | seen, r :: rs => if r.time ∈ seen then firstRows seen rs else r :: firstRows (r.time :: seen) rs

/-- `_special_store_to_disk`, `controllers.py:1244-1268`: the stored table. -/
def storedRows (c : Cfg K) (is : List (Inp K)) : List (Row K) :=
  let rs := rows c (St.init c) is
  firstRows [] (if rs = [] then [⟨0, 0, c.capLo, c.capHi⟩] else rs)

end Verif.ModelPred
