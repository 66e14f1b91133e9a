import Mathlib.Algebra.Order.Floor.Ring
import Mathlib.Algebra.Order.Field.Basic
import Mathlib.Data.Rat.Floor

/-!
# When the predictive controller plans and which rows of its profiles it reads

Transcription of the schedule of `ModelPredCHP` (`/repo/multisim/parts/controllers.py`): the list of planning times
(lines 899-906), the calls (`run_controller`, 2102-2124), the end of a planning step (`_longterm_finalize_step`,
2016-2021), the rows read by the long-term (1801-1811) and short-term optimisation (2062-2071), and the checks of the
lengths of the profiles (`_process_profiles`, 1535-1562).  What is planned is the subject of `Model/ModelPred.lean`, the
resampling of `Model/Resample.lean`.
-/

namespace Verif.Plan

variable {K : Type*} [Field K] [LinearOrder K] [IsStrictOrderedRing K] [FloorRing K]

/-- `_opt_steps` (next planning time first; the code pops from the end) and `num_opts`. -/
structure St (K : Type*) where
  steps : List K
  numOpts : ℕ

/-- `np.arange(0, timeframe, opt_every)` followed by `timeframe`, `controllers.py:899-906`, `1227`. -/
def St.init (tf oe : K) : St K := ⟨((List.range ⌈tf / oe⌉₊).map fun k : ℕ => (k : K) * oe) ++ [tf], 0⟩

/-- What a call does in its second step: `none` is an `IndexError` of `_opt_steps[-1]`; otherwise the state after the
call and, if the planning time is reached, the number of the first row of the profiles read by the optimisation
(`num_opts`; nothing is read during emergency control, but the step is counted), `controllers.py:2109-2124`, `2016-2021`. -/
def call (t : K) (s : St K) : Option (St K × Option ℕ) :=
  match s.steps with
  | [] => none
  | x :: xs => some (if x ≤ t then (⟨xs, s.numOpts + 1⟩, some s.numOpts) else (s, none))

/-- Consecutive calls at the given times; the rows read in each call. -/
def calls (s : St K) : List K → Option (St K × List (Option ℕ))
  | [] => some (s, [])
  | t :: ts => do
    let (s', k) ← call t s
    let (s'', ks) ← calls s' ts
    some (s'', k :: ks)

/-- `int(round(time_sim))`, the row of the control profile, `controllers.py:2068`; Python rounds halves to even numbers. -/
def row (t : K) : ℤ :=
  if t - ⌊t⌋ < 1 / 2 then ⌊t⌋ else if 1 / 2 < t - ⌊t⌋ then ⌊t⌋ + 1 else if Even ⌊t⌋ then ⌊t⌋ else ⌊t⌋ + 1

/-- The checks of the lengths: `(index[-1] - index[0]).total_seconds() >= timeframe` for `n` rows at distance `d`,
`controllers.py:1543-1562`. -/
def longEnough (n : ℕ) (d tf : K) : Prop := tf ≤ ((n - 1 : ℕ) : K) * d

/-- The number of rows of the profile from row `k` on which the long-term optimisation reads (a slice of a DataFrame),
`controllers.py:1808`; `m` is `_optsize`. -/
def planLength (n m k : ℕ) : ℕ := min n (k + m) - k

end Verif.Plan
