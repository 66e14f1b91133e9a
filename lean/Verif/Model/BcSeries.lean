import Mathlib.Data.List.Basic
import Mathlib.Algebra.Order.Floor.Semiring
import Mathlib.Data.Rat.Floor

/-!
# Time series from arrays of boundary conditions

Transcription of `make_boundarycond_timeseries` (`/repo/multisim/utility_functions.py:293-412`).  Times are whole nanoseconds after the
start (as in pandas).  Frequencies are positive and at most 1 GHz and the array is not empty; the checks of types (lines 304-346) are left
out.  Resampling is done by pandas and stays a parameter; whether `resample` still knows the argument `how` (it was removed in pandas 1.0)
is a parameter too.
-/

namespace Verif.BcSeries

variable {V : Type}

/-- What is raised. -/
inductive Err where
  /-- `ValueError`: array too short -/
  | tooShort
  /-- `UnboundLocalError`: `bc_ts` has no value -/
  | unbound
  /-- `ZeroDivisionError` -/
  | division
  /-- `TypeError`: unknown argument `how` -/
  | how
  deriving DecidableEq

/-- A series: time stamps and values. -/
abbrev Series (V : Type) := List (ℕ × V)

/-- Period in nanoseconds, `int(1 / freq * 1e9)`, lines 350-351. -/
def period (freq : ℚ) : ℕ := ⌊1 / freq * 10 ^ 9⌋₊

/-- `pd.Series(data=array, index=pd.date_range(start, periods, freq))`, lines 353-359, 389-396. -/
def series (step : ℕ) (xs : List V) : Series V := (List.range xs.length).zipWith (fun i x => (i * step, x)) xs

/-- `bc[first : first + duration]` (both ends belong to the slice), lines 369, 398. -/
def cut (dur : ℕ) (s : Series V) : Series V := s.filter fun q => q.1 ≤ dur

/-- `np.hstack` in a loop, lines 384-387. -/
def stack (xs : List V) (k : ℕ) : List V := (List.range k).foldl (fun acc _ => acc ++ xs) xs

/-- Arguments. -/
structure Args (V : Type) where
  array : List V
  bcFreq : ℚ
  tsFreq : ℚ
  /-- `ts_duration` in nanoseconds -/
  dur : ℕ
  /-- `bc_too_short == 'stack'` -/
  stack : Bool

/-- `bc_ts = bc.resample(ts_freq_string, how=...)`, lines 372-376, 401-405; `down` is downsampling. -/
def resampled (hasHow : Bool) (resample : (down : Bool) → ℕ → Series V → Series V) (a : Args V) (s : Series V) : Except Err (Series V) :=
  if hasHow then .ok (resample (a.tsFreq ≤ a.bcFreq) (period a.tsFreq) s) else .error .how

/-- `make_boundarycond_timeseries`, lines 348-407. -/
def make (hasHow : Bool) (resample : (down : Bool) → ℕ → Series V → Series V) (a : Args V) : Except Err (Series V) :=
  let step := period a.bcFreq
  let own := (a.array.length - 1) * step
  if own = a.dur then .error .unbound
  else if a.dur < own then resampled hasHow resample a (cut a.dur (series step a.array))
  else if a.stack = false then .error .tooShort
  else if own = 0 then .error .division
  else resampled hasHow resample a (cut a.dur (series step (stack a.array ((a.dur + own - 1) / own))))

end Verif.BcSeries
