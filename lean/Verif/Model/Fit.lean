import Verif.Model.Perf
import Verif.Model.Resample

/-!
# Fitting two time series for a comparison

Transcription of `process_unevenly_spaced_timeseries` (`/repo/multisim/utility_functions.py:415-448`), `is_evenly_spaced`
(`2817-2831`), `fit_time_series` (`2834-2922`) for indices of times, and of `ts_performance_indicators` (`2925-3026`) on
their result.  Times are whole nanoseconds since a midnight which is the origin of the grids of both series: they begin on
the same day or the period divides the day.  No time occurs twice in a series and no given value is NaN.

`resample(f).ffill()` and `.bfill()` are transcribed from pandas (`DatetimeIndexResampler._upsample`): the values at the
labels of the intervals are read off the series, except for a series which already has the period (and three values at
least, which are needed to recognise it): this one keeps its values and gets the labels as its new times.
-/

namespace Verif.Fit

open Verif.Resample

variable {K : Type*} [Field K]

/-- The accepted values of `how`, line 425. -/
inductive How | interpolate | forwardFill | backwardFill
  deriving DecidableEq

/-- The labels of the intervals from the first to the last stamp. -/
def labels (f : ℕ) (l : List (ℕ × K)) : List ℕ :=
  (List.range (last f l + 1 - first f l)).map fun i => (first f l + i) * f

/-- `reindex(method='ffill')` at time `t`: the last value up to `t`. -/
def lastAt (l : List (ℕ × K)) (t : ℕ) : Option K := (l.filter fun p => p.1 ≤ t).getLast?.map Prod.snd

/-- `reindex(method='bfill')` at time `t`: the first value from `t` on. -/
def firstFrom (l : List (ℕ × K)) (t : ℕ) : Option K := (l.filter fun p => t ≤ p.1).head?.map Prod.snd

/-- `inferred_freq` is the period `f`. -/
def Inferred (f : ℕ) (l : List (ℕ × K)) : Prop := 3 ≤ l.length ∧ (l.map Prod.fst).IsChain fun a b => b = a + f

instance (f : ℕ) (l : List (ℕ × K)) : Decidable (Inferred f l) := by unfold Inferred; infer_instance

/-- `_upsample` of pandas with the given way to read off a value. -/
def upsample (read : List (ℕ × K) → ℕ → Option K) (f : ℕ) (l : List (ℕ × K)) : List (ℕ × Option K) :=
  if Inferred f l ∧ l.length = (labels f l).length then (labels f l).zip (l.map fun p => some p.2)
  else (labels f l).map fun t => (t, read l t)

/-- `process_unevenly_spaced_timeseries`, lines 443-448. -/
def process (f : ℕ) : How → List (ℕ × K) → List (ℕ × Option K)
  | .interpolate, l => (labels f l).zip (resample f l)
  | .forwardFill, l => upsample lastAt f l
  | .backwardFill, l => upsample firstFrom f l

/-- A series with its index; `freq` is the attribute of the index, `none` for an index without frequency. -/
structure Ser (K : Type*) where
  freq : Option ℕ
  data : List (ℕ × K)

/-- A series that is not resampled. -/
def Ser.plain (s : Ser K) : List (ℕ × Option K) := s.data.map fun p => (p.1, some p.2)

/-- Lines 2900-2905 and 2908-2912: a series without frequency, or with one that is not the target, is resampled to the
period that was given; `none` is a failing assertion. -/
def adapt (target freq : Option ℕ) (how : Option How) (s : Ser K) : Option (List (ℕ × Option K)) :=
  if s.freq = none ∨ s.freq ≠ target then
    freq.bind fun f => how.map fun h => process f h s.data
  else some s.plain

/-- `fit_time_series`, lines 2877-2916, for two indices of times. -/
def fit (resampleUneven : Bool) (freq : Option ℕ) (how : Option How) (pred rlz : Ser K) :
    Option (List (ℕ × Option K) × List (ℕ × Option K)) :=
  let target := freq.or rlz.freq
  let r :=
    if pred.freq = none ∨ rlz.freq = none ∨ pred.freq ≠ target ∨ rlz.freq ≠ target then
      if resampleUneven then
        (adapt target freq how pred).bind fun p => (adapt target freq how rlz).map fun q => (p, q)
      else none
    else some (pred.plain, rlz.plain)
  r.bind fun pq => if pq.1.length = pq.2.length then some pq else none

/-- The value at a time; `none` is NaN. -/
def look (s : List (ℕ × Option K)) (t : ℕ) : Option K := (s.find? fun e => e.1 = t).bind Prod.snd

/-- `pd.concat((pred, rlz), axis=1)`, line 2922, as in `Verif.Perf.concat`. -/
def concat (p q : List (ℕ × Option K)) : List (Option K × Option K) :=
  if p.map Prod.fst = q.map Prod.fst then List.zipWith (fun a b => (a.2, b.2)) p q
  else (((p.map Prod.fst ++ q.map Prod.fst).dedup).insertionSort (· ≤ ·)).map fun t => (look p t, look q t)

/-- `ts_performance_indicators` of two series with indices of times; `none` is a failing assertion. -/
noncomputable def perf (excludeZeros resampleUneven : Bool) (freq : Option ℕ) (how : Option How) (pred rlz : Ser ℝ) :
    Option Perf.Indicators :=
  (fit resampleUneven freq how pred rlz).map fun pq =>
    Perf.indicators (if excludeZeros then (concat pq.1 pq.2).filter Perf.keep else concat pq.1 pq.2)

end Verif.Fit
