import Mathlib.Algebra.Order.Field.Basic
import Mathlib.Algebra.BigOperators.Group.List.Basic

/-!
# Resampling

`resample(freq).mean().interpolate()`, which the code applies to the results stored on disk
(`/repo/multisim/simenv.py:5482-5492`, `5519-5527`; default of `set_disksaving` with one second), to the columns of
meters (`/repo/multisim/_utility/meters.py:340-345`), to the profiles of the predictive controller
(`/repo/multisim/parts/controllers.py:1535-1539`) and to uneven time series
(`/repo/multisim/utility_functions.py:443-444`).

The pandas functions are transcribed from their documentation: intervals are closed on the left and labelled with
their left end; they are counted from the midnight before the first stamp (`origin='start_day'`); the grid reaches
from the interval of the first to the interval of the last stamp; an interval without stamps is NaN; `interpolate`
fills NaN linearly between the neighbours (on the even grid `method='time'` gives the same) and goes on with the
last value after them.  Times are whole nanoseconds since that midnight.
-/

namespace Verif.Resample

variable {K : Type*} [Field K]

/-- The values in interval `j`. -/
def bin (f : ℕ) (l : List (ℕ × K)) (j : ℕ) : List K := (l.filter fun p => p.1 / f = j).map Prod.snd

/-- `mean()` of an interval; `none` is NaN. -/
def mean (xs : List K) : Option K := if xs = [] then none else some (xs.sum / xs.length)

/-- Interval of the first stamp. -/
def first (f : ℕ) (l : List (ℕ × K)) : ℕ := ((l.head?.map Prod.fst).getD 0) / f

/-- Interval of the last stamp. -/
def last (f : ℕ) (l : List (ℕ × K)) : ℕ := ((l.getLast?.map Prod.fst).getD 0) / f

/-- `resample(f).mean()` of a series sorted by time. -/
def means (f : ℕ) (l : List (ℕ × K)) : List (Option K) :=
  (List.range (last f l + 1 - first f l)).map fun i => mean (bin f l (first f l + i))

/-- Value at position `i`; `none` is NaN. -/
def at? (xs : List (Option K)) (i : ℕ) : Option K := xs.getD i none

/-- The last position before `i` with a value. -/
def prev (xs : List (Option K)) : ℕ → Option (ℕ × K)
  | 0 => none
  | i + 1 => (at? xs i).elim (prev xs i) fun v => some (i, v)

/-- The first of the `m` positions from `i` on with a value. -/
def next (xs : List (Option K)) (i : ℕ) : ℕ → Option (ℕ × K)
  | 0 => none
  | m + 1 => (at? xs i).elim (next xs (i + 1) m) fun v => some (i, v)

/-- Straight line through two points. -/
def line (a b : ℕ × K) (i : ℕ) : K := a.2 + (b.2 - a.2) * ((i : K) - a.1) / ((b.1 : K) - a.1)

/-- A NaN at position `i` is filled between the neighbours, or with the last value. -/
def fill (i : ℕ) : Option (ℕ × K) → Option (ℕ × K) → Option K
  | some a, some b => some (line a b i)
  | some a, none => some a.2
  | none, _ => none

/-- `interpolate()`: the value at position `i`. -/
def interp (xs : List (Option K)) (i : ℕ) : Option K :=
  (at? xs i).elim (fill i (prev xs i) (next xs (i + 1) (xs.length - (i + 1)))) some

/-- `resample(f).mean().interpolate()`. -/
def resample (f : ℕ) (l : List (ℕ × K)) : List (Option K) :=
  (List.range (means f l).length).map (interp (means f l))

end Verif.Resample
