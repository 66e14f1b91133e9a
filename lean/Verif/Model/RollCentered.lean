import Verif.Model.Outliers
import Mathlib.Algebra.Order.Floor.Ring
import Mathlib.Order.Interval.Finset.Nat
import Mathlib.Data.Finset.Sort
import Mathlib.Data.Rat.Floor

/-!
# Rolling windows centred in time

Transcription of `rolling_centered` (`/repo/multisim/utility_functions.py:983-1194`) for one column of `n` values without
NaN at evenly spaced times.  `f` is the length of the window in units of the spacing (`freq_ratio`); `closed`, `win_type`
and `on` have their defaults.  The checks of types are left out.
-/

namespace Verif.RollCentered

variable {K : Type*} [Field K] [LinearOrder K]

/-- `method`. -/
inductive Method where
  | mean | max | min | median | sum

/-- What pandas computes from the values in a window; NaN for no values, but for the sum. -/
def Method.eval (m : Method) (y : ℕ → K) (w : Finset ℕ) : Option K :=
  match m with
  | .mean => if w.Nonempty then some ((∑ j ∈ w, y j) / (w.card : K)) else none
  | .sum => some (∑ j ∈ w, y j)
  | .max => if h : w.Nonempty then some (w.sup' h y) else none
  | .min => if h : w.Nonempty then some (w.inf' h y) else none
  | .median => if w.Nonempty then some (Outliers.median fun j : Fin w.card => y (w.orderEmbOfFin rfl j)) else none

/-- Window of `w` values with `center=True`: it ends `(w - 1) // 2` values after the value it belongs to. -/
def windowInt (w n i : ℕ) : Finset ℕ :=
  (Finset.range n).filter fun j => i + (w - 1) / 2 < j + w ∧ j ≤ i + (w - 1) / 2

/-- Window of a time with `closed='left'`: values at times from `f` before the value up to it, without it. -/
def windowTime (f : ℚ) (n i : ℕ) : Finset ℕ := (Finset.range n).filter fun j => (i : ℚ) - f ≤ j ∧ j < i

/-- `min_periods`. -/
def enough (minPeriods : ℕ) (w : Finset ℕ) : Prop := minPeriods ≤ w.card

instance (p : ℕ) (w : Finset ℕ) : Decidable (enough p w) := inferInstanceAs (Decidable (_ ≤ _))

/-- `rolling_centered`, lines 1041-1194: if the window is a multiple of the spacing (line 1058) a window of a number of
values, otherwise a window of a time, shifted by `shift_idc`, line 1043.  Without `min_periods` pandas takes the number
of values, or one for windows of a time. -/
def rolling (m : Method) (f : ℚ) (minPeriods : Option ℕ) (n : ℕ) (y : ℕ → K) (i : ℕ) : Option K :=
  if f - ⌊f⌋₊ < 1 / 10 ^ 16 then
    let w := windowInt ⌊f⌋₊ n i
    if enough (minPeriods.getD ⌊f⌋₊) w then m.eval y w else none
  else if i + ⌊f / 2⌋₊ < n then
    let w := windowTime f n (i + ⌊f / 2⌋₊)
    if enough (minPeriods.getD 1) w then m.eval y w else none
  else none

end Verif.RollCentered
