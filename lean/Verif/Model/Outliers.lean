import Mathlib.Analysis.SpecialFunctions.Pow.Real
import Mathlib.Algebra.BigOperators.Group.Finset.Basic
import Mathlib.Data.List.Sort

/-!
# Removal of outliers

Transcription of `remove_outliers_std` and `remove_outliers_mad` (`/repo/multisim/utility_functions.py:867-906`,
`1205-1267`) for one column of `n` values without NaN, a function on `Fin n`.  The functions decide for every value
whether it is an outlier; then they drop it, replace it by NaN, by a given value, or by interpolation.  Only the
decision and the replacement by NaN (`none`) are modelled.
-/

namespace Verif.Outliers

open Finset

/-- `data.mean()` -/
noncomputable def mean {n : ℕ} (y : Fin n → ℝ) : ℝ := (∑ i, y i) / n

/-- `data.std()` with `ddof` lost degrees of freedom: 1 for pandas objects, 0 for numpy arrays; NaN (`none`) if there
are not more values than that. -/
noncomputable def std {n : ℕ} (ddof : ℕ) (y : Fin n → ℝ) : Option ℝ :=
  if n ≤ ddof then none else some (Real.sqrt ((∑ i, (y i - mean y) ^ 2) / ((n : ℝ) - ddof)))

/-- `np.abs(data - data.mean()) <= (stdevs * data.std())` for one value, `utility_functions.py:887, 890, 902, 905`;
comparisons with NaN are false. -/
def keepStd {n : ℕ} (ddof : ℕ) (k : ℝ) (y : Fin n → ℝ) (i : Fin n) : Prop :=
  match std ddof y with
  | none => False
  | some s => |y i - mean y| ≤ k * s

open Classical in
/-- `remove_outliers_std` with `fill_value='nan'`, `utility_functions.py:889-891`. -/
noncomputable def removeStd {n : ℕ} (ddof : ℕ) (k : ℝ) (y : Fin n → ℝ) (i : Fin n) : Option ℝ :=
  if keepStd ddof k y i then some (y i) else none

/-! ## Median -/

section Mad

variable {K : Type*} [Field K] [LinearOrder K]

/-- The values in ascending order. -/
def sorted {n : ℕ} (y : Fin n → K) : List K := (List.ofFn y).insertionSort (· ≤ ·)

/-- `data.median()`: the value in the middle, or the mean of the two values in the middle (of at least one value). -/
def median {n : ℕ} (y : Fin n → K) : K :=
  if n % 2 = 1 then (sorted y).getD (n / 2) 0
  else ((sorted y).getD (n / 2 - 1) 0 + (sorted y).getD (n / 2) 0) / 2

/-- `np.abs(data - median)` -/
def dist {n : ℕ} (y : Fin n → K) (i : Fin n) : K := |y i - median y|

/-- `outliers`, `utility_functions.py:1236-1241`; `c` is `threshold * dist_const` (2.5 times 1.4826). -/
def outlierMad {n : ℕ} (c : K) (y : Fin n → K) (i : Fin n) : Prop := c * median (dist y) < dist y i

instance {n : ℕ} (c : K) (y : Fin n → K) (i : Fin n) : Decidable (outlierMad c y i) := by
  unfold outlierMad; infer_instance

/-- `remove_outliers_mad` with `fill_value='nan'`, `utility_functions.py:1251-1256`. -/
def removeMad {n : ℕ} (c : K) (y : Fin n → K) (i : Fin n) : Option K :=
  if outlierMad c y i then none else some (y i)

end Mad

end Verif.Outliers
