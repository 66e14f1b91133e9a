import Verif.Model.Outliers

/-!
# Removal of outliers by a rolling median

Transcription of `remove_outliers_roll` (`/repo/multisim/utility_functions.py:909-976`) for one column of `n` values
without NaN.  Only the decision which values are outliers is modelled, and the replacement by NaN (`none`).
-/

namespace Verif.Outliers

/-- `data.rolling(window=w, center=True).median()`, `utility_functions.py:930-932`: the window ends `(w - 1) // 2`
values after the value it belongs to; NaN unless the whole window lies within the series. -/
noncomputable def rollMed (w : ℕ) (n : ℕ) (y : ℕ → ℝ) (i : ℕ) : Option ℝ :=
  let r := i + (w - 1) / 2
  if w ≤ r + 1 ∧ r < n then some (median fun j : Fin w => y (r + 1 - w + j)) else none

/-- `fillna(method='bfill')`: the next value that is not NaN. -/
def bfill {α : Type*} (n : ℕ) (f : ℕ → Option α) (i : ℕ) : Option α := (List.range' i (n - i)).findSome? f

/-- `fillna(method='ffill')`: the last value that is not NaN. -/
def ffill {α : Type*} (f : ℕ → Option α) (i : ℕ) : Option α := (List.range (i + 1)).reverse.findSome? f

/-- `rolling_median`, `utility_functions.py:929-934`. -/
noncomputable def localMed (w : ℕ) (n : ℕ) (y : ℕ → ℝ) : ℕ → Option ℝ := ffill (bfill n (rollMed w n y))

/-- `difference`, `utility_functions.py:936`.  The medians are NaN all or none; where they are NaN there is no
outlier, so the value used then does not matter. -/
noncomputable def diffMed (w : ℕ) {n : ℕ} (y : ℕ → ℝ) (i : Fin n) : ℝ :=
  match localMed w n y i with
  | some m => |y i - m|
  | none => 0

/-- `outliers`, `utility_functions.py:937-938`; comparisons with NaN are false. -/
def outlierRoll (w : ℕ) (k : ℝ) (n : ℕ) (y : ℕ → ℝ) (i : Fin n) : Prop :=
  match localMed w n y i, std 1 (diffMed w (n := n) y) with
  | some m, some s => s * k < |y i - m|
  | _, _ => False

open Classical in
/-- `remove_outliers_roll` with `fill_value='nan'`, `utility_functions.py:959-961`. -/
noncomputable def removeRoll (w : ℕ) (k : ℝ) (n : ℕ) (y : ℕ → ℝ) (i : Fin n) : Option ℝ :=
  if outlierRoll w k n y i then none else some (y i)

end Verif.Outliers
