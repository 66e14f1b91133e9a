import Verif.Model.Stats
import Verif.Model.Outliers
import Mathlib.Algebra.Order.Floor.Semiring

/-!
# Normalised errors

Transcription of `cv_rmse` and `normalized_err` (`/repo/multisim/_utility/stat_error_measures.py:271-344`) for one column
of at least one value.  A division by zero (NaN or infinity) is `none`.
-/

namespace Verif.NormErr

open Stats Outliers

/-- `err_method`. -/
inductive Err where
  | mse | rmse | msd | mae

/-- `norm`. -/
inductive Norm where
  | iqr | range | mean | median

/-- `err_fun`, lines 322-330. -/
noncomputable def Err.eval {n : ℕ} (y yh : Fin n → ℝ) : Err → ℝ
  | .mse => Stats.mse y yh
  | .rmse => Stats.rmse y yh
  | .msd => Stats.msd y yh
  | .mae => Stats.mae y yh

/-- The value at a possibly broken position `h` of the ordered values, linearly interpolated. -/
noncomputable def atPos {n : ℕ} (y : Fin n → ℝ) (h : ℝ) : ℝ :=
  (sorted y).getD ⌊h⌋₊ 0 +
    (h - ⌊h⌋₊) * ((sorted y).getD (min (⌊h⌋₊ + 1) (n - 1)) 0 - (sorted y).getD ⌊h⌋₊ 0)

/-- `np.percentile(y, 100 * p)`: position `p * (n - 1)`. -/
noncomputable def quantile {n : ℕ} (y : Fin n → ℝ) (p : ℝ) : ℝ := atPos y (p * (n - 1 : ℕ))

/-- The divisors, lines 332-344. -/
noncomputable def Norm.eval {n : ℕ} (y : Fin n → ℝ) : Norm → ℝ
  | .mean => Stats.mean y
  | .median => Outliers.median y
  | .iqr => quantile y (3 / 4) - quantile y (1 / 4)
  | .range => (sorted y).getD (n - 1) 0 - (sorted y).getD 0 0

open Classical in
/-- `normalized_err`; `cv_rmse` is the combination of `rmse` and `mean`. -/
noncomputable def normalized {n : ℕ} (e : Err) (d : Norm) (y yh : Fin n → ℝ) : Option ℝ :=
  if d.eval y = 0 then none else some (e.eval y yh / d.eval y)

end Verif.NormErr
