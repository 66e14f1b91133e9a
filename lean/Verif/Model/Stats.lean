import Mathlib.Analysis.SpecialFunctions.Pow.Real
import Mathlib.Algebra.BigOperators.Group.Finset.Basic

/-!
# Error measures and the scaled truncation error

Transcription of `/repo/multisim/_utility/stat_error_measures.py` (without rolling windows) and of the error
estimate in `_heun_corrector_adapt` (`/repo/multisim/precomp_funs.py:3733-3782`).

A column of `n` values is a function on `Fin n`, several columns a function of the column number too.
-/

namespace Verif.Stats

open Finset

/-- `.mean(axis=0)` of one column -/
noncomputable def mean {n : ℕ} (y : Fin n → ℝ) : ℝ := (∑ i, y i) / n

/-- `mean_squared_err` (`stat_error_measures.py:99-146`), one column -/
noncomputable def mse {n : ℕ} (y yh : Fin n → ℝ) : ℝ := mean fun i => (y i - yh i) ^ 2

/-- `mean_abs_err` (`stat_error_measures.py:149-198`), one column -/
noncomputable def mae {n : ℕ} (y yh : Fin n → ℝ) : ℝ := mean fun i => |y i - yh i|

/-- `mean_signed_deviation` (`stat_error_measures.py:201-250`), one column -/
noncomputable def msd {n : ℕ} (y yh : Fin n → ℝ) : ℝ := mean fun i => yh i - y i

/-- `rmse` (`stat_error_measures.py:253-282`), one column -/
noncomputable def rmse {n : ℕ} (y yh : Fin n → ℝ) : ℝ := Real.sqrt (mse y yh)

/-- Total sum of squares of one column. -/
noncomputable def ssTot {n : ℕ} (y : Fin n → ℝ) : ℝ := ∑ i, (y i - mean y) ^ 2

/-- `r_squared` (`stat_error_measures.py:12-46`) for one column; dividing by zero (a constant `y`) is `none`
(numpy: `nan` or `-inf`). -/
noncomputable def rSquared {n : ℕ} (y yh : Fin n → ℝ) : Option ℝ :=
  if ssTot y = 0 then none else some (1 - (∑ i, (y i - yh i) ^ 2) / ssTot y)

/-- `r_squared` for one observed column and several predicted ones: `y[:, None]` in line 37. -/
noncomputable def rSquaredPredictions {n m : ℕ} (y : Fin n → ℝ) (yh : Fin m → Fin n → ℝ) : Fin m → Option ℝ :=
  fun c => rSquared y (yh c)

/-- `r_squared` for numpy arrays with several observed columns: the sum in line 45 has no `axis`, it runs over
all columns. -/
noncomputable def rSquaredColumns {n m : ℕ} (y yh : Fin m → Fin n → ℝ) : Fin m → Option ℝ := fun c =>
  if ∑ c', ssTot (y c') = 0 then none
  else some (1 - (∑ i, (y c i - yh c i) ^ 2) / ∑ c', ssTot (y c'))

/-- `r_squared_adj` (`stat_error_measures.py:48-97`) called with `r_sqrd` and `n` (otherwise it stops in a
`breakpoint()`); `n = p + 1` divides by zero. -/
noncomputable def rSquaredAdj (p n r : ℝ) : Option ℝ :=
  if n - p - 1 = 0 then none
  else some ((if r ≤ 1 then 1 else 100) - ((if r ≤ 1 then 1 else 100) - r) * (n - 1) / (n - p - 1))

/-! ## Scaled truncation error -/

/-- Data of one cell in `_heun_corrector_adapt`. -/
structure Cell where
  /-- `res[stepnum - 1]` -/
  prev : ℝ
  /-- `res[stepnum]`, the corrected value -/
  res : ℝ
  /-- `T`, the predicted value -/
  pred : ℝ
  /-- `trnc_err_cell_weight` -/
  weight : ℝ

/-- The tolerance which scales the error of a cell (line 3768). -/
noncomputable def tolerance (rtol atol : ℝ) (c : Cell) : ℝ := max c.prev c.res * rtol + atol

/-- Summand of a cell in `trnc_err` (lines 3763-3771); a zero tolerance gives `inf` or `nan`, `none` here. -/
noncomputable def cellErr (rtol atol : ℝ) (c : Cell) : Option ℝ :=
  if tolerance rtol atol c = 0 then none
  else some (((c.res - c.pred) * c.weight / tolerance rtol atol c) ^ 2)

/-- `trnc_err` of a part (lines 3763-3771). -/
noncomputable def truncErr (rtol atol : ℝ) : List Cell → Option ℝ
  | [] => some 0
  | c :: cs => do
    let e ← cellErr rtol atol c
    let es ← truncErr rtol atol cs
    some (e + es)

/-- `new_trnc_err` of a part (line 3776). -/
noncomputable def partErr (rtol atol : ℝ) (cs : List Cell) : Option ℝ :=
  (truncErr rtol atol cs).map fun e => (e / cs.length) ^ (0.5 : ℝ)

/-- `err_rms` of a step, `simenv.py:4028-4049` (`err += trnc_err` over all explicit parts, `precomp_funs.py:3773`) and
`4144`.  A part is given by its number of cells `num_gp` (`simenv.py:884`) and its cells; a numeric heat exchanger has
three cells per `num_gp`.  A sum which is not a number is `none`.  Only for plants with a cell in an explicit part:
without one line 4144 raises `ZeroDivisionError`. -/
noncomputable def plantErr (rtol atol : ℝ) (parts : List (ℕ × List Cell)) : Option ℝ :=
  (truncErr rtol atol (parts.flatMap Prod.snd)).map fun e => (e / (parts.map Prod.fst).sum) ^ (0.5 : ℝ)

end Verif.Stats
