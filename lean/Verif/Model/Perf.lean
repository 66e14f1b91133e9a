import Verif.Model.NormErr

/-!
# Performance indicators of a prediction

Transcription of `ts_performance_indicators` (`/repo/multisim/utility_functions.py:2925-3026`) with `fit_time_series`
(`2834-2922`) for two series which need no resampling (both evenly spaced with the same frequency, or an index that is not
a time).  Index values are integers, each at most once per series.  NaN is `none`; a division by zero is `none` too.
`exclude_values` and `exclude_range` raise `NotImplementedError` and are not modelled.
-/

namespace Verif.Perf

/-- A pandas Series: index and value. -/
abbrev Series := List (ℤ × ℝ)

/-- The value of an index. -/
def look (s : Series) (i : ℤ) : Option ℝ := (s.find? fun e => e.1 = i).map Prod.snd

/-- `pd.concat((pred, rlz), axis=1)`, line 2922: equal indices are kept, different ones are joined to the ordered union,
with NaN where a series has no value. -/
def concat (pred rlz : Series) : List (Option ℝ × Option ℝ) :=
  if pred.map Prod.fst = rlz.map Prod.fst then List.zipWith (fun a b => (some a.2, some b.2)) pred rlz
  else (((pred.map Prod.fst ++ rlz.map Prod.fst).dedup).insertionSort (· ≤ ·)).map fun i => (look pred i, look rlz i)

open Classical in
/-- `(pred_rlz != 0).all(axis=1)`, line 2962. -/
noncomputable def keep (r : Option ℝ × Option ℝ) : Bool := decide (r.1 ≠ some 0 ∧ r.2 ≠ some 0)

/-- `residuals`, line 2981. -/
noncomputable def residual (r : Option ℝ × Option ℝ) : Option ℝ := r.1.bind fun a => r.2.map fun b => a - b

open Classical in
/-- Division. -/
noncomputable def quot (a b : ℝ) : Option ℝ := if b = 0 then none else some (a / b)

/-- The values of the returned Series, lines 2999-3024. -/
structure Indicators where
  n : ℕ
  mbe : Option ℝ
  mae : Option ℝ
  nmbe : Option ℝ
  mse : Option ℝ
  rmse : Option ℝ
  cvRmse : Option ℝ
  nrmse : Option ℝ
  nrmseIqr : Option ℝ
  r2 : Option ℝ

/-- Lines 2981-2997; sums and `describe` skip NaN, `size` does not. -/
noncomputable def indicators (rows : List (Option ℝ × Option ℝ)) : Indicators :=
  let res := rows.filterMap residual
  let rlz := (rows.filterMap Prod.snd).get
  let n : ℝ := rows.length
  let ssRes := (res.map (· ^ 2)).sum
  let ssTotal := (Outliers.std 1 rlz).map fun s => s ^ 2 * ((rows.filterMap Prod.snd).length : ℝ)
  let mbe := quot res.sum n
  let rmse := (quot ssRes n).map Real.sqrt
  { n := rows.length
    mbe := mbe
    mae := quot (res.map abs).sum n
    nmbe := mbe.bind fun m => quot m (Stats.mean rlz)
    mse := rmse.map (· ^ 2)
    rmse := rmse
    cvRmse := rmse.bind fun e => quot e (Stats.mean rlz)
    nrmse := rmse.bind fun e => quot e (NormErr.Norm.range.eval rlz)
    nrmseIqr := rmse.bind fun e => quot e |NormErr.Norm.iqr.eval rlz|
    r2 := ssTotal.bind fun t => (quot ssRes t).map (1 - ·) }

/-- `ts_performance_indicators`; `none` is the assertion on the shapes in lines 2914-2916. -/
noncomputable def perf (excludeZeros : Bool) (pred rlz : Series) : Option Indicators :=
  if pred.length = rlz.length then
    some (indicators (if excludeZeros then (concat pred rlz).filter keep else concat pred rlz))
  else none

end Verif.Perf
