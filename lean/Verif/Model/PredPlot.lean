import Verif.Model.ValPlot
import Verif.Model.Perf

/-!
# Prediction-realization plots of time series

Transcription of `plt_prediction_realization` (`/repo/multisim/utility_functions.py:3030-3322`) from the performance indicators on, for rows
without NaN, without the package `toolbox` and with `freq_perf=None`.  `plot_pr_scatter`, `plot_2d_kde` and `annotate_errors` there
(`3326-3559`) are copies of those in `plotting.py` (`Verif.ValPlot`), but `plot_2d_kde` does not swap its arguments.  Colours, axes and the
density are left out, also the rounding of the text.
-/

namespace Verif.PredPlot

/-- The keys of `errors`: those of the default (lines 3042-3051) and `RMSE` (line 3263). -/
inductive Name
  | r2 | mse | cvrmse | nrmse | nrmseIqr | nmbe | mbe | mae | rmse
  deriving DecidableEq

/-- `plot_type`, line 3120. -/
inductive Kind
  | scatter | hexbin | kde
  deriving DecidableEq

/-- A row: index, predicted and measured value. -/
abbrev Row := ℤ × ℝ × ℝ

/-- The labels of the Series of `ts_performance_indicators`, lines 3012-3023, with their values. -/
noncomputable def series (rows : List Row) : List (String × Option ℝ) :=
  let i := Perf.indicators (rows.map fun e => (some e.2.1, some e.2.2))
  [("n_samples", some (i.n : ℝ)), ("MBE", i.mbe), ("MAE", i.mae), ("NMBE", i.nmbe), ("MSE", i.mse), ("RMSE", i.rmse),
    ("CV(RMSE)", i.cvRmse), ("NRMSE", i.nrmse), ("NRMSE_IQR", i.nrmseIqr), ("R2", i.r2)]

/-- `k.replace('CVRMSE', 'CV(RMSE)')`, lines 3171-3173. -/
def Name.label : Name → String
  | .r2 => "R2"
  | .mse => "MSE"
  | .cvrmse => "CV(RMSE)"
  | .nrmse => "NRMSE"
  | .nrmseIqr => "NRMSE_IQR"
  | .nmbe => "NMBE"
  | .mbe => "MBE"
  | .mae => "MAE"
  | .rmse => "RMSE"

/-- The label under which the hexbin branch looks up a measure, lines 3242-3299; the mean squared error is not handled there. -/
def Name.hexKey : Name → Option String
  | .r2 => some "r_squared"
  | .mse => none
  | .cvrmse => some "cv_rmse"
  | .nrmse => some "nrmse"
  | .nrmseIqr => some "nrmse_iqr"
  | .nmbe => some "nmbe"
  | .mbe => some "mean_bias_err"
  | .mae => some "mean_abs_err"
  | .rmse => some "rmse"

/-- The measures `annotate_errors` knows, lines 3528-3552. -/
def Name.measure : Name → Option ValPlot.Measure
  | .r2 => some .r2
  | .mse => some .mse
  | .cvrmse => some .cv
  | .nmbe => some .nmbe
  | _ => none

/-- Names of the measures. -/
def ofMeasure : ValPlot.Measure → Name
  | .r2 => .r2
  | .mse => .mse
  | .cv => .cvrmse
  | .nmbe => .nmbe

/-- `perf_ind.loc[k]`: `none` for a `KeyError`. -/
noncomputable def loc (rows : List Row) (k : String) : Option (Option ℝ) := (series rows).lookup k

/-- `{k: perf_ind.loc[k] for k in _errs}`, line 3211; `none` for a `KeyError`. -/
noncomputable def errVals (rows : List Row) : List Name → Option (List (Name × Option ℝ))
  | [] => some []
  | n :: ns => (loc rows n.label).bind fun v => (errVals rows ns).map fun r => (n, v) :: r

/-- The lines of the hexbin text in their order, lines 3242-3299; `none` for a `KeyError`. -/
noncomputable def hexText (rows : List Row) (errors : Name → Bool) : List Name → Option (List (Name × Option ℝ))
  | [] => some []
  | n :: ns =>
    match n.hexKey with
    | none => hexText rows errors ns
    | some k =>
      if errors n then (loc rows k).bind fun v => (hexText rows errors ns).map fun r => (n, v) :: r
      else hexText rows errors ns

/-- All names; the order of the hexbin branch. -/
def names : List Name := [.mbe, .mae, .nmbe, .rmse, .cvrmse, .nrmse, .nrmseIqr, .r2, .mse]

/-- The text of the plot, lines 3171-3299; `none` for a `KeyError`. -/
noncomputable def text (kind : Kind) (errors : Name → Bool) (rows : List Row) : Option (List (Name × Option ℝ)) :=
  match kind with
  | .hexbin => hexText rows errors names
  | .kde =>
    some ((ValPlot.annotate ((names.filter errors).filterMap Name.measure) (fun _ => none) (fun i : Fin rows.length => (rows.get i).2.2)
      fun i => (rows.get i).2.1).map fun p => (ofMeasure p.1, p.2))
  | .scatter =>
    (errVals rows (names.filter errors)).map fun vals =>
      (names.filter fun n => n.measure.isSome && errors n).map fun n => (n, (vals.lookup n).join)

/-- `stats.linregress(x, y)`: slope and intercept; `none` if all `x` are equal. -/
noncomputable def linregress {n : ℕ} (x y : Fin n → ℝ) : Option (ℝ × ℝ) :=
  haveI := Classical.dec
  if Stats.ssTot x = 0 then none else
    let s := (∑ i, (x i - Stats.mean x) * (y i - Stats.mean y)) / Stats.ssTot x
    some (s, Stats.mean y - s * Stats.mean x)

/-- The ends of the line drawn as `lin. regression`, lines 3275-3286; `lo` and `hi` are `data_min` and `data_max`. -/
noncomputable def line {n : ℕ} (x y : Fin n → ℝ) (lo hi : ℝ) : Option ((ℝ × ℝ) × (ℝ × ℝ)) :=
  (linregress x y).map fun si => ((lo, lo + si.2), (hi, si.2 + si.1 * hi))

end Verif.PredPlot
