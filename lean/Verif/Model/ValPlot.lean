import Verif.Model.NormErr
import Mathlib.Data.Finset.Max
import Mathlib.Order.Interval.Finset.Fin

/-!
# Validation plots

Transcription of the numbers in `prediction_realization_scatter`, `prediction_realization_2d_kde` and `annotate_errors`
(`/repo/multisim/_utility/plotting.py:187-329, 332-522, 689-761`) for one column of measured and one of predicted values.  The rounding of the
numbers for the text, colours and layout are left out, also the density of the second plot.
-/

namespace Verif.ValPlot

/-- The names in `errors`. -/
inductive Measure
  | r2 | mse | cv | nmbe
  deriving DecidableEq

/-- The value computed for a name, `plotting.py:729-752`; `none` for a division by zero (NaN or infinity). -/
noncomputable def compute {n : ℕ} (y yh : Fin n → ℝ) : Measure → Option ℝ
  | .r2 => Stats.rSquared y yh
  | .mse => some (Stats.mse y yh)
  | .cv => NormErr.normalized .rmse .mean y yh
  | .nmbe => NormErr.normalized .msd .mean y yh

/-- `annotate_errors`, `plotting.py:727-752`: the lines of the text, in a fixed order; `given` is `err_vals`. -/
noncomputable def annotate {n : ℕ} (errors : List Measure) (given : Measure → Option ℝ) (y yh : Fin n → ℝ) : List (Measure × Option ℝ) :=
  ([.r2, .mse, .cv, .nmbe].filter (· ∈ errors)).map fun m =>
    (m, match given m with
      | some v => some v
      | none => compute y yh m)

/-- The scatter plot. -/
structure Scatter (n : ℕ) where
  /-- the text -/
  text : List (Measure × Option ℝ)
  /-- limits of both axes -/
  lo : ℝ
  hi : ℝ
  /-- the points, `y` to the right -/
  points : List (ℝ × ℝ)

/-- `prediction_realization_scatter`, `plotting.py:273-318`, without `ax_scaling_tight`, for at least one value; `every` is `plot_every`. -/
noncomputable def scatter {n : ℕ} (errors : List Measure) (given : Measure → Option ℝ) (every : ℕ) (y yh : Fin (n + 1) → ℝ) : Scatter (n + 1) :=
  let prMin := min (Finset.univ.inf' ⟨0, Finset.mem_univ _⟩ y) (Finset.univ.inf' ⟨0, Finset.mem_univ _⟩ yh)
  let prMax := max (Finset.univ.sup' ⟨0, Finset.mem_univ _⟩ y) (Finset.univ.sup' ⟨0, Finset.mem_univ _⟩ yh)
  let rng := prMax - prMin
  { text := annotate errors given y yh
    lo := prMin - 0.05 * rng
    hi := prMax + 0.05 * rng
    points := ((List.finRange (n + 1)).filter fun i => i.val % every = 0).map fun i => (y i, yh i) }

/-- The text of `prediction_realization_2d_kde`, `plotting.py:520`: `annotate_errors(y=y_hat, y_hat=y)`. -/
noncomputable def kde {n : ℕ} (errors : List Measure) (y yh : Fin n → ℝ) : List (Measure × Option ℝ) := annotate errors (fun _ => none) yh y

end Verif.ValPlot
