import Verif.Model.FlowAlpha

/-!
# Fitting the correction of the Reynolds number

Transcription of `find_Reynolds_correction` (`/repo/multisim/parts/heatexchanger.py:943-1021`) and `find_reynolds_correction`
(`/repo/multisim/parts/hex_num.py:1106-1189`), which differ only in the lengths they pass on (`_cell_dist`: one length for plate heat
exchangers, `heatexchanger.py:453`; one per cell for numeric ones, `hex_num.py:555-559`).

The minimiser (`scipy.optimize.minimize`, started at 1, without bounds) is not modelled: what is modelled is the function which it
minimises.
-/

namespace Verif.ReCorr

open Verif.FlowAlpha

/-- An operating point: temperatures, power and the coefficient to be met. -/
structure Point where
  tIn : ℝ
  tOut : ℝ
  power : ℝ
  target : ℝ

/-- `T_mean`, line 974. -/
noncomputable def Point.mean (p : Point) : ℝ := (p.tIn + p.tOut) / 2

/-- `dm`, line 985. -/
noncomputable def Point.flow (p : Point) : ℝ := |p.power / ((p.tIn - p.tOut) * Water.cp p.mean)|

/-- Coefficient at an operating point, lines 997-1010, for one side with `ch` channels. -/
noncomputable def alphaAt (A d x ch : ℝ) (p : Point) (corr : ℝ) : Option ℝ :=
  phexAlpha (p.flow / ch) p.mean p.mean A d x corr

/-- `alpha_wrapper`, lines 992-1012; `none` is NaN. -/
noncomputable def deviation (A d x ch : ℝ) : List Point → ℝ → Option ℝ
  | [], _ => some 0
  | p :: ps, corr => (alphaAt A d x ch p corr).bind fun a => (deviation A d x ch ps corr).map fun r => |a / p.target - 1| + r

/-- Number of entries after broadcasting `a` against `b` entries; `none` is a `ValueError`. -/
def broadcast (a b : ℕ) : Option ℕ := if a = b then some a else if a = 1 then some b else if b = 1 then some a else none

/-- `Nu[mask] = …` with `k` masked operating points, `n` lengths and `t` mean temperatures (`Pr_f` is not masked),
`precomp_funs.py:4579-4597`. -/
def assignable (k n t : ℕ) : Bool :=
  match (broadcast k n).bind (broadcast t) with
  | some s => s == k || s == 1
  | none => false

/-- Whether the Nusselt numbers of `lam` laminar and `turb` turbulent points can be computed with `n` lengths and `t` temperatures: both
assignments are made, whether there are such points or not. -/
def computable (lam turb n t : ℕ) : Bool := assignable lam n t && assignable turb n t

end Verif.ReCorr
