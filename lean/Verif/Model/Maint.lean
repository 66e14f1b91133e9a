import Mathlib.Algebra.Order.Field.Basic
import Mathlib.Algebra.BigOperators.Group.Finset.Basic
import Mathlib.Analysis.SpecialFunctions.Pow.Real

/-!
# Maintenance cost of a CHP plant

Transcription of `ModelPredCHP.infer_instandh` (`/repo/multisim/parts/controllers.py:2885-2915`), whose result is used for
`instandh_cost='infer'` (lines 1195-1196), and of `_instandh_chp_nonflat` (`2703-2759`) for a number and the method `ASUE`,
the only one in use.  `scipy.optimize.curve_fit` is modelled by what it computes for a model that is linear in its
parameters: coefficients with the least sum of squares (`IsFit`).
-/

namespace Verif.Maint

variable {K : Type*} [Field K] [LinearOrder K]

/-- `np.interp` within the table: the line through the two neighbours, the last value after the end. -/
def seg : List (K × K) → K → K
  | [], _ => 0
  | [p], _ => p.2
  | p :: q :: r, x => if x < q.1 then p.2 + (q.2 - p.2) / (q.1 - p.1) * (x - p.1) else seg (q :: r) x

/-- `np.interp`: the first value before the begin of the table. -/
def interp : List (K × K) → K → K
  | [], _ => 0
  | p :: r, x => if x < p.1 then p.2 else seg (p :: r) x

/-- Electrical power in kW and cost in Euro per hour, lines 2892-2894. -/
def table : List (K × K) :=
  [(6, 42 / 100), (9, 49 / 100), (15, 57 / 100), (20, 72 / 100), (34, 114 / 100), (50, 165 / 100), (60, 187 / 100),
    (70, 2), (80, 208 / 100)]

/-- `pel_conti = np.linspace(4.0, 80.0, 100)`, line 2889. -/
def pel (i : ℕ) : K := 4 + (80 - 4) * i / 99

/-- `cost_conti`, lines 2890-2898, in Cent per hour. -/
def cost (discount : K) (i : ℕ) : K := interp (table.map fun e => (e.1, e.2 * discount * 100)) (pel i)

/-- The parameters of `cubic_cost`. -/
structure Cubic (K : Type*) where
  a : K
  b : K
  c : K
  d : K

/-- `cubic_cost`, lines 2901-2902. -/
def Cubic.eval (p : Cubic K) (x : K) : K := p.a * x ^ 3 + p.b * x ^ 2 + p.c * x + p.d

/-- The sum of squares minimised by `curve_fit`, lines 2905-2910. -/
def sumSq (discount : K) (p : Cubic K) : K := ∑ i ∈ Finset.range 100, (p.eval (pel i) - cost discount i) ^ 2

/-- A result of `curve_fit`. -/
def IsFit (discount : K) (p : Cubic K) : Prop := ∀ q, sumSq discount p ≤ sumSq discount q

/-- `infer_instandh` with the fitted parameters, lines 2913-2916; `chpPel` in W. -/
def infer (p : Cubic K) (vat : Bool) (chpPel : K) : K :=
  if vat then p.eval (chpPel / 1000) * (119 / 100) else p.eval (chpPel / 1000)

open Classical in
/-- `_instandh_chp_nonflat` with the method `ASUE`, lines 2744-2754, in Cent per kWh for a power in kW; `none` is the
`ValueError`. -/
noncomputable def nonflat (kW : ℝ) : Option ℝ :=
  if 10 ≤ kW ∧ kW ≤ 100 then some (6.6626 * kW ^ (-0.25 : ℝ))
  else if 1 ≤ kW ∧ kW < 10 then some (3.2619 * kW ^ (0.1866 : ℝ))
  else none

end Verif.Maint
