import Verif.Model.ModelPred
import Mathlib.Data.List.Basic

/-!
# Starting point of the long-term optimisation

Transcription of `ModelPredCHP._preopt_x0` (`/repo/multisim/parts/controllers.py:2161-2199`).  The two constraint functions are those
of `Model/ModelPred.lean`.  `np.argsort` is a parameter: `rank mask x k` is the place of entry `k` of the plan `x` among the entries selected by
`mask` in ascending order; which of equal entries comes first is not fixed by numpy.
-/

namespace Verif.Preopt

open Verif.ModelPred (beforeEmpty beforeFull)

variable {K : Type*} [Field K] [LinearOrder K]

/-- What the constraint functions read from the controller. -/
structure Env (K : Type*) where
  /-- `tes_soc_min` -/
  socMin : K
  /-- `tes_soc_max` -/
  socMax : K
  /-- `_precalc_pth_oe_uf` -/
  q : K
  dmd : List K
  n : ℕ

/-- `tes_cap_before_empty(x)[k]`. -/
def empty (e : Env K) (x : List K) (k : ℕ) : K := beforeEmpty e.socMin e.q e.dmd e.n x k

/-- `tes_cap_before_full(x)[k]`. -/
def full (e : Env K) (x : List K) (k : ℕ) : K := beforeFull e.socMax e.q e.dmd e.n x k

/-- `np.any(tes_cap_before_empty(x) < 0)`. -/
def anyEmpty (e : Env K) (x : List K) : Bool := (List.range x.length).any fun k => decide (empty e x k < 0)

/-- `np.any(tes_cap_before_full(x) < 0)`. -/
def anyFull (e : Env K) (x : List K) : Bool := (List.range x.length).any fun k => decide (full e x k < 0)

/-- Lines 2179-2184: raise the modulation where the storage is nearly empty; cut all entries at 1. -/
def raise (e : Env K) (x : List K) : List K :=
  x.mapIdx fun k v =>
    let u := if empty e x k < e.socMin * 0.1 then (if v * 1.05 < 0.5 then 0.5 else v * 1.05) else v
    if 1 < u then 1 else u

/-- `np.linspace(-0.2, -0.01, m)[j]`, line 2190. -/
def minus (m j : ℕ) : K := if m ≤ 1 then -0.2 else -0.2 + j * (0.19 / (m - 1))

/-- Lines 2188-2193: lower the modulation of the selected entries, the smallest most; `mask` is `cons_max_vltd`. -/
def lower (rank : (ℕ → Bool) → List K → ℕ → ℕ) (mask : ℕ → Bool) (x : List K) : List K :=
  x.mapIdx fun k v =>
    if mask k then
      let u := v + minus ((List.range x.length).countP mask) (rank mask x k)
      if u < 0.5 then 0 else u
    else v

/-- One pass of the loop, lines 2174-2193. -/
def pass (e : Env K) (rank : (ℕ → Bool) → List K → ℕ → ℕ) (mask : ℕ → Bool) (x : List K) : List K :=
  let y := if anyEmpty e x then raise e x else x
  if anyFull e y then lower rank mask y else y

/-- The loop, lines 2171-2199, with `n` passes left before the limit of 100. -/
def loop (e : Env K) (rank : (ℕ → Bool) → List K → ℕ → ℕ) (mask : ℕ → Bool) (x0 : List K) : ℕ → List K → List K
  | 0, x => if anyFull e x || anyEmpty e x then x0 else x
  | n + 1, x => if anyFull e x || anyEmpty e x then loop e rank mask x0 n (pass e rank mask x) else x

/-- `_preopt_x0`: the mask of violations of the upper constraint is computed once, line 2166. -/
def preopt (e : Env K) (rank : (ℕ → Bool) → List K → ℕ → ℕ) (x0 : List K) : List K :=
  loop e rank (fun k => decide (full e x0 k < 0)) x0 100 x0

end Verif.Preopt
