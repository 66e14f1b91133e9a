import Verif.Model.TimeLoop
import Mathlib.Algebra.Order.Floor.Semiring
import Mathlib.Algebra.Order.Field.Basic

/-!
# Time series as boundary conditions

Transcription of `SimEnv._update_dyn_BC` (`/repo/multisim/simenv.py:2717-2763`), of the length check in
`assign_boundary_cond` (`1449-1465`) and of `_initialize_dynamic_BC` (`1560-1566`).

An index beyond the end of the series is an `IndexError`: `none`.  Indices are never negative.  The
timestamps are checked by pandas to be evenly spaced; only their distance `Δ` enters.
-/

namespace Verif.DynBC

variable {K : Type*} [Field K] [LinearOrder K] [FloorSemiring K]

/-- Python's `round`: to the nearest integer, ties to the even one. -/
def pyRound (x : K) : ℕ :=
  if x - ⌊x⌋₊ < 1 / 2 then ⌊x⌋₊
  else if 1 / 2 < x - ⌊x⌋₊ then ⌊x⌋₊ + 1
  else if ⌊x⌋₊ % 2 = 0 then ⌊x⌋₊ else ⌊x⌋₊ + 1

/-- `array.mean()`. -/
def mean (l : List K) : K := l.sum / l.length

/-- `array[a:b]`. -/
def slice (v : List K) (a b : ℕ) : List K := (v.take b).drop a

/-- New value of one boundary condition with series `v`, sampling interval `Δ`, index `last` after the
previous step and step length `h`, `simenv.py:2728-2761`. -/
def value (v : List K) (Δ last h : K) : Option K :=
  let cells := h / Δ
  let new := last + cells
  let first := ⌊new⌋₊
  let lev := new - first
  match v[first]?, v[first + 1]? with
  | some a, some b =>
    let levMean := a * (1 - lev) + b * lev
    some (if cells ≤ 1 then levMean
      else (mean (slice v (pyRound last) (first + 1)) * (cells - lev) + levMean * lev) / cells)
  | _, _ => none

/-- The loop over time: values written after each step, or the error; `simenv.py:2763`, `5077`. -/
def updates (v : List K) (Δ : K) : K → List K → Option (List K)
  | _, [] => some []
  | last, h :: hs =>
    match value v Δ last h with
    | none => none
    | some x => (updates v Δ (last + h / Δ) hs).map (x :: ·)

/-- Acceptance of the first series, `simenv.py:1462-1465`. -/
def accepts (v : List K) (Δ tf : K) : Prop := tf < Δ * v.length

end Verif.DynBC
