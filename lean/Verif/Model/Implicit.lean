import Verif.Model.HexNum

/-!
# Implicit steps of the numeric plate heat exchanger

Transcription of `hexnum_imp_root_diff` (`/repo/multisim/precomp_funs.py:3194-3197`) and of the implicit part of a step of
the solver (`/repo/multisim/simenv.py:4003-4016`, `4051-4065`).  `hexnum_diff_impl` (`precomp_funs.py:2996-3185`) is
`hexnum_diff` without the stability check, so `HexNum.dT` is used for both.

`scipy.optimize.root` is a function that returns some array and says whether it is a solution (`Root`); the heat transfer
coefficients are a function of the temperatures.
-/

namespace Verif.HexNum

open Verif.Cells (Mat)

variable {K : Type*} [Field K] [LinearOrder K]

/-- `input_args[0][1:-1, 1:-1] = y`, `precomp_funs.py:3196`; `alpha` is `phex_alpha_i_wll_sep_discretized`. -/
def withT (g : Geo K) (alpha : (ℕ → ℕ → K) → ℕ → ℕ → K) (s : Inp K) (y : ℕ → ℕ → K) : Inp K :=
  { s with
    ext := fun a b => if a = 0 ∨ a = g.n + 1 ∨ b = 0 ∨ b = 4 then s.ext a b else y (a - 1) (b - 1)
    alpha := alpha y }

/-- `y - yprev - h * hexnum_diff_impl(*input_args)`, `precomp_funs.py:3197`. -/
def residual (mat : Mat K) (g : Geo K) (alpha : (ℕ → ℕ → K) → ℕ → ℕ → K) (s : Inp K) (prev : ℕ → ℕ → K) (h : K)
    (y : ℕ → ℕ → K) (k j : ℕ) : K :=
  y k j - prev k j - h * dT mat g (withT g alpha s y) k j

/-- What `scipy.optimize.root` returns: `x` and `success`. -/
structure Outcome (K : Type*) where
  x : ℕ → ℕ → K
  success : Bool

/-- `scipy.optimize.root`: function and start value. -/
abbrev Root (K : Type*) := ((ℕ → ℕ → K) → ℕ → ℕ → K) → (ℕ → ℕ → K) → Outcome K

/-- Intermediate temperatures and result of one step of length `h`, `simenv.py:4004-4016` and `4052-4065`: two steps of half
the length, the first with the ports at the beginning (`s0`), the second with those of the predictor (`s1`).  `success` is
not read. -/
def implicitStep (root : Root K) (mat : Mat K) (g : Geo K) (alpha : (ℕ → ℕ → K) → ℕ → ℕ → K) (s0 s1 : Inp K)
    (prev : ℕ → ℕ → K) (h : K) : (ℕ → ℕ → K) × (ℕ → ℕ → K) :=
  let y1 := (root (residual mat g alpha s0 prev (h / 2)) prev).x
  let y2 := (root (residual mat g alpha s1 y1 (h / 2)) y1).x
  (y1, y2)

end Verif.HexNum
