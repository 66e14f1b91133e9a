import Verif.Model.Water
import Mathlib.Analysis.SpecialFunctions.Pow.Real

/-!
# Buoyancy in a storage

Transcription of `buoyancy_byNusselt` (`/repo/multisim/precomp_funs.py:542-589`), called by `tes_diff` (`2187`).  The
cells of the storage are numbered from the top; arrays over cells are functions of the cell, arrays over pairs of
neighbouring cells functions of the upper cell.
-/

namespace Verif.Buoyancy

/-- `beta_water_return`, `precomp_funs.py:4133-4143`. -/
def beta {K : Type*} [Field K] (T : K) : K :=
  -5.87985364766666e-05 + 1.5641955219950547e-05 * T - 1.3587684743777981e-07 * T ^ 2
    + 6.1220503308149086e-10 * T ^ 3

/-- `T_diff` after the negative values were set to zero, `precomp_funs.py:554-559`. -/
noncomputable def tDiff (T : ℕ → ℝ) (k : ℕ) : ℝ := max (T (k + 1) - T k) 0

/-- `Ra`, `precomp_funs.py:568-577`: material properties of the lower cell, `ny` is an input; negative expansion
coefficients are made positive. -/
noncomputable def ra (d : ℝ) (T ny : ℕ → ℝ) (k : ℕ) : ℝ :=
  Water.Pr (T (k + 1)) * 9.81 * (d / 4) ^ 3 * |beta (T (k + 1))| * tDiff T k / ny (k + 1) ^ 2

/-- `Ra_f2`, `precomp_funs.py:579`. -/
noncomputable def raF2 (d : ℝ) (T ny : ℕ → ℝ) (k : ℕ) : ℝ :=
  ra d T ny k * (1 + (0.322 / Water.Pr (T (k + 1))) ^ (11 / 20 : ℝ)) ^ (-20 / 11 : ℝ)

/-- `Nu`, `precomp_funs.py:581-584`. -/
noncomputable def nusselt (x : ℝ) : ℝ := if 7e4 < x then 0.15 * x ^ (1 / 3 : ℝ) else 0.766 * x ^ (0.2 : ℝ)

/-- Factor on the conductivity, `precomp_funs.py:562, 586-590`. -/
noncomputable def factor (nu : ℝ) : ℝ := if 1 ≤ nu then nu * 20 else 1

open Classical in
/-- `lam_mean` after the call for a storage of `n` cells with inner diameter `d`. -/
noncomputable def lamBuoyant (n : ℕ) (d : ℝ) (T ny lam : ℕ → ℝ) (k : ℕ) : ℝ :=
  if ∀ j, j + 1 < n → T (j + 1) - T j ≤ 0 then lam k else lam k * factor (nusselt (raF2 d T ny k))

end Verif.Buoyancy
