import Verif.Model.Conductance
import Verif.Model.PlateHex

/-!
# Heat transfer coefficients which depend on the flow

`pipe_alpha_i_wll_sep` and the two variants of `phex_alpha_i_wll_sep` (`/repo/multisim/precomp_funs.py`), for
one cell of water.  `pipe_alpha_i` itself is in `Verif.Model.Conductance`.
-/

namespace Verif.FlowAlpha

open Verif.Conductance

/-- Correction for the temperature of the wall (`precomp_funs.py:4475, 4568, 4654`). -/
noncomputable def wallFactor (Tf Tw : ℝ) : ℝ := (Water.Pr Tf / Water.Pr Tw) ^ (0.11 : ℝ)

/-- `pipe_alpha_i_wll_sep` (`precomp_funs.py:4429-4512`) -/
noncomputable def pipeAlphaWll (dm Tf Tw A dI x : ℝ) : ℝ :=
  (if 2300 < |dm / (Water.rho Tf * A)| * dI / Water.ny Tf then
      turbulentNu (|dm / (Water.rho Tf * A)| * dI / Water.ny Tf) (Water.Pr Tf) dI x
    else laminarNu (|dm / (Water.rho Tf * A)| * dI / Water.ny Tf * Water.Pr Tf) dI x)
    * wallFactor Tf Tw * Water.lam Tf / dI

/-- Lines 4577-4582 (4663-4669): mean Nusselt number of a laminar flow between plates. -/
noncomputable def plateLaminarNu (Pe Pr d x : ℝ) : ℝ :=
  (49.371 + (1.615 * (Pe * d / x) ^ ((1 : ℝ) / 3) - 0.7) ^ 3
    + ((2 / (1 + 22 * Pr)) ^ ((1 : ℝ) / 6) * (Pe * d / x) ^ (0.5 : ℝ)) ^ 3) ^ ((1 : ℝ) / 3)

/-- Lines 4586-4591 (4673-4678): mean Nusselt number of a turbulent flow between plates. -/
noncomputable def plateTurbulentNu (Re Pr d x : ℝ) : ℝ :=
  friction Re / 8 * (Re * Pr) / (1 + 12.7 * (Pr ^ ((2 : ℝ) / 3) - 1) * (friction Re / 8) ^ (0.5 : ℝ))
    * (1 + (d / x) ^ ((2 : ℝ) / 3))

/-- Reynolds number with the correction for the profile of the plates (lines 4559-4564, 4645-4650). -/
noncomputable def plateRe (dm T A d corr : ℝ) : ℝ := |dm / (Water.rho T * A)| * d / Water.ny T + corr

/-- `phex_alpha_i_wll_sep` (`precomp_funs.py:4516-4597`) and `phex_alpha_i_wll_sep_discretized`
(`precomp_funs.py:4601-4683`); `x` is the length of the plates in the first and the distance of the cell in the
second.  A negative Reynolds number (possible after `find_reynolds_correction`, which does not bound the
correction) is raised to a fractional power, which gives `nan`: `none`. -/
noncomputable def phexAlpha (dm Tf Tw A d x corr : ℝ) : Option ℝ :=
  if plateRe dm Tf A d corr < 0 then none
  else some ((if 2300 < plateRe dm Tf A d corr then
      plateTurbulentNu (plateRe dm Tf A d corr) (Water.Pr Tf) d x
    else plateLaminarNu (plateRe dm Tf A d corr * Water.Pr Tf) (Water.Pr Tf) d x)
    * wallFactor Tf Tw * Water.lam Tf / d)

/-- Geometry of a plate heat exchanger as `solve_platehex` needs it. -/
structure Plates where
  aChannel : ℝ
  dh : ℝ
  length : ℝ
  corr : ℝ
  chSup : ℝ
  chDmd : ℝ
  aPlate : ℝ
  sPlate : ℝ
  lamWll : ℝ
  numA : ℝ

/-- The heat transfer value in `solve_platehex` (`precomp_funs.py:3432-3478`) for the mean temperatures `Ts`,
`Td` of the two sides: coefficient per side, conductance to the middle of the plate, series circuit, number of
plates which take part. -/
noncomputable def plateUA (g : Plates) (dmS dmD Ts Td : ℝ) : Option ℝ := do
  let aS ← phexAlpha (dmS / g.chSup) Ts Ts g.aChannel g.dh g.length g.corr
  let aD ← phexAlpha (dmD / g.chDmd) Td Td g.aChannel g.dh g.length g.corr
  let ua ← series [uaFldWllPlate g.aPlate (g.sPlate / 2) aS g.lamWll, uaFldWllPlate g.aPlate (g.sPlate / 2) aD g.lamWll]
  return ua * g.numA

/-- `solve_platehex` (`precomp_funs.py:3358-3558`) with both sides flowing: mean temperatures from the ports
(lines 3428-3429), heat capacities, heat transfer value, outlet temperatures. -/
noncomputable def solvePlates (g : Plates) (dmS dmD : ℝ) (Tp : Fin 4 → ℝ) : Option (Fin 4 → ℝ) := do
  let ua ← plateUA g |dmS| |dmD| ((Tp 0 + Tp 1) / 2) ((Tp 2 + Tp 3) / 2)
  return PlateHex.solve dmS dmD Tp ua (Water.cp ((Tp 0 + Tp 1) / 2)) (Water.cp ((Tp 2 + Tp 3) / 2))

/-- `_cell_dist` (`pipe.py:102-104`): the middle of cell `k`. -/
noncomputable def cellDist (gs : ℝ) (k : ℕ) : ℝ := gs / 2 + k * gs

/-- `xi` in `pipe_alpha_i` (`precomp_funs.py:4394-4402`): the array is read from its end for negative flow. -/
noncomputable def flowDist (n : ℕ) (gs dm : ℝ) (k : ℕ) : ℝ := if dm < 0 then cellDist gs (n - 1 - k) else cellDist gs k

/-- The coefficients of all `n` cells of a pipe in one evaluation (`precomp_funs.py:1119-1165`), from those of the
evaluation before. -/
noncomputable def pipeCoeffs (g : Shell) (n : ℕ) (c : ℕ → Coeffs) (dm : ℝ) (T : ℕ → ℝ) (Tamb : ℝ) (k : ℕ) : Coeffs :=
  evaluate g (c k) ⟨dm, T k, Tamb, flowDist n g.gs dm k⟩

end Verif.FlowAlpha
