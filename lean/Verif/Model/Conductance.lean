import Verif.Model.Cells
import Verif.Model.Water
import Mathlib.Analysis.SpecialFunctions.Log.Base
import Mathlib.Analysis.SpecialFunctions.Pow.Real
import Mathlib.Analysis.SpecialFunctions.Trigonometric.Basic
import Mathlib.Tactic.NormNum

/-!
# Heat transfer coefficients and conductances to the ambient

Transcription of the functions of `/repo/multisim/precomp_funs.py` which compute the heat transfer
coefficients and `U*A` values of pipes and storages, and of the part of `pipe1D_diff` which calls them.

Arrays are treated cell by cell.  The mean conductivity between neighbouring cells is `Cells.lamMean`.
Quotients by zero occur only where said; numpy gives `inf` there, and the value resulting from it is written
out.
-/

namespace Verif.Conductance

section Circuits

variable {K : Type*} [Field K]

/-- `series_circuit_UA` (`precomp_funs.py:5296-5320`): starts with the reciprocal of the first member and
adds the reciprocals of the others.  Called without arguments the code raises an `IndexError` (`none`). -/
def series : List K → Option K
  | [] => none
  | u :: us => some (1 / us.foldl (fun acc x => acc + 1 / x) (1 / u))

/-- `parallel_circuit_UA` (`precomp_funs.py:5322-5348`), for numbers. -/
def parallel : List K → Option K
  | [] => none
  | u :: us => some (us.foldl (fun acc x => acc + x) u)

/-- `parallel_circuit_UA` (`precomp_funs.py:5322-5348`) for arrays: `UA_parallel = args[0]` binds the first
array itself and `UA_parallel += arg` adds to it in place.  The result is the pair of the returned array and
of the contents of all argument arrays after the call (distinct arrays of equal length are assumed). -/
def parallelArrays : List (List K) → Option (List K × List (List K))
  | [] => none
  | u :: us => some (us.foldl (List.zipWith (· + ·)) u, us.foldl (List.zipWith (· + ·)) u :: us)

/-- `series_circuit_UA` (`precomp_funs.py:5296-5320`) for arrays: `1 / args[0]` is a new array, the
arguments are not written. -/
def seriesArrays : List (List K) → Option (List K × List (List K))
  | [] => none
  | u :: us => some ((us.foldl (fun acc x => List.zipWith (· + ·) acc (x.map (1 / ·))) (u.map (1 / ·))).map
      (1 / ·), u :: us)

end Circuits

section Layers

/-! ## Conductance of layers (`precomp_funs.py:4910-5226`) -/

/-- Geometry and material of one cell of a pipe or storage (`pipe.py:380-410`, `tes.py:440-475`). -/
structure Shell where
  /-- inner radius `_r_i` -/
  rI : ℝ
  /-- outer radius of the wall `_r_o` -/
  rO : ℝ
  /-- outer radius of the insulation `_r_total` -/
  rTotal : ℝ
  /-- height of the cell `grid_spacing` -/
  gs : ℝ
  /-- conductivity of the wall -/
  lamWll : ℝ
  /-- conductivity of the insulation -/
  lamIns : ℝ
  /-- length of the flow around the part `_flow_length` -/
  flowLength : ℝ
  /-- orientation of the part -/
  vertical : Bool

namespace Shell

/-- `_r_ln_wll` (`pipe.py:390`) -/
noncomputable def rLnWll (g : Shell) : ℝ := g.rI * Real.log (g.rO / g.rI)
/-- `_r_ln_ins` (`pipe.py:392`) -/
noncomputable def rLnIns (g : Shell) : ℝ := g.rI * Real.log (g.rTotal / g.rO)
/-- `_r_rins` (`pipe.py:394`) -/
noncomputable def rRins (g : Shell) : ℝ := g.rI / g.rTotal
/-- `_A_shell_i` (`pipe.py:401`), `d_i = 2 * r_i` -/
noncomputable def aShellI (g : Shell) : ℝ := Real.pi * (2 * g.rI) * g.gs
/-- `_A_shell_ins` (`pipe.py:405`) -/
noncomputable def aShellIns (g : Shell) : ℝ := Real.pi * g.rTotal * 2 * g.gs
/-- Cross section of the fluid `A_cell` (`pipe.py:398`, `d_i ** 2 / 4 * pi`). -/
noncomputable def aCell (g : Shell) : ℝ := Real.pi * (2 * g.rI) ^ 2 / 4

end Shell

/-- `UA_fld_wll_ins_amb_cyl` (`precomp_funs.py:4910-4965`) with the arguments passed by the parts. -/
noncomputable def uaFldWllInsAmbCyl (g : Shell) (alphaI alphaInf : ℝ) : ℝ :=
  g.aShellI / (1 / alphaI + g.rLnWll / g.lamWll + g.rLnIns / g.lamIns + g.rRins / alphaInf)

/-- `UA_fld_wll_amb_cyl` (`precomp_funs.py:4968-5005`), `r_ro = r_i / r_o`. -/
noncomputable def uaFldWllAmbCyl (g : Shell) (alphaI alphaInf : ℝ) : ℝ :=
  g.aShellI / (1 / alphaI + g.rLnWll / g.lamWll + g.rI / g.rO / alphaInf)

/-- `UA_fld_wll_cyl` (`precomp_funs.py:5008-5044`): from the fluid to the middle of the wall. -/
noncomputable def uaFldWllCyl (g : Shell) (alphaI : ℝ) : ℝ :=
  g.aShellI / (1 / alphaI + g.rI * Real.log ((g.rO / g.rI + 1) / 2) / g.lamWll)

/-- `UA_wll_ins_amb_cyl` (`precomp_funs.py:5047-5097`): from the middle of the wall to the ambient. -/
noncomputable def uaWllInsAmbCyl (g : Shell) (alphaInf : ℝ) : ℝ :=
  g.aShellI / (g.rI * Real.log (2 / (g.rI / g.rO + 1)) / g.lamWll + g.rLnIns / g.lamIns + g.rRins / alphaInf)

/-- `UA_wll_amb_cyl` (`precomp_funs.py:5100-5134`): from the middle of the wall to the ambient, no
insulation. -/
noncomputable def uaWllAmbCyl (g : Shell) (alphaInf : ℝ) : ℝ :=
  g.aShellI / (g.rI * Real.log (2 / (g.rI / g.rO + 1)) / g.lamWll + g.rI / (g.rO * alphaInf))

/-- `UA_fld_wll_plate` (`precomp_funs.py:5137-5160`) -/
noncomputable def uaFldWllPlate (A sWll alphaFld lamWll : ℝ) : ℝ := A / (1 / alphaFld + sWll / lamWll)

/-- `UA_fld_wll_ins_amb_plate` (`precomp_funs.py:5163-5199`).  For `alpha_inf = 0` the summand `1 / alpha_inf`
is `inf` and the result `0`. -/
noncomputable def uaFldWllInsAmbPlate (A sWll sIns alphaFld alphaInf lamWll lamIns : ℝ) : ℝ :=
  if alphaInf = 0 then 0 else A / (1 / alphaFld + sWll / lamWll + sIns / lamIns + 1 / alphaInf)

/-- `UA_wll_ins_amb_plate` (`precomp_funs.py:5202-5226`), for `alpha_inf ≠ 0`. -/
noncomputable def uaWllInsAmbPlate (A sWll sIns lamWll lamIns alphaInf : ℝ) : ℝ :=
  A / (sWll / lamWll + sIns / lamIns + 1 / alphaInf)

/-- `surface_temp_steady_state(_inplace)` (`precomp_funs.py:5229-5292`) -/
noncomputable def surfaceTemp (T Tinf As alphaInf UA : ℝ) : ℝ := Tinf + (T - Tinf) * UA / (alphaInf * As)

end Layers

section Coefficients

/-! ## Heat transfer coefficients -/

/-- `get_lam_dryair` (`precomp_funs.py:4171-4188`) -/
noncomputable def lamAir (T : ℝ) : ℝ :=
  0.024358670995670989 + 7.6533982683982561e-05 * T - 4.2099567099572201e-08 * T ^ 2

/-- `get_ny_dryair` (`precomp_funs.py:4193-4210`) -/
noncomputable def nyAir (T : ℝ) : ℝ :=
  1.3500069264069257e-05 + 8.8810389610389459e-08 * T + 1.0974025974025443e-10 * T ^ 2

/-- `rayleigh_number` (`precomp_funs.py:3916-3946`) with `Pr = 0.708` and `Kelvin = 273.15`, also written out
in `cylinder_alpha_inf`. -/
noncomputable def rayleigh (Ts Tinf ny L : ℝ) : ℝ :=
  |Ts - Tinf| * 9.81 * L ^ 3 * 0.708 / ((Tinf + 273.15) * ny ^ 2)

/-- `cylinder_alpha_inf` (`precomp_funs.py:4686-4757`) -/
noncomputable def cylinderAlphaInf (Ts Tinf L : ℝ) (vertical : Bool) (rTotal : ℝ) : ℝ :=
  (if vertical then
      (0.825 + 0.387 * (rayleigh Ts Tinf (nyAir ((Tinf + Ts) / 2)) L * 0.3466023585520853) ^ ((1 : ℝ) / 6)) ^ 2
        + 0.435 * L / (2 * rTotal)
    else
      (0.752 + 0.387 * (rayleigh Ts Tinf (nyAir ((Tinf + Ts) / 2)) L * 0.3269207911296459) ^ ((1 : ℝ) / 6)) ^ 2)
    * lamAir ((Tinf + Ts) / 2) / L

/-- `vert_plane_alpha_inf` (`precomp_funs.py:4796-4837`) -/
noncomputable def vertPlaneAlphaInf (Ts Tinf L : ℝ) : ℝ :=
  (0.825 + 0.387 * (rayleigh Ts Tinf (nyAir ((Tinf + Ts) / 2)) L * 0.3466023585520853) ^ ((1 : ℝ) / 6)) ^ 2
    * lamAir ((Tinf + Ts) / 2) / L

/-- The Nusselt number in `hor_plane_alpha_inf` (`precomp_funs.py:4876-4903`); `outward` is the condition in
line 4878. -/
noncomputable def horPlaneNu (outward : Bool) (Ra : ℝ) : ℝ :=
  if outward then
    (if Ra * 0.40306002707296223 ≤ 7e4 then 0.766 * (Ra * 0.40306002707296223) ^ ((1 : ℝ) / 5)
      else 0.15 * (Ra * 0.40306002707296223) ^ ((1 : ℝ) / 3))
  else 0.6 * (Ra * 0.3466023585520853) ^ ((1 : ℝ) / 5)

/-- The condition in line 4878 of `hor_plane_alpha_inf`. -/
noncomputable def outward (top : Bool) (Ts Tinf : ℝ) : Bool :=
  (top && decide (Tinf ≤ Ts)) || (!top && decide (Ts < Tinf))

/-- `hor_plane_alpha_inf` (`precomp_funs.py:4841-4906`) for one element -/
noncomputable def horPlaneAlphaInf (Ts Tinf L : ℝ) (top : Bool) : ℝ :=
  horPlaneNu (outward top Ts Tinf) (rayleigh Ts Tinf (nyAir ((Tinf + Ts) / 2)) L)
    * lamAir ((Tinf + Ts) / 2) / L

/-- `plane_alpha_inf` (`precomp_funs.py:4760-4793`) -/
noncomputable def planeAlphaInf (Ts Tinf L : ℝ) (vertical top : Bool) : ℝ :=
  if vertical then vertPlaneAlphaInf Ts Tinf L else horPlaneAlphaInf Ts Tinf L top

/-- The cube in line 4408: an integer power, so negative bases are allowed. -/
noncomputable def laminarNu (Pe dI x : ℝ) : ℝ :=
  (49.371 + (1.077 * (Pe * dI / x) ^ ((1 : ℝ) / 3) - 0.7) ^ 3) ^ ((1 : ℝ) / 3)

/-- Friction factor in line 4414; `** (-2)` is the reciprocal of the square. -/
noncomputable def friction (Re : ℝ) : ℝ := ((1.8 * Real.logb 10 Re - 1.5) ^ 2)⁻¹

/-- Lines 4415-4419. -/
noncomputable def turbulentNu (Re Pr dI x : ℝ) : ℝ :=
  friction Re / 8 * (Re * Pr) / (1 + 12.7 * (Pr ^ ((2 : ℝ) / 3) - 1) * (friction Re / 8) ^ (0.5 : ℝ))
    * (1 + (dI / x) ^ ((2 : ℝ) / 3) / 3)

/-- `pipe_alpha_i` (`precomp_funs.py:4345-4424`) for one cell of water at temperature `T`; `x` is the distance
from the end at which the water enters (the array is reversed for negative flow, lines 4396-4399). -/
noncomputable def pipeAlphaI (dm T A dI x : ℝ) : ℝ :=
  (if 2300 < |dm / (Water.rho T * A)| * dI / Water.ny T then
      turbulentNu (|dm / (Water.rho T * A)| * dI / Water.ny T) (Water.Pr T) dI x
    else laminarNu (|dm / (Water.rho T * A)| * dI / Water.ny T * Water.Pr T) dI x)
    * Water.lam T / dI

end Coefficients

section Evaluation

/-! ## The part of a differential which updates the conductance to the ambient

`pipe1D_diff` (`precomp_funs.py:1119-1165`), and likewise in the other one-dimensional parts: the surface
temperature is computed from the coefficients of the *previous* evaluation, then new coefficients. -/

/-- Values kept between two evaluations of the differential, for one cell. -/
structure Coeffs where
  alphaI : ℝ
  alphaInf : ℝ
  ua : ℝ
  Ts : ℝ

/-- Values before the first evaluation (`pipe.py:114, 121-122, 143`). -/
noncomputable def Coeffs.init : Coeffs := ⟨3.122, 3.122, 0, 0⟩

/-- Input of one evaluation: flow, water temperature, ambient temperature. -/
structure Eval where
  dm : ℝ
  T : ℝ
  Tamb : ℝ
  x : ℝ

/-- One evaluation (`precomp_funs.py:1119-1165`). -/
noncomputable def evaluate (g : Shell) (c : Coeffs) (e : Eval) : Coeffs :=
  let Ts := surfaceTemp e.T e.Tamb g.aShellIns c.alphaInf c.ua
  let aI := pipeAlphaI e.dm e.T g.aCell (2 * g.rI) e.x
  let aInf := cylinderAlphaInf Ts e.Tamb g.flowLength g.vertical g.rTotal
  ⟨aI, aInf, uaFldWllInsAmbCyl g aI aInf, Ts⟩

/-- A whole history of evaluations, accepted or not. -/
noncomputable def history (g : Shell) (es : List Eval) : Coeffs := es.foldl (evaluate g) Coeffs.init

/-- The lid of a storage (`precomp_funs.py:2230-2258`): its surface temperature is that of the shell of the
same cell (`tes.py:203`). -/
noncomputable def lidUA (g : Shell) (c : Coeffs) (e : Eval) (L : ℝ) (verticalLid top : Bool) : ℝ :=
  uaFldWllInsAmbPlate g.aCell (g.rO - g.rI) (g.rTotal - g.rO) (evaluate g c e).alphaI
    (planeAlphaInf (evaluate g c e).Ts e.Tamb L verticalLid top) g.lamWll g.lamIns

/-- `log_mean_temp_diff` (`precomp_funs.py:5354-5376`).  Equal differences give `0 / 0`, a quotient of
differences which is not positive the logarithm of a non-positive number; both are `none` here (numpy: `nan`
or `-inf`; for `Delta_T_A = 0` the logarithm is `-inf` and the result `0`, see below). -/
noncomputable def lmtd (Ta1 Ta2 Tb1 Tb2 : ℝ) : Option ℝ :=
  if Tb1 - Tb2 = 0 then none
  else if Ta1 - Ta2 = 0 then some 0
  else if (Ta1 - Ta2) / (Tb1 - Tb2) < 0 then none
  else if (Ta1 - Ta2) / (Tb1 - Tb2) = 1 then none
  else some (((Ta1 - Ta2) - (Tb1 - Tb2)) / Real.log ((Ta1 - Ta2) / (Tb1 - Tb2)))

end Evaluation

end Verif.Conductance
