import Mathlib.Analysis.SpecialFunctions.Exp

/-!
# Plate heat exchanger with the NTU method

Transcription of `solve_platehex` (`/repo/multisim/precomp_funs.py:3358-3558`).

The heat transfer value `UA_fld_wll_fld` (lines 3432-3479, from Nusselt correlations) and the heat capacities
`cp_mean` are inputs: everything proved holds for any positive values.  With both flows and heat capacities
non-zero the divisions are defined, so the branches for infinite `NTU_sup`, `R_sup` and for NaN
(lines 3486-3495, 3517-3519) are not reached.
-/

namespace Verif.PlateHex

/-- `P_sup`, `precomp_funs.py:3498-3513`. -/
noncomputable def pSup (NTU R : ℝ) : ℝ :=
  let rs := (R - 1) * NTU
  if R ≠ 1 ∧ rs < 100 then (1 - Real.exp rs) / (1 - R * Real.exp rs)
  else if 100 < rs then 1 / R
  else NTU / (1 + NTU)

/-- Temperatures written to the four ports (sup in, sup out, dmd in, dmd out) for signed flows `dmS`, `dmD`,
temperatures `Tp` of the connected ports, heat transfer value `UA`, heat capacities `cpS`, `cpD`. -/
noncomputable def solve (dmS dmD : ℝ) (Tp : Fin 4 → ℝ) (UA cpS cpD : ℝ) : Fin 4 → ℝ :=
  let sIn := if 0 ≤ dmS then Tp 0 else Tp 1
  let sOut := if 0 ≤ dmS then Tp 1 else Tp 0
  let dIn := if 0 ≤ dmD then Tp 2 else Tp 3
  let dOut := if 0 ≤ dmD then Tp 3 else Tp 2
  let dmSup := if 0 ≤ dmS then dmS else -dmS
  let dmDmd := if 0 ≤ dmD then dmD else -dmD
  let out : ℝ × ℝ :=
    if dmSup ≠ 0 ∧ dmDmd ≠ 0 then
      let cS := dmSup * cpS
      let cD := dmDmd * cpD
      let P := pSup (UA / cS) (cS / cD)
      (sIn - P * (sIn - dIn), dIn + P * (cS / cD) * (sIn - dIn))
    else if dmSup ≠ 0 then (sIn, dOut)
    else if dmDmd ≠ 0 then (sOut, dIn)
    else (sOut, dOut)
  ![if 0 ≤ dmS then sIn else out.1, if 0 ≤ dmS then out.1 else sIn,
    if 0 ≤ dmD then dIn else out.2, if 0 ≤ dmD then out.2 else dIn]

end Verif.PlateHex
