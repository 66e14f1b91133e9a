import Mathlib.Data.Real.Basic

/-!
# Inlets and outlets of a heat exchanger

Ports: 0 supply in, 1 supply out, 2 demand in, 3 demand out; a negative flow swaps the role of the two ports
of a side.
-/

namespace Verif.PlateHex

/-- Port through which the supply water enters. -/
noncomputable def supIn (dmS : ℝ) : Fin 4 := if 0 ≤ dmS then 0 else 1
/-- Port through which the supply water leaves. -/
noncomputable def supOut (dmS : ℝ) : Fin 4 := if 0 ≤ dmS then 1 else 0
/-- Port through which the demand water enters. -/
noncomputable def dmdIn (dmD : ℝ) : Fin 4 := if 0 ≤ dmD then 2 else 3
/-- Port through which the demand water leaves. -/
noncomputable def dmdOut (dmD : ℝ) : Fin 4 := if 0 ≤ dmD then 3 else 2

end Verif.PlateHex
