import Mathlib.Algebra.Order.Field.Basic
import Mathlib.Algebra.BigOperators.Fin
import Mathlib.Data.Fintype.Basic

/-!
# Parts without storage: connector, valves, pump

Transcription of `solve_connector_3w` (`/repo/multisim/precomp_funs.py:3274-3347`), `solve_mix`
(`3585-3613`), `solve_split` (`3627-3631`) and `solve_pump` (`3640-3651`).

`T` holds the temperatures of the connected ports when the function starts and the temperatures the
connected parts will see when it ends.  The heat capacity function `cp` (`cp_water`, see `Model/Water.lean`)
is a parameter.  A boolean index that selects exactly one port is a sum over the selected ports; the cases
in which the code relies on exactly one selected port are stated with the theorems.
-/

namespace Verif.Mixing

variable {K : Type*} [Field K] [LinearOrder K]

/-- `np.sum(T[mask])`. -/
def sumOf (mask : Fin 3 → Bool) (T : Fin 3 → K) : K := ∑ i, if mask i then T i else 0

/-- `np.sum(mask)`. -/
def count (mask : Fin 3 → Bool) : ℕ := ∑ i, if mask i then 1 else 0

/-- `T[mask] = x`. -/
def setOf (mask : Fin 3 → Bool) (x : K) (T : Fin 3 → K) : Fin 3 → K := fun i => if mask i then x else T i

/-- `solve_connector_3w`. -/
def connector (cp : K → K) (dm T : Fin 3 → K) : Fin 3 → K :=
  let dmIn : Fin 3 → Bool := fun i => decide (0 < dm i)
  let dmOut : Fin 3 → Bool := fun i => decide (dm i < 0)
  if count dmIn = 2 then
    let cpOut := cp (sumOf dmIn T / 2)
    let Tout := (sumOf dmIn fun i => dm i * cp (T i) * T i) / (cpOut * -1 * sumOf dmOut dm)
    setOf dmOut Tout (setOf dmIn (sumOf dmOut T) T)
  else if count dmOut = 2 then
    let Tin := sumOf dmOut T / 2
    setOf dmIn Tin (setOf dmOut (sumOf dmIn T) T)
  else if count dmIn = 1 then
    let dm0 : Fin 3 → Bool := fun i => decide (dm i = 0)
    let T1 := setOf dm0 (sumOf (fun i => !dm0 i) T / 2) T
    let T2 := setOf dmOut (sumOf dmIn T1) T1
    setOf dmIn (sumOf (fun i => !dmIn i) T2 / 2) T2
  else
    ![(T 1 + T 2) / 2, (T 0 + T 2) / 2, (T 0 + T 1) / 2]

/-- `solve_mix`: ports A, B, AB; the flow of port AB counts outwards. -/
def mixValve (cp : K → K) (dm T : Fin 3 → K) : Fin 3 → K :=
  if dm 2 ≠ 0 then
    let m := (T 0 + T 1) / 2
    let TAB := (dm 0 * cp (T 0) * T 0 + dm 1 * cp (T 1) * T 1) / (dm 2 * cp m)
    ![m, m, TAB]
  else ![(T 1 + T 2) / 2, (T 0 + T 2) / 2, (T 0 + T 1) / 2]

/-- `solve_split`. -/
def splitValve (T : Fin 3 → K) : Fin 3 → K := ![T 2, T 2, (T 0 + T 1) / 2]

/-- `solve_pump`. -/
def pump (T : Fin 2 → K) : Fin 2 → K := ![T 1, T 0]

end Verif.Mixing
