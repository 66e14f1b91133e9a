import Mathlib.Algebra.Order.Field.Basic

/-!
# Stability checks

Transcription of `_vonNeumann_stability_invar` (`/repo/multisim/precomp_funs.py:640-757`),
`_vonNeumann_stability_invar_hexnum` (`761-889`) and `_vonNeumann_stability_var` (`893-1026`).

What a violation does to the growth limit is in `Model/StepControl.lean` (`damp`), what the solver does with
the reported step as well (`report`, `pass`).  The counter `stability_breaches` is not modelled.
-/

namespace Verif.Stability

variable {K : Type*} [Field K] [LinearOrder K]

/-- `array.max()`; of an empty array it is an error in numpy, here 0. -/
def maxL : List K → K
  | [] => 0
  | a :: l => l.foldl max a

/-- Arrays and constants used by the check of pipes and storages. -/
structure Data (K : Type*) where
  /-- `UA_tb[1:-1]` -/
  uaTb : List K
  uaPort : List K
  uaAmb : List K
  /-- the flows compared: `dm_io` for pipes; `dm_top`, `dm_bot`, `dm_port` for storages -/
  flows : List K
  rho : List K
  rhocp : List K
  aPort : List K
  subsGsp : List K
  gs : K
  aCell : K
  aShell : K
  rTotal : K
  vCell : K

/-- Diffusion numbers of a one-dimensional part, `precomp_funs.py:697-711`, `951-965`. -/
def diff1D (d : Data K) (h : K) : K :=
  max (max (maxL (List.zipWith (· / ·) d.uaTb d.rhocp.tail) * h / (d.aCell * d.gs))
    (maxL (List.zipWith (· / ·) d.uaPort (List.zipWith (· * ·) d.aPort d.subsGsp)) * h / maxL d.rhocp))
    (maxL (List.zipWith (· / ·) d.uaAmb d.rhocp) * h / (d.aShell * d.rTotal))

/-- CFL number, `precomp_funs.py:717-718` and `979-983` (there `dm_top` and `dm_bot` are never negative, so
taking absolute values of all three arrays is the same). -/
def cfl (d : Data K) (h : K) : K := maxL (d.flows.map fun x => |x|) * h / (d.vCell * maxL d.rho)

/-- Arrays and constants used by the check of the numeric heat exchanger. -/
structure DataHex (K : Type*) where
  uaDim1 : List K
  uaDim2 : List K
  uaPort : List K
  flows : List K
  rho : List K
  rhocp : List K
  aPort : List K
  subsGsp : List K
  gs : K
  aChannel : K
  aPlate : K
  vCell : K

/-- Diffusion numbers of the numeric heat exchanger, `precomp_funs.py:816-838`. -/
def diffHex (d : DataHex K) (h : K) : K :=
  max (max (maxL d.uaDim1 / maxL d.rhocp * h / (d.aChannel * d.gs))
    (maxL d.uaDim2 / maxL d.rhocp * h / (d.aPlate * d.gs)))
    (maxL (List.zipWith (· / ·) d.uaPort (List.zipWith (· * ·) d.aPort d.subsGsp)) / maxL d.rhocp * h)

/-- `precomp_funs.py:845-846`. -/
def cflHex (d : DataHex K) (h : K) : K := maxL (d.flows.map fun x => |x|) * h / (d.vCell * maxL d.rho)

/-- A check: of a one-dimensional part or of a heat exchanger. -/
inductive Check (K : Type*)
  | oneD (d : Data K)
  | hex (d : DataHex K)

/-- `vN_div_max`, `precomp_funs.py:723-726`. -/
def divider (c : Check K) (h : K) : K :=
  match c with
  | .oneD d => max (diff1D d h / (1 / 2)) (cfl d h / 1)
  | .hex d => max (diffHex d h / (1 / 2)) (cflHex d h / 1)

/-- The check: `none` if the step is stable, otherwise the step that is reported,
`precomp_funs.py:727-741`. -/
def check (c : Check K) (h : K) : Option K :=
  if 1 < divider c h then some (h / divider c h * (95 / 100)) else none

end Verif.Stability
