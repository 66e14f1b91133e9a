import Mathlib.Algebra.Order.Floor.Ring
import Mathlib.Algebra.Order.Field.Basic

/-!
# Condensing flue gas heat exchanger

Transcription of `condensing_hex_solve` (`/repo/multisim/precomp_funs.py:2820-2992`), of
`condensing_hex_quad_poly` (`5717-5784`) and of `HEXCondPoly._check_results`
(`/repo/multisim/parts/hex_condensing_polynome.py:564-579`).

Flows are scaled by their maximum before use (`X_pred[:, 2:] = dm_io / flow_scaling`); the model starts from
the scaled flows.  The regression (`transform_to_poly_nb`, `transform_pca_nb`, `poly_tranfs_pred`) is an
arbitrary function `char` from water inlet temperature, gas inlet temperature, water flow and gas flow to
the two outlet temperatures.
-/

namespace Verif.CondHex

variable {K : Type*} [Field K] [LinearOrder K] [FloorRing K]

/-- Python's `round` for a float of any sign: nearest integer, ties to the even one. -/
def pyRoundInt (x : K) : ℤ :=
  if x - ⌊x⌋ < 1 / 2 then ⌊x⌋
  else if 1 / 2 < x - ⌊x⌋ then ⌊x⌋ + 1
  else if ⌊x⌋ % 2 = 0 then ⌊x⌋ else ⌊x⌋ + 1

/-- `water_dm_range`, `gas_dv_range`. -/
structure Range (K : Type*) where
  lo : K
  hi : K

/-- Water flow used for the characteristic and, if there is a bypass, the excess flow
(`precomp_funs.py:2905-2924`). -/
def water (r : Range K) (x : K) : K × Option K :=
  if r.lo ≠ 0 ∧ x < r.lo then ((pyRoundInt (x / r.lo) : K) * r.lo, none)
  else if r.hi < x then (r.hi, some (x - r.hi))
  else (x, none)

/-- Gas flow used for the characteristic; `none` is the `ValueError` (`precomp_funs.py:2925-2936`). -/
def gas (r : Range K) (x : K) : Option K :=
  if r.lo ≠ 0 ∧ x < r.lo then some ((pyRoundInt (x / r.lo) : K) * r.lo)
  else if r.hi < x then none
  else some x

/-- `condensing_hex_quad_poly`, `precomp_funs.py:5717-5784`, for one of the two outlets: `a` is the
characteristic at the threshold, `y0` the gas inlet temperature, `x` the water flow.  The loop
`for i in range(1)` runs once with `c = thresh`, so the slope `dy` (lines 5766-5772) has no effect on the
result and is left out. -/
def quad (thresh y0 a x : K) : K := a + (y0 - a) / thresh ^ 2 * (x - thresh) ^ 2

/-- `dm_water_thresh`, `precomp_funs.py:2940`. -/
def thresh : K := 1 / 10

/-- Result of one call: water outlet, gas outlet temperature; the inlet temperatures are passed on. -/
structure Out (K : Type*) where
  water : K
  gas : K

/-- Outlet temperatures before the bypass, `precomp_funs.py:2939-2977`. -/
def core (char : K → K → K → K → Out K) (tw tg w g : K) : Out K :=
  if w ≠ 0 ∧ g ≠ 0 then
    if thresh < w then char tw tg w g
    else
      let a := char tw tg thresh g
      ⟨quad thresh tg a.water w, quad thresh tg a.gas w⟩
  else ⟨tw, tg⟩

/-- `condensing_hex_solve` for inlet temperatures `tw`, `tg` and scaled flows `xw`, `xg`; `none` is the
`ValueError`. -/
def solve (cp : K → K) (char : K → K → K → K → Out K) (rw rg : Range K) (tw tg xw xg : K) : Option (Out K) :=
  match gas rg xg with
  | none => none
  | some g =>
    let w := water rw xw
    let o := core char tw tg w.1 g
    match w.2 with
    | none => some o
    | some ex =>
      -- `precomp_funs.py:2980-2989`
      let hb := cp tw * ex
      let hh := cp o.water * rw.hi
      some ⟨(hb * tw + hh * o.water) / (hb + hh), o.gas⟩

/-- The part of `_check_results` on flows: no negative flow and the largest gas flow below the upper limit
(`hex_condensing_polynome.py:570-579`).  `xs` are the recorded scaled flows (water, gas). -/
def flowsOk (rg : Range K) (xs : List (K × K)) : Bool :=
  xs.all fun x => decide (0 ≤ x.1 ∧ 0 ≤ x.2 ∧ x.2 < rg.hi)

end Verif.CondHex
