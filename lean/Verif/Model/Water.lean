import Mathlib.Algebra.Order.Field.Basic
import Mathlib.Tactic.NormNum

/-!
# Material properties of water

Transcription of the fitted polynomials in `/repo/multisim/precomp_funs.py:3952-4120`.  Each polynomial
occurs twice there, once writing into an array (`get_…`) and once returning the value; the coefficients are
the same.
-/

namespace Verif.Water

variable {K : Type*} [Field K]

/-- `rho_water`, `precomp_funs.py:3971-3983`, `get_rho_water`, `3954-3967`. -/
def rho (T : K) : K :=
  999.88785713136213 + 4.9604454990529602e-02 * T - 7.4722666453460717e-03 * T ^ 2
    + 4.1094484438154484e-05 * T ^ 3 - 1.2915789546323614e-07 * T ^ 4

/-- `lambda_water`, `precomp_funs.py:3988-3997`, `get_lambda_water`, `4002-4011`. -/
def lam (T : K) : K :=
  5.6987912853229539e-01 + 1.7878370402545738e-03 * T - 5.9998217273879795e-06 * T ^ 2
    - 8.6964577115093407e-09 * T ^ 3

/-- `cp_water`, `precomp_funs.py:4034-4044`, `get_cp_water`, `4017-4029`. -/
def cp (T : K) : K :=
  4215.4023574179992 - 2.8853943283519348 * T + 7.490580684801168e-02 * T ^ 2
    - 7.7807143441700321e-04 * T ^ 3 + 3.2109328970410432e-06 * T ^ 4

/-- `ny_water`, `precomp_funs.py:4067-4077`, `get_ny_water`, `4050-4060`. -/
def ny (T : K) : K :=
  1.7764473380494155e-06 - 5.5640275781265404e-08 * T + 1.0243072887494426e-09 * T ^ 2
    - 9.7954460136981165e-12 * T ^ 3 + 3.6460468745062724e-14 * T ^ 4

/-- `Pr_water_return`, `precomp_funs.py:4104-4118`, `get_Pr_water`, `4082-4097`. -/
def Pr (T : K) : K :=
  12.5780108199379058 - 0.35124680571767508 * T + 4.3225480444706085e-03 * T ^ 2
    - 1.9174193923188898e-05 * T ^ 3

end Verif.Water
