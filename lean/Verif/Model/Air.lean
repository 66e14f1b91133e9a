import Verif.Model.Conductance

/-!
# Properties of air

`/repo/multisim/precomp_funs.py:4160-4266`, also in `_precompiled/material_properties.py:215-324`.  The heat conductivity
and the viscosity of dry air are in `Model/Conductance`.  The coefficients are the decimal numbers of the source.
-/

namespace Verif.Air

/-- `get_rho_dryair`, `precomp_funs.py:4160-4166`. -/
noncomputable def rhoAir (T : ℝ) : ℝ := 1.2767987012987012 - 0.0046968614718614701 * T + 1.4296536796536256e-05 * T ^ 2

/-- `humid_air_saturation_pressure`, `precomp_funs.py:4216-4226`. -/
noncomputable def satPressure (T : ℝ) : ℝ :=
  1.56927617e-09 * T ^ 6 + 2.32760367e-06 * T ^ 5 + 3.19028425e-04 * T ^ 4 + 2.51824584e-02 * T ^ 3
    + 1.42489091 * T ^ 2 + 4.55277840e01 * T ^ 1 + 5.99770272e02

/-- `humid_air_sat_water_mass`, `precomp_funs.py:4239-4266`. -/
noncomputable def satWater (T : ℝ) : ℝ :=
  3.47491188e-19 * T ^ 10 - 6.50956001e-17 * T ^ 9 + 3.68271647e-15 * T ^ 8 + 2.06252891e-14 * T ^ 7
    - 7.11474217e-12 * T ^ 6 + 1.29052920e-10 * T ^ 5 + 6.62755505e-09 * T ^ 4 + 8.79652019e-08 * T ^ 3
    + 8.16034548e-06 * T ^ 2 + 2.98380899e-04 * T + 3.79413965e-03

end Verif.Air
