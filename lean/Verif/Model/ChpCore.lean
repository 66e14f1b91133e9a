import Verif.Model.Cells

/-!
# The water side of a CHP plant

`get_diff` of `/repo/multisim/parts/chp_plant.py:1031-1063` and the compiled twin `chp_core_diff`
(`/repo/multisim/precomp_funs.py:2375-2589`), which is not called.  Unlike a heated pipe there is no shutdown when
the water gets too hot: the heat flow (`Model/Chp.lean`) is set by the plant itself.
-/

namespace Verif.Cells

variable {K : Type*} [Field K] [LinearOrder K]

/-- `dT_total = dT_cond + dT_adv + dT_heat`, `chp_plant.py:1031-1063`. -/
def chpCoreDT (mat : Mat K) (g : Geo K) (s : Inp K) (q : Heat K) (io : K) (pin pout : Port K) (k : ℕ) : K :=
  pipeDT mat g s io pin pout k + dTheat mat g s q k

end Verif.Cells
