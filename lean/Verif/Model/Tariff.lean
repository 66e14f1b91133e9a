import Mathlib.Algebra.Order.Field.Basic
import Mathlib.Tactic.NormNum

/-!
# Cost model of the predictive CHP controller

Transcription of the static methods of `ModelPredCHP` (`/repo/multisim/parts/controllers.py:2202-2845`) that
price a modulation plan: `_kwk_zuschlag`, `_eeg_umlage`, `_minimizer_input` and `_minimizer_input_scalar`.
Powers in W and kW, money in ct.  A plan is a list with one entry per optimisation step; the arrays of the code
are treated entry by entry.

The power `x ** penalty_pow_instandh` and the maintenance cost curve are parameters of the model.
-/

namespace Verif.Tariff

variable {K : Type*} [Field K] [LinearOrder K]

/-! ## Bonus for CHP electricity -/

/-- `kwkg_steps[:-1]` with `np.diff(kwkg_steps)`, `controllers.py:2667, 2687`; `none` is infinity. -/
def steps : List (K × Option K) := [(0, some 50), (50, some 50), (100, some 150), (250, some 1750), (2000, none)]

/-- `kwkg_es_verg`, `controllers.py:2668-2670`. -/
def feedIn : List K := [8, 6, 5, 4.4, 3.1]

/-- `kwkg_en_verg`, `controllers.py:2671-2673`. -/
def ownUse : List K := [4, 3, 2, 1.5, 1]

/-- `np.clip(v, 0, w)`. -/
def clipStep (v : K) : Option K → K
  | none => max v 0
  | some w => min (max v 0) w

/-- One entry of `pel_per_step`, `controllers.py:2680-2689`. -/
def perStep (p : K) (s : K × Option K) : K := clipStep (if p - s.1 < 0 then 0 else p - s.1) s.2

/-- `_kwk_zuschlag(p, as_sum=True)` for the rates `r`, `controllers.py:2635-2699`.  A power given as a number
instead of an array is refused by the assertion in line 2663. -/
def bonus (r : List K) (p : K) : K := ((steps.map (perStep p)).zipWith (· * ·) r).sum

/-! ## EEG surcharge -/

/-- `_eeg_umlage` with `jahr=2020` for a number, `controllers.py:2757-2818`; `own` is `verbraucher == 'eigen'`. -/
def eeg (pel : K) (own : Bool) : K :=
  if 100 ≤ pel ∨ own = false then 6.756 else if pel ≤ 10 ∧ own = true then 0 else 6.756 * 0.4

/-! ## Electricity balance -/

/-- The quantities of `controllers.py:2302-2336, 2505-2539`, in W. -/
structure Balance (K : Type*) where
  /-- `pel_zukauf_bsld` -/
  buyBase : K
  /-- `pel_eigen_bsld` -/
  ownBase : K
  /-- `chp_pel_rest` -/
  rest : K
  /-- `pel_zukauf_ms` -/
  buyTenants : K
  /-- `pel_einsp` -/
  feed : K
  /-- `pel_eigen_ms` -/
  ownTenants : K

/-- `controllers.py:2302-2336` for one entry; `2505-2539` in the scalar version.  `p` is the CHP power, `b` the
base load, `t` the demand of the tenants. -/
def balance (p b t : K) : Balance K :=
  let ownBase := if b < p then b else p
  let rest := p - ownBase
  let z := t - rest
  { buyBase := if b - p < 0 then 0 else b - p
    ownBase := ownBase
    rest := rest
    buyTenants := if z < 0 then 0 else z
    feed := if z < 0 then -z else 0
    ownTenants := if t < rest then t else rest }

/-! ## Cost -/

/-- The arguments of the cost functions that are constant during an optimisation. -/
structure Prices (K : Type*) where
  /-- `pel_chp_max` in W -/
  pel : K
  /-- `eta_el` -/
  eta : K
  /-- `modrange_chp` -/
  lo : K
  up : K
  /-- `freq_fac` -/
  freq : K
  /-- `flat_instandh` -/
  flat : Bool
  gas : K
  taxRefund : K
  netz : K
  eex : K
  /-- `strompreis_zukauf` -/
  buy : K
  /-- `aufschlag_verkauf` -/
  markup : K
  /-- `instandh_cost` -/
  upkeep : K
  /-- `penalty_wvk` -/
  penalty : K
  /-- `x ** penalty_pow_instandh` -/
  pow : K → K
  /-- `_instandh_chp_nonflat` of the power in kW -/
  nonflat : K

/-- The entries of `earnings`, `controllers.py:2363-2424, 2563-2623`. -/
structure Earnings (K : Type*) where
  gas : K
  taxRefund : K
  netz : K
  upkeep : K
  eeg : K
  bought : K
  resold : K
  feedBonus : K
  feedEex : K
  ownBonus : K
  ownSold : K

/-- `sum(earnings.values())`. -/
def Earnings.sum (e : Earnings K) : K :=
  e.gas + e.taxRefund + e.netz + e.upkeep + e.eeg + e.bought + e.resold + e.feedBonus + e.feedEex + e.ownBonus +
    e.ownSold

/-- `earnings` for one modulation, `controllers.py:2302-2427, 2505-2626`. -/
def earnings (c : Prices K) (b t x : K) : Earnings K :=
  let p := x * c.pel
  let g := p / (c.eta * 1000)
  let e := balance p b t
  let buyTot := e.buyBase + e.buyTenants
  let ownTot := e.ownBase + e.ownTenants
  let sell := c.buy + 0.8 -- `aufschlag_verkauf` is not used
  { gas := -g * c.gas * c.freq
    taxRefund := g * c.taxRefund * c.freq
    netz := g * c.netz * c.freq
    upkeep := if c.flat then (if x = 0 then 0 else -c.upkeep * c.freq)
      else -c.pow x * c.pel / 1000 * c.nonflat * c.freq
    eeg := c.freq / 1000 * (-e.ownBase * eeg c.pel true - e.rest * eeg c.pel false)
    bought := -buyTot / 1000 * c.buy * c.freq
    resold := buyTot / 1000 * (sell - c.penalty) * c.freq
    feedBonus := bonus feedIn (e.feed / 1000) * c.freq
    feedEex := e.feed / 1000 * c.eex * c.freq
    ownBonus := bonus ownUse (ownTot / 1000) * c.freq
    ownSold := ownTot / 1000 * sell * c.freq }

/-- `_minimizer_input_scalar`, `controllers.py:2432-2632`. -/
def costScalar (c : Prices K) (b t x : K) : K := -(earnings c b t x).sum

/-- The cut at the beginning of `_minimizer_input`, `controllers.py:2296-2297`. -/
def cut (c : Prices K) (x : K) : K :=
  let x := if x < c.lo * 0.6 then 0 else x
  if c.up < x then 1 else x

/-- `_minimizer_input`, `controllers.py:2202-2429`: the cost, and the plan, which is changed in place. -/
def costPlan (c : Prices K) (bs ts xs : List K) : K × List K :=
  let ys := xs.map (cut c)
  (((bs.zip (ts.zip ys)).map fun a => -(earnings c a.1 a.2.1 a.2.2).sum).sum, ys)

end Verif.Tariff
