import Verif.Props.PriceEffects
import Mathlib.Tactic.Positivity

/-!
# C196: local minima of the cost

The optimisers look for local minima (`minimize_scalar(method='bounded')`, `controllers.py:2074-2100`, and SLSQP,
`controllers.py:1826-1860`); both are outside of the model.  Here: when a local minimum is a minimum.
-/

set_option linter.unusedSectionVars false

namespace Verif.Tariff

variable {K : Type*} [Field K] [LinearOrder K] [IsStrictOrderedRing K]

theorem tier (q s w : K) (hw : 0 ≤ w) : min (max (q - s) 0) w = min q (s + w) - min q s := by
  rcases le_total q s with h | h <;> rcases le_total q (s + w) with h2 | h2
  · rw [max_eq_right (by linarith), min_eq_left hw, min_eq_left h2, min_eq_left h]; ring
  · have : q = s := by linarith
    have : w = 0 := by linarith
    subst this
    simp
  · rw [max_eq_left (by linarith), min_eq_left (by linarith), min_eq_left h2, min_eq_right h]
  · rw [max_eq_left (by linarith), min_eq_right (by linarith), min_eq_right h2, min_eq_right h]; ring

theorem top (q s : K) : max (q - s) 0 = q - min q s := by
  rcases le_total q s with h | h
  · rw [max_eq_right (by linarith), min_eq_left h]; ring
  · rw [max_eq_left (by linarith), min_eq_right h]

/-- The bonus as a sum of capped powers. -/
theorem bonus_caps (a b c d e : K) {q : K} (hq : 0 ≤ q) : bonus [a, b, c, d, e] q =
    e * q + (a - b) * min q 50 + (b - c) * min q 100 + (c - d) * min q 250 + (d - e) * min q 2000 := by
  rw [bonus_eq, tier _ _ _ (by norm_num), tier _ _ _ (by norm_num), tier _ _ _ (by norm_num), tier _ _ _ (by norm_num), top]
  norm_num only
  rw [min_eq_right hq]
  ring

theorem min_surplus (P w s : K) (hs : 0 ≤ s) : min (P - min P w) s = min P (w + s) - min P w := by
  rcases le_total P w with h | h
  · rw [min_eq_left h, min_eq_left (by linarith), min_eq_left (by linarith)]
  · rw [min_eq_right h]
    rcases le_total P (w + s) with h2 | h2
    · rw [min_eq_left (by linarith), min_eq_left h2]
    · rw [min_eq_right (by linarith), min_eq_right h2]; ring

/-- The cost of a running step as a sum of capped powers. -/
theorem cost_caps (c : Prices K) {b t x : K} (hf : c.flat = true) (hp : 100 ≤ c.pel) (hb : 0 ≤ b) (ht : 0 ≤ t) (hx : 0 < x) :
    costScalar c b t x = c.freq * (c.upkeep + (b + t) / 1000 * (c.penalty - 0.8) +
      ((c.gas - c.taxRefund - c.netz) / c.eta + 6.756 - 3.1 - c.eex) * (x * c.pel / 1000) -
      (c.buy + c.penalty - c.eex - 7) * min (x * c.pel / 1000) ((b + t) / 1000) -
      (2 * min (x * c.pel / 1000) ((b + t) / 1000 + 50) + min (x * c.pel / 1000) ((b + t) / 1000 + 100) +
        0.6 * min (x * c.pel / 1000) ((b + t) / 1000 + 250) + 1.3 * min (x * c.pel / 1000) ((b + t) / 1000 + 2000)) -
      (min (x * c.pel / 1000) (min ((b + t) / 1000) 50) + min (x * c.pel / 1000) (min ((b + t) / 1000) 100) +
        0.5 * min (x * c.pel / 1000) (min ((b + t) / 1000) 250) + 0.5 * min (x * c.pel / 1000) (min ((b + t) / 1000) 2000))) := by
  have hP : 0 ≤ x * c.pel := mul_nonneg hx.le (by linarith)
  obtain ⟨h1, h2, h3⟩ := balance_spec (x * c.pel) hb ht
  have hown : (balance (x * c.pel) b t).ownBase + (balance (x * c.pel) b t).rest = x * c.pel := by
    unfold balance
    simp
  have hE : eeg c.pel true = 6.756 ∧ eeg c.pel false = 6.756 := by
    unfold eeg
    rw [if_pos (Or.inl hp), if_pos (Or.inl hp)]
    exact ⟨rfl, rfl⟩
  have hmin : min (x * c.pel) (b + t) / 1000 = min (x * c.pel / 1000) ((b + t) / 1000) :=
    min_div_div_right (by norm_num) _ _ |>.symm
  have hfe : max 0 (x * c.pel - (b + t)) / 1000 = x * c.pel / 1000 - min (x * c.pel / 1000) ((b + t) / 1000) := by
    rw [max_comm, top, ← hmin]; ring
  have hbu : max 0 (b + t - x * c.pel) / 1000 = (b + t) / 1000 - min (x * c.pel / 1000) ((b + t) / 1000) := by
    rw [max_comm, top, min_comm, ← hmin]; ring
  have hge : 0 ≤ min (x * c.pel / 1000) ((b + t) / 1000) := le_min (by positivity) (by positivity)
  have hfe0 : 0 ≤ x * c.pel / 1000 - min (x * c.pel / 1000) ((b + t) / 1000) := sub_nonneg.2 (min_le_left _ _)
  have hgas : x * c.pel / (c.eta * 1000) = x * c.pel / 1000 / c.eta := by
    rw [mul_comm c.eta, div_mul_eq_div_div]
  have hR : c.freq / 1000 * (-(balance (x * c.pel) b t).ownBase * 6.756 - (balance (x * c.pel) b t).rest * 6.756) =
      -(c.freq * 6.756 * (x * c.pel / 1000)) := by
    linear_combination (-c.freq / 1000 * 6.756) * hown
  unfold costScalar
  simp only [earnings, Earnings.sum, hf, if_true, if_neg hx.ne', hE.1, hE.2, h1, h2, h3, hR]
  rw [neg_div (1000 : K), hbu, hfe, hmin, hgas]
  unfold feedIn ownUse
  rw [bonus_caps _ _ _ _ _ hfe0, bonus_caps _ _ _ _ _ hge]
  rw [min_surplus _ _ _ (by norm_num), min_surplus _ _ _ (by norm_num), min_surplus _ _ _ (by norm_num),
    min_surplus _ _ _ (by norm_num)]
  simp only [min_assoc]
  ring

/-- Specification: the cost as a function of the modulation has no dents: on the way from one modulation to another it is never above the
line between their costs. -/
def NoDents (lo up : K) (f : K → K) : Prop :=
  ∀ x y l m : K, lo ≤ x → x ≤ up → lo ≤ y → y ≤ up → 0 ≤ l → 0 ≤ m → l + m = 1 → f (l * x + m * y) ≤ l * f x + m * f y

theorem cap_concave (s d X Y : K) {l m : K} (hl : 0 ≤ l) (hm : 0 ≤ m) (h : l + m = 1) :
    l * min (X * d / 1000) s + m * min (Y * d / 1000) s ≤ min ((l * X + m * Y) * d / 1000) s := by
  have a1 := mul_le_mul_of_nonneg_left (min_le_left (X * d / 1000) s) hl
  have a2 := mul_le_mul_of_nonneg_left (min_le_left (Y * d / 1000) s) hm
  have a3 := mul_le_mul_of_nonneg_left (min_le_right (X * d / 1000) s) hl
  have a4 := mul_le_mul_of_nonneg_left (min_le_right (Y * d / 1000) s) hm
  refine le_min ?_ ?_
  · linear_combination a1 + a2
  · linear_combination a3 + a4 + s * h

/-- **C196**, partial (shape): if bought electricity, with the penalty, costs at least 7 ct more than the exchange price, the cost of a step
with the plant running has no dents.  Missing: other prices (`C196_fails_prices`) and standstill (`C196_fails_standstill`). -/
theorem C196_shape_partial (c : Prices K) {b t : K} (hf : c.flat = true) (hp : 100 ≤ c.pel) (hq : 0 ≤ c.freq) (hlo : 0 < c.lo)
    (hb : 0 ≤ b) (ht : 0 ≤ t) (hprice : c.eex + 7 ≤ c.buy + c.penalty) : NoDents c.lo c.up (costScalar c b t) := by
  intro x y l m hx _ hy _ hl hm h
  have hz : 0 < l * x + m * y := by
    rcases hl.eq_or_lt with rfl | hl'
    · have : m = 1 := by linarith
      subst this
      linarith
    · have := mul_pos hl' (hlo.trans_le hx)
      have := mul_nonneg hm (hlo.le.trans hy)
      linarith
  rw [cost_caps c hf hp hb ht hz, cost_caps c hf hp hb ht (hlo.trans_le hx), cost_caps c hf hp hb ht (hlo.trans_le hy)]
  have k := fun s => cap_concave s c.pel x y hl hm h
  have k1 := k ((b + t) / 1000 + 50)
  have k2 := k ((b + t) / 1000 + 100)
  have k3 := k ((b + t) / 1000 + 250)
  have k4 := k ((b + t) / 1000 + 2000)
  have k5 := k (min ((b + t) / 1000) 50)
  have k6 := k (min ((b + t) / 1000) 100)
  have k7 := k (min ((b + t) / 1000) 250)
  have k8 := k (min ((b + t) / 1000) 2000)
  have k9 := mul_le_mul_of_nonneg_left (k ((b + t) / 1000)) (sub_nonneg.2 hprice)
  have key : ∀ u v w : K, u ≤ l * v + m * w → c.freq * u ≤ l * (c.freq * v) + m * (c.freq * w) := fun u v w huv => by
    have := mul_le_mul_of_nonneg_left huv hq
    linarith
  refine key _ _ _ ?_
  linear_combination k9 + 2 * k1 + k2 + 0.6 * k3 + 1.3 * k4 + k5 + k6 + 0.5 * k7 + 0.5 * k8 -
    (c.upkeep + (b + t) / 1000 * (c.penalty - 0.8)) * h

/-- **C196**, partial (local minima): under the same conditions a modulation that is cheaper than its neighbours is the cheapest of the
modulations with the plant running. -/
theorem C196_local_partial (c : Prices K) {b t x r : K} (hf : c.flat = true) (hp : 100 ≤ c.pel) (hq : 0 ≤ c.freq) (hlo : 0 < c.lo)
    (hb : 0 ≤ b) (ht : 0 ≤ t) (hprice : c.eex + 7 ≤ c.buy + c.penalty) (hx : c.lo ≤ x) (hx' : x ≤ c.up) (hr : 0 < r)
    (hloc : ∀ y, c.lo ≤ y → y ≤ c.up → |y - x| < r → costScalar c b t x ≤ costScalar c b t y) :
    ∀ y, c.lo ≤ y → y ≤ c.up → costScalar c b t x ≤ costScalar c b t y := by
  intro y hy hy'
  have hs := C196_shape_partial c hf hp hq hlo hb ht hprice
  -- a point on the way to `y` near `x`
  have hd : 0 < |y - x| + r := by positivity
  have hm0 : 0 < r / (|y - x| + r) := by positivity
  have hm1 : r / (|y - x| + r) ≤ 1 := by
    rw [div_le_one hd]
    have := abs_nonneg (y - x)
    linarith
  have hle := hs x y (1 - r / (|y - x| + r)) (r / (|y - x| + r)) hx hx' hy hy' (by linarith) hm0.le (by ring)
  have hnear : |(1 - r / (|y - x| + r)) * x + r / (|y - x| + r) * y - x| < r := by
    rw [show (1 - r / (|y - x| + r)) * x + r / (|y - x| + r) * y - x = r / (|y - x| + r) * (y - x) by ring, abs_mul,
      abs_of_pos hm0, div_mul_eq_mul_div, div_lt_iff₀ hd]
    exact mul_lt_mul_of_pos_left (by linarith) hr
  have h1 := mul_le_mul_of_nonneg_left hx (sub_nonneg.2 hm1)
  have h2 := mul_le_mul_of_nonneg_left hy hm0.le
  have h3 := mul_le_mul_of_nonneg_left hx' (sub_nonneg.2 hm1)
  have h4 := mul_le_mul_of_nonneg_left hy' hm0.le
  have := hloc _ (by linarith) (by linarith) hnear
  have h5 : r / (|y - x| + r) * costScalar c b t x ≤ r / (|y - x| + r) * costScalar c b t y := by linarith
  exact le_of_mul_le_mul_left h5 hm0

/-- The prices of the example (C194) meet the conditions: full power is cheaper than its neighbours. -/
example : examplePrices.eex + 7 ≤ examplePrices.buy + examplePrices.penalty ∧ (0 : ℚ) < examplePrices.lo ∧ 100 ≤ examplePrices.pel ∧
    costScalar examplePrices 5000 5000 1 < costScalar examplePrices 5000 5000 (9 / 10) := by decide +kernel

/-- Prices for which feeding in is worth more than own use. -/
def feedPrices : Prices ℚ := { examplePrices with gas := 2, eex := 10, buy := 5, penalty := 0 }

/-- **C196** fails for prices that make feeding in worth more than own use: half power is cheaper than its neighbours, though full power is
cheaper still. -/
theorem C196_fails_prices : (∀ y, feedPrices.lo ≤ y → y ≤ feedPrices.up → |y - 1 / 2| < 1 / 10 →
    costScalar feedPrices 3000 3000 (1 / 2) ≤ costScalar feedPrices 3000 3000 y) ∧
    costScalar feedPrices 3000 3000 1 < costScalar feedPrices 3000 3000 (1 / 2) := by
  refine ⟨fun y h1 _ h3 => ?_, by decide +kernel⟩
  have h1' : (1 / 2 : ℚ) ≤ y := h1
  have h3' := (abs_lt.1 h3).2
  have e : feedPrices.pel = 10000 := rfl
  have hle : ∀ z : ℚ, 1 / 2 ≤ z → z ≤ 3 / 5 → costScalar feedPrices 3000 3000 z = feedPrices.freq * (feedPrices.upkeep +
      (3000 + 3000) / 1000 * (feedPrices.penalty - 0.8) + ((feedPrices.gas - feedPrices.taxRefund - feedPrices.netz) /
      feedPrices.eta + 6.756 - 3.1 - feedPrices.eex) * (z * 10) - (feedPrices.buy + feedPrices.penalty - feedPrices.eex - 7) *
      (z * 10) - 4.9 * (z * 10) - 3 * (z * 10)) := by
    intro z hz hz'
    rw [cost_caps feedPrices rfl (by rw [e]; norm_num) (by norm_num) (by norm_num) (by linarith), e]
    rw [show z * 10000 / 1000 = z * 10 by ring]
    have : z * 10 ≤ 6 := by linarith
    have m1 : ∀ s : ℚ, 6 ≤ s → min (z * 10) s = z * 10 := fun s hs => min_eq_left (this.trans hs)
    rw [m1 _ (by norm_num), m1 _ (by norm_num), m1 _ (by norm_num), m1 _ (by norm_num), m1 _ (by norm_num), m1 _ (by norm_num),
      m1 _ (by norm_num), m1 _ (by norm_num), m1 _ (by norm_num)]
    ring
  rw [hle _ le_rfl (by norm_num), hle y h1' (by linarith)]
  simp only [feedPrices, examplePrices]
  norm_num
  linarith

/-- **C196** fails at standstill: below 0.6 of the lowest modulation the cost of a plan does not depend on the modulation, so that standstill
is as cheap as its neighbours, though full power may be cheaper. -/
theorem C196_fails_standstill : (∀ (c : Prices K) (b t y : K), 0 ≤ c.lo → 0 ≤ c.up → y < c.lo * 0.6 →
    (costPlan c [b] [t] [y]).1 = (costPlan c [b] [t] [0]).1) ∧
    (costPlan examplePrices [5000] [5000] [1]).1 < (costPlan examplePrices [5000] [5000] [0]).1 := by
  refine ⟨fun c b t y hlo hup hy => ?_, by decide +kernel⟩
  have h0 : ∀ z, z < c.lo * 0.6 ∨ z = 0 → cut c z = 0 := by
    intro z hz
    have : (if z < c.lo * 0.6 then 0 else z) = 0 := by
      rcases hz with h | rfl
      · exact if_pos h
      · simp
    unfold cut
    dsimp only
    rw [this, if_neg (not_lt.2 hup)]
  unfold costPlan
  simp only [List.map_cons, List.map_nil, h0 y (Or.inl hy), h0 0 (Or.inr rfl)]

end Verif.Tariff
