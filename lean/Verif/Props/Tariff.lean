import Verif.Model.Tariff
import Mathlib.Algebra.Order.Field.Rat
import Mathlib.Tactic.Linarith
import Mathlib.Tactic.Ring
import Mathlib.Tactic.Positivity
import Mathlib.Tactic.FieldSimp

/-!
# C47, C48, C71-C73: cost model of the predictive CHP controller
-/

set_option linter.unusedSectionVars false

namespace Verif.Tariff

variable {K : Type*} [Field K] [LinearOrder K] [IsStrictOrderedRing K]

/-! ## C47 -/

/-- Specification: the bonus of section 7 KWKG as a piecewise linear function of the power in kW, for the rates
`a`, ..., `e` up to 50, 100, 250, 2000 kW and above. -/
def LawBonus (a b c d e p y : K) : Prop :=
  (p ≤ 50 → y = a * p) ∧
  (50 ≤ p → p ≤ 100 → y = a * 50 + b * (p - 50)) ∧
  (100 ≤ p → p ≤ 250 → y = a * 50 + b * 50 + c * (p - 100)) ∧
  (250 ≤ p → p ≤ 2000 → y = a * 50 + b * 50 + c * 150 + d * (p - 250)) ∧
  (2000 ≤ p → y = a * 50 + b * 50 + c * 150 + d * 1750 + e * (p - 2000))

theorem perStep_inf (p s : K) : perStep p (s, none) = max (p - s) 0 := by
  unfold perStep clipStep
  dsimp only
  split_ifs with h
  · rw [max_eq_right h.le, max_self]
  · rfl

theorem perStep_some (p s w : K) : perStep p (s, some w) = min (max (p - s) 0) w := by
  unfold perStep clipStep
  dsimp only
  split_ifs with h
  · rw [max_eq_right h.le, max_self]
  · rfl

theorem bonus_eq (a b c d e p : K) : bonus [a, b, c, d, e] p =
    min (max (p - 0) 0) 50 * a + (min (max (p - 50) 0) 50 * b + (min (max (p - 100) 0) 150 * c +
      (min (max (p - 250) 0) 1750 * d + (max (p - 2000) 0 * e + 0)))) := by
  unfold bonus steps
  simp only [List.map, List.zipWith, List.sum_cons, List.sum_nil]
  rw [perStep_inf, perStep_some, perStep_some,
    perStep_some, perStep_some]

theorem cap_low {p s w : K} (h : p ≤ s) (hw : 0 ≤ w) : min (max (p - s) 0) w = 0 := by
  rw [max_eq_right (by linarith), min_eq_left hw]

theorem cap_mid {p s w : K} (h : s ≤ p) (h' : p ≤ s + w) : min (max (p - s) 0) w = p - s := by
  rw [max_eq_left (by linarith), min_eq_left (by linarith)]

theorem cap_high {p s w : K} (h : s + w ≤ p) (hw : 0 ≤ w) : min (max (p - s) 0) w = w := by
  rw [max_eq_left (by linarith), min_eq_right (by linarith)]

/-- **C47** (the tariff of the law): for every power the bonus is the piecewise linear function of the law, for
feed-in and for own use. -/
theorem C47_tiered_tariff {p : K} (hp : 0 ≤ p) :
    LawBonus 8 6 5 4.4 3.1 p (bonus feedIn p) ∧ LawBonus 4 3 2 1.5 1 p (bonus ownUse p) := by
  have main : ∀ a b c d e : K, LawBonus a b c d e p (bonus [a, b, c, d, e] p) := by
    intro a b c d e
    rw [bonus_eq]
    refine ⟨fun h => ?_, fun h h' => ?_, fun h h' => ?_, fun h h' => ?_, fun h => ?_⟩
    · rw [cap_mid (by linarith) (by linarith), cap_low (by linarith) (by norm_num),
        cap_low (by linarith) (by norm_num), cap_low (by linarith) (by norm_num), max_eq_right (by linarith)]
      ring
    · rw [cap_high (by linarith) (by norm_num), cap_mid (by linarith) (by linarith),
        cap_low (by linarith) (by norm_num), cap_low (by linarith) (by norm_num), max_eq_right (by linarith)]
      ring
    · rw [cap_high (by linarith) (by norm_num), cap_high (by linarith) (by norm_num),
        cap_mid (by linarith) (by linarith), cap_low (by linarith) (by norm_num), max_eq_right (by linarith)]
      ring
    · rw [cap_high (by linarith) (by norm_num), cap_high (by linarith) (by norm_num),
        cap_high (by linarith) (by norm_num), cap_mid (by linarith) (by linarith), max_eq_right (by linarith)]
      ring
    · rw [cap_high (by linarith) (by norm_num), cap_high (by linarith) (by norm_num),
        cap_high (by linarith) (by norm_num), cap_high (by linarith) (by norm_num), max_eq_left (by linarith)]
      ring
  exact ⟨main _ _ _ _ _, main _ _ _ _ _⟩

/-- **C47** (complete distribution): the powers of the tiers add up to the power. -/
theorem C47_tiers_add_up {p : K} (hp : 0 ≤ p) : (steps.map (perStep p)).sum = p := by
  have h : (steps.map (perStep p)).sum = bonus [1, 1, 1, 1, 1] p := by
    simp [bonus, steps, List.zipWith]
  rw [h, bonus_eq]
  rcases le_total p 50 with h1 | h1
  · rw [cap_mid (by linarith) (by linarith), cap_low (by linarith) (by norm_num),
      cap_low (by linarith) (by norm_num), cap_low (by linarith) (by norm_num), max_eq_right (by linarith)]
    ring
  rcases le_total p 100 with h2 | h2
  · rw [cap_high (by linarith) (by norm_num), cap_mid (by linarith) (by linarith),
      cap_low (by linarith) (by norm_num), cap_low (by linarith) (by norm_num), max_eq_right (by linarith)]
    ring
  rcases le_total p 250 with h3 | h3
  · rw [cap_high (by linarith) (by norm_num), cap_high (by linarith) (by norm_num),
      cap_mid (by linarith) (by linarith), cap_low (by linarith) (by norm_num), max_eq_right (by linarith)]
    ring
  rcases le_total p 2000 with h4 | h4
  · rw [cap_high (by linarith) (by norm_num), cap_high (by linarith) (by norm_num),
      cap_high (by linarith) (by norm_num), cap_mid (by linarith) (by linarith), max_eq_right (by linarith)]
    ring
  · rw [cap_high (by linarith) (by norm_num), cap_high (by linarith) (by norm_num),
      cap_high (by linarith) (by norm_num), cap_high (by linarith) (by norm_num), max_eq_left (by linarith)]
    ring

theorem cap_mono {p q s w : K} (h : p ≤ q) : min (max (p - s) 0) w ≤ min (max (q - s) 0) w :=
  min_le_min_right _ (max_le_max_right _ (by linarith))

/-- **C47** (monotone, no jumps): one more kW never earns less than the lowest and never more than the highest
rate; in particular the bonus is increasing and continuous. -/
theorem C47_monotone_continuous {p q : K} (hp : 0 ≤ p) (h : p ≤ q) :
    3.1 * (q - p) ≤ bonus feedIn q - bonus feedIn p ∧ bonus feedIn q - bonus feedIn p ≤ 8 * (q - p) ∧
    1 * (q - p) ≤ bonus ownUse q - bonus ownUse p ∧ bonus ownUse q - bonus ownUse p ≤ 4 * (q - p) := by
  have sp := C47_tiers_add_up hp
  have sq := C47_tiers_add_up (hp.trans h)
  have e : ∀ r : K, (steps.map (perStep r)).sum = bonus [1, 1, 1, 1, 1] r := by
    intro r
    simp [bonus, steps, List.zipWith]
  rw [e, bonus_eq] at sp sq
  unfold feedIn ownUse
  simp only [bonus_eq]
  have h1 := cap_mono (s := 0) (w := 50) h
  have h2 := cap_mono (s := 50) (w := 50) h
  have h3 := cap_mono (s := 100) (w := 150) h
  have h4 := cap_mono (s := 250) (w := 1750) h
  have h5 : max (p - 2000) 0 ≤ max (q - 2000) 0 := max_le_max_right _ (by linarith)
  generalize min (max (p - 0) 0) 50 = a1 at *
  generalize min (max (p - 50) 0) 50 = a2 at *
  generalize min (max (p - 100) 0) 150 = a3 at *
  generalize min (max (p - 250) 0) 1750 = a4 at *
  generalize max (p - 2000) 0 = a5 at *
  generalize min (max (q - 0) 0) 50 = b1 at *
  generalize min (max (q - 50) 0) 50 = b2 at *
  generalize min (max (q - 100) 0) 150 = b3 at *
  generalize min (max (q - 250) 0) 1750 = b4 at *
  generalize max (q - 2000) 0 = b5 at *
  norm_num
  refine ⟨?_, ?_, ?_, ?_⟩ <;> linarith

/-- **C47** (bounds): the bonus is between 0 and the rate of the first tier times the power. -/
theorem C47_bounds {p : K} (hp : 0 ≤ p) :
    0 ≤ bonus feedIn p ∧ bonus feedIn p ≤ 8 * p ∧ 0 ≤ bonus ownUse p ∧ bonus ownUse p ≤ 4 * p := by
  obtain ⟨h1, h2, h3, h4⟩ := C47_monotone_continuous le_rfl hp
  have z1 : bonus feedIn (0 : K) = 0 := by
    rw [((C47_tiered_tariff le_rfl).1).1 (by norm_num)]
    ring
  have z2 : bonus ownUse (0 : K) = 0 := by
    rw [((C47_tiered_tariff le_rfl).2).1 (by norm_num)]
    ring
  rw [z1, sub_zero, sub_zero] at h1 h2
  rw [z2, sub_zero, sub_zero] at h3 h4
  refine ⟨le_trans (by positivity) h1, h2, le_trans (by positivity) h3, h4⟩

/-- A plant with 120 kW: 50 kW, 50 kW and 20 kW in the first tiers. -/
example : bonus feedIn (120 : ℚ) = 8 * 50 + 6 * 50 + 5 * 20 := by decide +kernel

/-! ## C48 -/

/-- **C48**: production is own use plus feed-in, each demand is own use plus purchase, nothing is negative, and
electricity is never bought and fed in at the same time. -/
theorem C48_balance {p b t : K} (hp : 0 ≤ p) (hb : 0 ≤ b) (ht : 0 ≤ t) :
    let e := balance p b t
    p = e.ownBase + e.ownTenants + e.feed ∧ b = e.ownBase + e.buyBase ∧ t = e.ownTenants + e.buyTenants ∧
    0 ≤ e.ownBase ∧ 0 ≤ e.ownTenants ∧ 0 ≤ e.feed ∧ 0 ≤ e.buyBase ∧ 0 ≤ e.buyTenants ∧
    (0 < e.feed → e.buyBase = 0 ∧ e.buyTenants = 0) ∧ (0 < e.ownTenants → e.buyBase = 0) := by
  intro e
  simp only [e, balance]
  by_cases h1 : b < p
  · have h1' : b - p < 0 := by linarith
    simp only [if_pos h1, if_pos h1']
    by_cases h2 : t - (p - b) < 0
    · have h2' : t < p - b := by linarith
      simp only [if_pos h2, if_pos h2']
      refine ⟨by ring, by ring, by ring, hb, ht, by linarith, le_rfl, le_rfl,
        fun _ => ⟨by trivial, by trivial⟩, fun _ => by trivial⟩
    · have h2' : ¬ t < p - b := by linarith
      simp only [if_neg h2, if_neg h2']
      refine ⟨by ring, by ring, by ring, hb, by linarith, le_rfl, le_rfl, by linarith, fun h => absurd h (lt_irrefl _),
        fun _ => by trivial⟩
  · have h1' : ¬ b - p < 0 := by linarith
    have h2 : ¬ t - (p - p) < 0 := by linarith
    have h2' : ¬ t < p - p := by linarith
    simp only [if_neg h1, if_neg h1', if_neg h2, if_neg h2']
    refine ⟨by ring, by ring, by ring, hp, by linarith, le_rfl, by linarith, by linarith,
      fun h => absurd h (lt_irrefl _), fun h => absurd h (by linarith)⟩

/-- A production of 30 kW with 10 kW base load and 5 kW tenant demand: 15 kW are fed in. -/
example : (balance (30000 : ℚ) 10000 5000).feed = 15000 := by decide +kernel

/-! ## C71 -/

/-- The surcharge in ct per kWh that own use of a plant with `kw` kW is charged with, as the documentation of
`_eeg_umlage` states it: nothing up to 10 kW, 40 % below 100 kW, the full one above. -/
def LawSurcharge (kw y : K) : Prop :=
  (kw ≤ 10 → y = 0) ∧ (10 < kw → kw < 100 → y = 0.4 * 6.756) ∧ (100 ≤ kw → y = 6.756)

/-- **C71**, partial: `_eeg_umlage` itself charges own use as documented for a power given in kW, and everybody
else fully. -/
theorem C71_surcharge_partial (kw : K) : LawSurcharge kw (eeg kw true) ∧ eeg kw false = 6.756 := by
  refine ⟨⟨fun h => ?_, fun h h' => ?_, fun h => ?_⟩, by simp [eeg]⟩
  · have : ¬ (100 : K) ≤ kw := by linarith
    simp [eeg, this, h]
  · have h1 : ¬ (100 : K) ≤ kw := by linarith
    have h2 : ¬ kw ≤ 10 := by linarith
    simp [eeg, h1, h2, mul_comm]
  · simp [eeg, h]

/-- **C71** is false of the cost functions: they pass the power in W, so every plant of at least 100 W is charged
with the full surcharge for the whole production, while up to 10 kW nothing would be due for own use. -/
theorem C71_fails_unit (c : Prices K) (b t x : K) (h : 100 ≤ c.pel) :
    (earnings c b t x).eeg = -(c.freq / 1000 * (x * c.pel * 6.756)) := by
  have h1 : eeg c.pel true = 6.756 := by simp [eeg, h]
  have h2 : eeg c.pel false = 6.756 := by simp [eeg]
  simp only [earnings, h1, h2, balance]
  ring

/-- A plant with 9 kW in a building with 9 kW base load: 15.2 ct per quarter of an hour instead of 0. -/
example :
    let c : Prices ℚ := ⟨9000, 3 / 10, 1 / 2, 1, 1 / 4, true, 4, 0, 0, 4, 25, 0, 69, 0, id, 3⟩
    (earnings c 9000 0 1).eeg = -15201 / 1000 ∧ LawSurcharge (c.pel / 1000) 0 := by
  refine ⟨by decide +kernel, fun _ => rfl, fun h => ?_, fun h => ?_⟩
  · norm_num at h
  · norm_num at h

/-! ## C72 -/

/-- **C72**, partial: for plans with entries that are 0 or between the modulation limits, the cost of the plan is
the sum of the costs which the scalar version finds for its entries, and the plan is not changed.  Missing: other
entries (`C72_fails_cut`). -/
theorem C72_plan_cost_partial (c : Prices K) (hlo : 0 ≤ c.lo) (hup : 0 ≤ c.up) {bs ts xs : List K}
    (hx : ∀ x ∈ xs, x = 0 ∨ c.lo ≤ x ∧ x ≤ c.up) :
    costPlan c bs ts xs = (((bs.zip (ts.zip xs)).map fun a => costScalar c a.1 a.2.1 a.2.2).sum, xs) := by
  have : xs.map (cut c) = xs := by
    conv_rhs => rw [← List.map_id xs]
    refine List.map_congr_left fun x h => ?_
    have key : (if x < c.lo * 0.6 then 0 else x) = x := by
      rcases hx x h with rfl | ⟨h1, _⟩
      · simp
      · rw [if_neg]
        norm_num
        linarith
    unfold cut
    dsimp only
    rw [key, if_neg]
    · rfl
    · rcases hx x h with rfl | ⟨_, h2⟩
      · exact not_lt.2 hup
      · exact not_lt.2 h2
  unfold costPlan costScalar
  dsimp only
  rw [this]

/-! What the cost of one entry consists of, spelled out for the three situations of the plant. -/

theorem bonus_zero (r : List K) : bonus r 0 = 0 := by
  unfold bonus steps perStep clipStep
  rcases r with _ | ⟨a, _ | ⟨b, _ | ⟨c, _ | ⟨d, _ | ⟨e, r⟩⟩⟩⟩⟩ <;> norm_num [List.zipWith]

/-- **C72** (standstill): the whole demand is bought and sold again. -/
theorem C72_cost_standstill (c : Prices K) {b t : K} (hf : c.flat = true) (hb : 0 ≤ b) (ht : 0 ≤ t) :
    costScalar c b t 0 = (b + t) / 1000 * c.freq * (c.buy - (c.buy + 0.8 - c.penalty)) := by
  unfold costScalar Earnings.sum earnings balance
  simp only [hf, zero_mul, zero_div, if_true, neg_zero, not_lt.2 hb, not_lt.2 ht, sub_zero, if_false, zero_add,
    mul_zero, bonus_zero, sub_self, add_zero]
  ring

/-- **C72** (plant below the base load): gas and upkeep are paid, the own electricity is charged with the surcharge
for own use, sold and rewarded, the missing electricity is bought and sold again, nothing is fed in. -/
theorem C72_cost_below_base_load (c : Prices K) {b t x : K} (hf : c.flat = true) (hx : x ≠ 0)
    (hp : x * c.pel ≤ b) (ht : 0 ≤ t) :
    costScalar c b t x = c.freq * (x * c.pel / (c.eta * 1000) * (c.gas - c.taxRefund - c.netz) + c.upkeep
      + x * c.pel / 1000 * eeg c.pel true - x * c.pel / 1000 * (c.buy + 0.8)
      - bonus ownUse (x * c.pel / 1000)
      + (b - x * c.pel + t) / 1000 * (c.buy - (c.buy + 0.8 - c.penalty))) := by
  unfold costScalar Earnings.sum earnings balance
  have h1 : ¬ b - x * c.pel < 0 := by linarith
  simp only [hf, if_true, if_neg hx, if_neg (not_lt.2 hp), if_neg h1, sub_self, sub_zero, if_neg (not_lt.2 ht),
    zero_mul, zero_div, add_zero, bonus_zero]
  ring

/-- **C72** (plant above the whole demand): the demand is covered, the rest is fed in for the bonus and the price at
the exchange, and everything but the own base load is charged with the full surcharge. -/
theorem C72_cost_surplus (c : Prices K) {b t x : K} (hf : c.flat = true) (hx : x ≠ 0) (ht : 0 ≤ t)
    (hp : b + t < x * c.pel) :
    costScalar c b t x = c.freq * (x * c.pel / (c.eta * 1000) * (c.gas - c.taxRefund - c.netz) + c.upkeep
      + b / 1000 * eeg c.pel true + (x * c.pel - b) / 1000 * eeg c.pel false
      - (b + t) / 1000 * (c.buy + 0.8) - bonus ownUse ((b + t) / 1000)
      - (x * c.pel - b - t) / 1000 * c.eex - bonus feedIn ((x * c.pel - b - t) / 1000)) := by
  unfold costScalar Earnings.sum earnings balance
  have h1 : b < x * c.pel := by linarith
  have h2 : b - x * c.pel < 0 := by linarith
  have h3 : t - (x * c.pel - b) < 0 := by linarith
  have h4 : t < x * c.pel - b := by linarith
  have h5 : -(t - (x * c.pel - b)) = x * c.pel - b - t := by ring
  simp only [hf, if_true, if_neg hx, if_pos h1, if_pos h2, if_pos h3, if_pos h4, h5, add_zero]
  ring

/-- 10 kW plant, 3 kW base load, 2 kW tenants: at full load 5 kW are fed in, at 20 % 3 kW are bought. -/
example :
    let c : Prices ℚ := ⟨10000, 3 / 10, 1 / 2, 1, 1, true, 4, 0, 0, 4, 25, 0, 69, 0, id, 3⟩
    c.flat = true ∧ 3000 + 2000 < (1 : ℚ) * c.pel ∧ 1 / 5 * c.pel ≤ 3000 ∧
      costScalar c 3000 2000 1 = 4567 / 75 := by
  decide +kernel

/-- **C72** is false of the code for other plans: an entry between 0 and 60 % of the lower limit is set to zero and
an entry above the upper limit to 1, in the array of the caller, and the cost is that of the changed plan. -/
theorem C72_fails_cut :
    let c : Prices ℚ := ⟨10000, 3 / 10, 1 / 2, 4 / 5, 1 / 4, true, 4, 0, 0, 4, 25, 0, 69, 0, id, 3⟩
    (costPlan c [9000, 9000] [0, 0] [1 / 4, 9 / 10]).2 = [0, 1] ∧
    (costPlan c [9000, 9000] [0, 0] [1 / 4, 9 / 10]).1 ≠ costScalar c 9000 0 (1 / 4) + costScalar c 9000 0 (9 / 10) := by
  decide +kernel

/-! ## C73 -/

/-- **C73**, partial: own and bought electricity are sold at the documented price `strompreis_zukauf + aufschlag_verkauf`
if `aufschlag_verkauf` is 0.8 ct.  Missing: all other values (`C73_fails_markup`). -/
theorem C73_selling_price_partial (c : Prices K) (h : c.markup = 0.8) (b t x : K) :
    let e := balance (x * c.pel) b t
    (earnings c b t x).ownSold = (e.ownBase + e.ownTenants) / 1000 * (c.buy + c.markup) * c.freq ∧
    (earnings c b t x).resold =
      (e.buyBase + e.buyTenants) / 1000 * (c.buy + c.markup - c.penalty) * c.freq := by
  simp only [earnings, h, and_self]

/-- **C73** is false of the code for every other setting: `aufschlag_verkauf` has no influence on the cost of any
plan. -/
theorem C73_fails_markup (c : Prices K) (m : K) (bs ts xs : List K) :
    costPlan { c with markup := m } bs ts xs = costPlan c bs ts xs := rfl

/-- With a markup of 5 ct one kWh of own electricity should earn 30 ct; it earns 25.8 ct. -/
example :
    let c : Prices ℚ := ⟨10000, 3 / 10, 1 / 2, 1, 1, true, 4, 0, 0, 4, 25, 5, 69, 0, id, 3⟩
    (earnings c 10000 0 (1 / 10)).ownSold = 258 / 10 ∧ c.buy + c.markup = 30 := by
  decide +kernel

end Verif.Tariff
