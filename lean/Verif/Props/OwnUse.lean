import Verif.Props.Tariff

/-!
# C213: own use first, degressive bonus
-/

namespace Verif.Tariff

variable {K : Type*} [Field K] [LinearOrder K] [IsStrictOrderedRing K]

/-- Specification: a way to distribute the power `p` of the plant among base load `b`, tenants `t` and grid. -/
structure Distribution (p b t x y z : K) : Prop where
  total : x + y + z = p
  base : 0 ≤ x ∧ x ≤ b
  tenants : 0 ≤ y ∧ y ≤ t
  grid : 0 ≤ z

/-- **C213** (own use first): no distribution of the power of the plant needs less purchased electricity, feeds less into the grid, or
gives more to the base load than the distribution that is charged. -/
theorem C213_own_use_first {p b t x y z : K} (h : Distribution p b t x y z) :
    let e := balance p b t
    Distribution p b t e.ownBase e.ownTenants e.feed ∧ e.buyBase + e.buyTenants ≤ (b - x) + (t - y) ∧ e.feed ≤ z ∧ x ≤ e.ownBase := by
  obtain ⟨h1, ⟨h2, h3⟩, ⟨h4, h5⟩, h6⟩ := h
  intro e
  obtain ⟨q1, q2, q3, q4, q5, q6, q7, q8, -, -⟩ := C48_balance (p := p) (b := b) (t := t) (by linarith) (by linarith) (by linarith)
  change p = e.ownBase + e.ownTenants + e.feed at q1
  change b = e.ownBase + e.buyBase at q2
  change t = e.ownTenants + e.buyTenants at q3
  change 0 ≤ e.ownBase at q4
  change 0 ≤ e.ownTenants at q5
  change 0 ≤ e.feed at q6
  change 0 ≤ e.buyBase at q7
  change 0 ≤ e.buyTenants at q8
  have hf : e.feed ≤ z := by
    simp only [e, balance]
    split_ifs <;> linarith
  refine ⟨⟨by linarith, ⟨q4, by linarith⟩, ⟨q5, by linarith⟩, q6⟩, by linarith, hf, ?_⟩
  simp only [e, balance]
  split_ifs <;> linarith

/-- **C213** (more power): a higher power of the plant never leads to more purchase, less own use or less feed-in. -/
theorem C213_more_power {p q b t : K} (h : p ≤ q) :
    let e := balance p b t
    let f := balance q b t
    f.buyBase ≤ e.buyBase ∧ f.buyTenants ≤ e.buyTenants ∧ e.ownBase ≤ f.ownBase ∧ e.ownTenants ≤ f.ownTenants ∧ e.feed ≤ f.feed := by
  intro e f
  simp only [e, f, balance]
  refine ⟨?_, ?_, ?_, ?_, ?_⟩ <;> split_ifs <;> linarith

theorem cap_split {p s w : K} (hw : 0 ≤ w) : min (max (p - s) 0) w = min p (s + w) - min p s := by
  rcases le_total p s with h | h
  · rw [cap_low h hw, min_eq_left h, min_eq_left (by linarith), sub_self]
  rcases le_total p (s + w) with h' | h'
  · rw [cap_mid h h', min_eq_left h', min_eq_right h]
  · rw [cap_high h' hw, min_eq_right h', min_eq_right h]
    ring

theorem bonus_mins {a b c d e p : K} (hp : 0 ≤ p) : bonus [a, b, c, d, e] p =
    (a - b) * min p 50 + (b - c) * min p 100 + (c - d) * min p 250 + (d - e) * min p 2000 + e * p := by
  rw [bonus_eq, cap_split (by norm_num), cap_split (by norm_num), cap_split (by norm_num),
    cap_split (by norm_num), min_eq_right hp]
  have h : max (p - 2000) 0 = p - min p 2000 := by
    rcases le_total p 2000 with h | h
    · rw [max_eq_right (by linarith), min_eq_left h, sub_self]
    · rw [max_eq_left (by linarith), min_eq_right h]
  rw [h]
  norm_num
  ring

theorem min_concave {p q d s : K} (h : p ≤ q) (hd : 0 ≤ d) : min (q + d) s - min q s ≤ min (p + d) s - min p s := by
  simp only [min_def]
  split_ifs <;> linarith

theorem bonus_concave {a b c d e p q x : K} (hab : b ≤ a) (hbc : c ≤ b) (hcd : d ≤ c) (hde : e ≤ d) (hp : 0 ≤ p) (h : p ≤ q) (hx : 0 ≤ x) :
    bonus [a, b, c, d, e] (q + x) - bonus [a, b, c, d, e] q ≤ bonus [a, b, c, d, e] (p + x) - bonus [a, b, c, d, e] p := by
  rw [bonus_mins (by linarith), bonus_mins (by linarith), bonus_mins (by linarith), bonus_mins hp]
  have h1 := mul_le_mul_of_nonneg_left (min_concave (s := 50) h hx) (sub_nonneg.2 hab)
  have h2 := mul_le_mul_of_nonneg_left (min_concave (s := 100) h hx) (sub_nonneg.2 hbc)
  have h3 := mul_le_mul_of_nonneg_left (min_concave (s := 250) h hx) (sub_nonneg.2 hcd)
  have h4 := mul_le_mul_of_nonneg_left (min_concave (s := 2000) h hx) (sub_nonneg.2 hde)
  linarith

/-- **C213** (degressive bonus): the larger the plant, the less is earned by additional power. -/
theorem C213_degressive {p q x : K} (hp : 0 ≤ p) (h : p ≤ q) (hx : 0 ≤ x) :
    bonus feedIn (q + x) - bonus feedIn q ≤ bonus feedIn (p + x) - bonus feedIn p ∧
      bonus ownUse (q + x) - bonus ownUse q ≤ bonus ownUse (p + x) - bonus ownUse p := by
  constructor <;> exact bonus_concave (by norm_num) (by norm_num) (by norm_num) (by norm_num) hp h hx

/-- **C213** (two plants): two plants never earn less bonus than one plant with their common power. -/
theorem C213_two_plants {p q : K} (hp : 0 ≤ p) (hq : 0 ≤ q) :
    bonus feedIn (p + q) ≤ bonus feedIn p + bonus feedIn q ∧ bonus ownUse (p + q) ≤ bonus ownUse p + bonus ownUse q := by
  obtain ⟨h1, h2⟩ := C213_degressive le_rfl hp hq
  have z1 : bonus feedIn (0 : K) = 0 := bonus_zero _
  have z2 : bonus ownUse (0 : K) = 0 := bonus_zero _
  rw [zero_add] at h1 h2
  constructor <;> linarith

/-- **C213** (own use earns less): the bonus for own use is at most half of the bonus for feed-in. -/
theorem C213_own_use_half {p : K} (hp : 0 ≤ p) : 2 * bonus ownUse p ≤ bonus feedIn p := by
  unfold ownUse feedIn
  rw [bonus_mins hp, bonus_mins hp]
  have h1 : min p 50 ≤ min p 100 := min_le_min_left _ (by norm_num)
  have h2 : min p 100 ≤ min p 250 := min_le_min_left _ (by norm_num)
  have h3 : min p 250 ≤ min p 2000 := min_le_min_left _ (by norm_num)
  have h4 : min p 2000 ≤ p := min_le_left _ _
  norm_num
  linarith

/-- 10 kW of the plant, 4 kW base load, 3 kW of the tenants: 1 kW could be withheld from the tenants, but then more is purchased. -/
example : Distribution (10 : ℚ) 4 3 4 2 4 ∧ (balance (10 : ℚ) 4 3).feed = 3 ∧ (balance (10 : ℚ) 4 3).ownTenants = 3 :=
  ⟨⟨by norm_num, by norm_num, by norm_num, by norm_num⟩, by decide +kernel, by decide +kernel⟩

/-- Two plants with 60 kW and one with 120 kW. -/
example : bonus feedIn (60 : ℚ) + bonus feedIn 60 = 920 ∧ bonus feedIn (120 : ℚ) = 800 ∧ bonus ownUse (120 : ℚ) = 390 := by
  decide +kernel

end Verif.Tariff
