import Verif.Model.CondHex
import Verif.Spec.Mixing
import Mathlib.Tactic.Linarith
import Mathlib.Tactic.FieldSimp
import Mathlib.Tactic.Positivity
import Mathlib.Tactic.NormNum
import Mathlib.Tactic.Ring
import Mathlib.Data.Rat.Floor

/-!
# C34, C69: condensing heat exchanger
-/

set_option linter.unusedSectionVars false

namespace Verif.CondHex

open Verif.Mixing

variable {K : Type*} [Field K] [LinearOrder K] [IsStrictOrderedRing K] [FloorRing K]

/-- Rounding a number below one that is not negative gives zero or one. -/
theorem pyRoundInt_unit {x : K} (h0 : 0 ≤ x) (h1 : x < 1) : pyRoundInt x = 0 ∨ pyRoundInt x = 1 := by
  have : ⌊x⌋ = 0 := by rw [Int.floor_eq_iff]; constructor <;> push_cast <;> linarith
  unfold pyRoundInt
  rw [this]
  split_ifs <;> simp

/-- Rounding is to a nearest integer. -/
theorem pyRoundInt_near (x : K) : |x - pyRoundInt x| ≤ 1 / 2 := by
  have h1 := Int.floor_le x
  have h2 := Int.lt_floor_add_one x
  unfold pyRoundInt
  rw [abs_le]
  split_ifs with a b c
  · constructor <;> linarith
  · push_cast; constructor <;> linarith
  · constructor <;> linarith
  · push_cast; constructor <;> linarith

/-- What a limited flow can be: nothing, or inside the range. -/
def InRange (r : Range K) (x : K) : Prop := x = 0 ∨ r.lo ≤ x ∧ x ≤ r.hi

theorem low_flow {r : Range K} (hlo : 0 < r.lo) (hr : r.lo ≤ r.hi) {x : K} (h0 : 0 ≤ x) (h1 : x < r.lo) :
    InRange r ((pyRoundInt (x / r.lo) : K) * r.lo) ∧ |x - (pyRoundInt (x / r.lo) : K) * r.lo| ≤ r.lo / 2 := by
  constructor
  · rcases pyRoundInt_unit (x := x / r.lo) (by positivity) (by rw [div_lt_one hlo]; exact h1) with h | h
    · left; rw [h]; simp
    · right; rw [h]; simp [hr]
  · have := pyRoundInt_near (x / r.lo)
    have e : x - (pyRoundInt (x / r.lo) : K) * r.lo = (x / r.lo - pyRoundInt (x / r.lo)) * r.lo := by
      field_simp
    rw [e, abs_mul, abs_of_pos hlo]
    nlinarith

/-- **C34**, partial (water flow): for a flow that is not negative, the flow used for the characteristic is 0
or inside the range; above the lower limit, the flow used and the bypassed flow add up to the given flow and
there is a bypass exactly if the flow exceeds the range; below the lower limit the nearer of 0 and the limit
is used.  Missing: flows below 0 (`C34_fails_negative_flow`). -/
theorem C34_water_flow_partial {r : Range K} (hlo : 0 ≤ r.lo) (hr : r.lo ≤ r.hi) {x : K} (hx : 0 ≤ x) :
    InRange r (water r x).1 ∧
    (r.lo ≤ x → (water r x).1 + (water r x).2.getD 0 = x) ∧
    ((water r x).2.isSome ↔ r.hi < x) ∧
    (∀ e, (water r x).2 = some e → 0 < e ∧ (water r x).1 = r.hi) ∧
    (x < r.lo → |x - (water r x).1| ≤ r.lo / 2) := by
  unfold water
  by_cases h1 : r.lo ≠ 0 ∧ x < r.lo
  · have hlo' : 0 < r.lo := lt_of_le_of_ne hlo (Ne.symm h1.1)
    obtain ⟨a, b⟩ := low_flow hlo' hr hx h1.2
    rw [if_pos h1]
    refine ⟨a, fun h => absurd h1.2 (not_lt.2 h), ?_, by simp, fun _ => b⟩
    simp only [Option.isSome_none, Bool.false_eq_true, false_iff, not_lt]
    linarith [h1.2]
  · rw [if_neg h1]
    have hge : r.lo ≤ x := by
      by_contra hc
      exact h1 ⟨fun e => by rw [e] at hc; exact hc hx, not_le.1 hc⟩
    by_cases h2 : r.hi < x
    · rw [if_pos h2]
      refine ⟨.inr ⟨hr, le_rfl⟩, fun _ => by simp, by simp [h2], ?_, fun h => absurd h (not_lt.2 hge)⟩
      intro e he
      simp only [Option.some.injEq] at he
      subst he
      exact ⟨by linarith, rfl⟩
    · rw [if_neg h2]
      refine ⟨.inr ⟨hge, not_lt.1 h2⟩, fun _ => by simp, by simp [not_lt.1 h2], by simp,
        fun h => absurd h (not_lt.2 hge)⟩

/-- Range from 10 to 105 percent, flow of 130 percent: a quarter bypasses. -/
example : water (⟨1 / 10, 105 / 100⟩ : Range ℚ) (130 / 100) = (105 / 100, some (25 / 100)) := by
  unfold water; norm_num

/-- **C34** is false of the code for a negative water flow: with -100 percent the characteristic is evaluated far
outside the range, and water that should leave with 60 degrees leaves with 3690 degrees. -/
theorem C34_fails_negative_flow :
    let r : Range ℚ := ⟨1 / 10, 1⟩
    ¬ InRange r (water r (-1)).1 ∧
    solve (fun _ => 4200) (fun _ _ _ _ => ⟨60, 60⟩) r r 20 90 (-1) 1 = some ⟨3690, 3690⟩ := by
  have hw : water (⟨1 / 10, 1⟩ : Range ℚ) (-1) = (-1, none) := by
    have hf : ⌊(-1 / (1 / 10) : ℚ)⌋ = -10 := by rw [Int.floor_eq_iff]; norm_num
    unfold water pyRoundInt
    rw [hf]
    norm_num
  have hg : gas (⟨1 / 10, 1⟩ : Range ℚ) 1 = some 1 := by unfold gas; norm_num
  refine ⟨?_, ?_⟩
  · rw [hw]; unfold InRange; norm_num
  · unfold solve
    rw [hg, hw]
    norm_num [core, quad, thresh]

/-- **C34** (gas flow): a gas flow above the range is refused, and only such a flow; otherwise, if it is not
negative, the flow used is 0 or inside the range. -/
theorem C34_gas_flow (cp : K → K) (char : K → K → K → K → Out K) {rw rg : Range K} (hlo : 0 ≤ rg.lo)
    (hr : rg.lo ≤ rg.hi) (tw tg xw xg : K) :
    (solve cp char rw rg tw tg xw xg = none ↔ rg.hi < xg) ∧
    (0 ≤ xg → ∀ g, gas rg xg = some g → InRange rg g) := by
  have key : gas rg xg = none ↔ rg.hi < xg := by
    unfold gas
    split_ifs with h1 h2
    · simp only [reduceCtorEq, false_iff, not_lt]; linarith [h1.2]
    · simp [h2]
    · simp [not_lt.1 h2]
  constructor
  · rw [← key]
    unfold solve
    cases hg : gas rg xg with
    | none => simp
    | some g => cases hw : (water rw xw).2 <;> simp [hw]
  · intro hx g hg
    unfold gas at hg
    split_ifs at hg with h1 h2
    · simp only [Option.some.injEq] at hg
      subst hg
      exact (low_flow (lt_of_le_of_ne hlo (Ne.symm h1.1)) hr hx h1.2).1
    · simp only [Option.some.injEq] at hg
      subst hg
      right
      refine ⟨?_, not_lt.1 h2⟩
      by_contra hc
      exact h1 ⟨fun e => by rw [e] at hc; exact hc hx, not_le.1 hc⟩

theorem weighted_between {a b x y : K} (ha : 0 ≤ a) (hb : 0 ≤ b) (hab : 0 < a + b) :
    Between ((a * x + b * y) / (a + b)) x y := by
  unfold Between
  rw [le_div_iff₀ hab, div_le_iff₀ hab]
  rcases le_total x y with h | h
  · rw [min_eq_left h, max_eq_right h]; constructor <;> nlinarith
  · rw [min_eq_right h, max_eq_left h]; constructor <;> nlinarith

/-- **C34** (bypass): with a bypass the water leaves with a temperature between that of the bypass, which is the
inlet temperature, and that of the water that went through the heat exchanger, and its distance to the two
is inverse to their capacity flows; without a bypass the outlet temperature is that of the heat exchanger. -/
theorem C34_bypass_mix (cp : K → K) (char : K → K → K → K → Out K) {rw rg : Range K} (hlo : 0 ≤ rw.lo)
    (hr : rw.lo ≤ rw.hi) {tw tg xw xg g : K} (hx : 0 ≤ xw) (hg : gas rg xg = some g) {o : Out K}
    (ho : solve cp char rw rg tw tg xw xg = some o) :
    (xw ≤ rw.hi → o = core char tw tg (water rw xw).1 g) ∧
    (rw.hi < xw → 0 < cp tw → 0 < cp (core char tw tg rw.hi g).water →
      let h := core char tw tg rw.hi g
      o.gas = h.gas ∧ Between o.water tw h.water ∧
      cp tw * (xw - rw.hi) * (o.water - tw) = cp h.water * rw.hi * (h.water - o.water)) := by
  obtain ⟨-, -, hiff, hex, -⟩ := C34_water_flow_partial hlo hr hx
  unfold solve at ho
  rw [hg] at ho
  simp only at ho
  constructor
  · intro hle
    have hn : (water rw xw).2 = none := by
      rw [← Option.not_isSome_iff_eq_none, hiff]; exact not_lt.2 hle
    rw [hn] at ho
    simpa using ho.symm
  · intro hlt c1 c2 h
    have hw : water rw xw = (rw.hi, some (xw - rw.hi)) := by
      unfold water
      rw [if_neg, if_pos hlt]
      rintro ⟨-, h'⟩
      linarith
    rw [hw] at ho
    simp only [Option.some.injEq] at ho
    subst ho
    have hhi : 0 ≤ rw.hi := hlo.trans hr
    have p1 : 0 < cp tw * (xw - rw.hi) := mul_pos c1 (by linarith)
    have p2 : 0 ≤ cp h.water * rw.hi := mul_nonneg c2.le hhi
    have p3 : cp tw * (xw - rw.hi) + cp h.water * rw.hi ≠ 0 := by positivity
    refine ⟨rfl, weighted_between p1.le p2 (by linarith), ?_⟩
    simp only
    field_simp
    ring

/-- Three times the largest flow, characteristic of 80 degrees, water at 20 degrees: 40 degrees. -/
example : (solve (fun _ => 4200) (fun _ _ _ _ => ⟨80, 60⟩) ⟨0, 1⟩ ⟨0, 1⟩ 20 100 3 (1 : ℚ)) =
    some ⟨40, 60⟩ := by
  norm_num [solve, gas, water, core, thresh]

/-- **C34** (no flow): if the water or the gas stands still, both leave with their inlet temperature, with or
without a bypass. -/
theorem C34_zero_flow (cp : K → K) (char : K → K → K → K → Out K) {rw rg : Range K} (hlo : 0 ≤ rw.lo)
    (hr : rw.lo ≤ rw.hi) {tw tg xw xg g : K} (hc : 0 < cp tw) (hg : gas rg xg = some g)
    (h0 : (water rw xw).1 = 0 ∨ g = 0) :
    solve cp char rw rg tw tg xw xg = some ⟨tw, tg⟩ := by
  have hcore : core char tw tg (water rw xw).1 g = ⟨tw, tg⟩ := by
    unfold core
    rw [if_neg]
    rintro ⟨a, b⟩
    rcases h0 with h | h
    · exact a h
    · exact b h
  unfold solve
  rw [hg]
  simp only [hcore]
  cases hw : (water rw xw).2 with
  | none => rfl
  | some e =>
    have he : 0 < e := by
      unfold water at hw
      split_ifs at hw with h1 h2
      simp only [Option.some.injEq] at hw
      linarith
    have hhi : 0 ≤ rw.hi := hlo.trans hr
    have : cp tw * e + cp tw * rw.hi ≠ 0 := by positivity
    simp only [Option.some.injEq, Out.mk.injEq, and_true]
    field_simp

/-- Three times the largest flow without gas. -/
example : (solve (fun _ => 4200) (fun _ _ _ _ => ⟨80, 60⟩) ⟨0, 1⟩ ⟨0, 1⟩ 20 100 3 (0 : ℚ)) =
    some ⟨20, 100⟩ :=
  C34_zero_flow _ _ (by norm_num) (by norm_num) (by norm_num) (g := 0) (by norm_num [gas]) (.inr rfl)

/-- **C34** (low flow): from the flow 0 up to the threshold of 10 percent both outlet temperatures lie between
the gas inlet temperature and the characteristic at the threshold, and at the threshold they are the
characteristic: the curve continues the regression without a jump. -/
theorem C34_low_flow (char : K → K → K → K → Out K) {tw tg w g : K} (hw : 0 < w) (hw' : w ≤ 1 / 10)
    (hg : g ≠ 0) :
    Between (core char tw tg w g).water tg (char tw tg (1 / 10) g).water ∧
    Between (core char tw tg w g).gas tg (char tw tg (1 / 10) g).gas ∧
    core char tw tg (1 / 10) g = char tw tg (1 / 10) g := by
  have hc : ∀ x : K, x ≠ 0 → x ≤ 1 / 10 → core char tw tg x g =
      ⟨quad thresh tg (char tw tg (1 / 10) g).water x, quad thresh tg (char tw tg (1 / 10) g).gas x⟩ := by
    intro x h1 h2
    unfold core
    rw [if_pos ⟨h1, hg⟩, if_neg (by unfold thresh; exact not_lt.2 h2)]
    rfl
  have hq : ∀ a : K, Between (quad thresh tg a w) tg a := by
    intro a
    have e : quad thresh tg a w = ((w - 1 / 10) ^ 2 * tg + (1 / 100 - (w - 1 / 10) ^ 2) * a) /
        ((w - 1 / 10) ^ 2 + (1 / 100 - (w - 1 / 10) ^ 2)) := by
      unfold quad thresh
      field_simp
      ring
    rw [e]
    refine weighted_between (sq_nonneg _) ?_ (by ring_nf; norm_num)
    nlinarith
  refine ⟨?_, ?_, ?_⟩
  · rw [hc w hw.ne' hw']; exact hq _
  · rw [hc w hw.ne' hw']; exact hq _
  · rw [hc (1 / 10) (by norm_num) le_rfl]
    simp [quad, thresh]

/-- A regression giving 60 and 40 degrees at the threshold, 5 percent of the flow, gas at 100 degrees: 70 and 55
degrees. -/
example : core (fun _ _ _ _ => ⟨60, 40⟩) 20 100 (1 / 20) (1 : ℚ) = ⟨70, 55⟩ := by
  norm_num [core, quad, thresh]

/-! ## C69 -/

/-- **C69**, partial: if the recorded gas flows stay below the upper limit and no flow is negative, the final
check passes.  Missing: a gas flow of exactly the upper limit, accepted in every step, is refused at the end
(`C69_fails_at_limit`). -/
theorem C69_final_check_partial (cp : K → K) (char : K → K → K → K → Out K) {rw rg : Range K}
    (xs : List (K × K)) (h0 : ∀ x ∈ xs, 0 ≤ x.1 ∧ 0 ≤ x.2) (hl : ∀ x ∈ xs, x.2 ≠ rg.hi) (tw tg : K)
    (hs : ∀ x ∈ xs, solve cp char rw rg tw tg x.1 x.2 ≠ none) (hlo : 0 ≤ rg.lo) (hr : rg.lo ≤ rg.hi) :
    flowsOk rg xs = true := by
  unfold flowsOk
  rw [List.all_eq_true]
  intro x hx
  rw [decide_eq_true_eq]
  refine ⟨(h0 x hx).1, (h0 x hx).2, ?_⟩
  have h1 := hs x hx
  rw [ne_eq, (C34_gas_flow cp char hlo hr tw tg x.1 x.2).1, not_lt] at h1
  exact lt_of_le_of_ne h1 (hl x hx)

example : flowsOk (⟨2 / 5, 21 / 20⟩ : Range ℚ) [(1 / 2, 1), (2, 1 / 2)] = true := by
  norm_num [flowsOk]

/-- **C69** is false of the code at the upper limit. -/
theorem C69_fails_at_limit (cp : K → K) (char : K → K → K → K → Out K) (rw rg : Range K) (hlo : 0 ≤ rg.lo)
    (hr : rg.lo ≤ rg.hi) (tw tg xw : K) :
    solve cp char rw rg tw tg xw rg.hi ≠ none ∧ flowsOk rg [(xw, rg.hi)] = false := by
  constructor
  · rw [ne_eq, (C34_gas_flow cp char hlo hr tw tg xw rg.hi).1]
    exact lt_irrefl _
  · simp [flowsOk]

end Verif.CondHex
