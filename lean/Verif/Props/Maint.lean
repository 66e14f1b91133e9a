import Verif.Model.Maint
import Mathlib.Data.Rat.Cast.Order
import Mathlib.Analysis.SpecialFunctions.Pow.Real
import Mathlib.Tactic.Linarith
import Mathlib.Tactic.LinearCombination
import Mathlib.Tactic.FieldSimp
import Mathlib.Tactic.IntervalCases
import Mathlib.Algebra.Order.BigOperators.Group.Finset
import Mathlib.Algebra.BigOperators.Ring.Finset

/-!
# Maintenance cost of a CHP plant (C158)
-/

namespace Verif.Maint

variable {K : Type*} [Field K] [LinearOrder K] [IsStrictOrderedRing K]

omit [IsStrictOrderedRing K] in
theorem seg_scale (k : K) : ∀ (l : List (K × K)) (x : K), seg (l.map fun e => (e.1, e.2 * k)) x = seg l x * k
  | [], x => by simp [seg]
  | [p], x => rfl
  | p :: q :: r, x => by
    have ih := seg_scale k (q :: r) x
    simp only [List.map_cons, seg] at ih ⊢
    rw [ih]
    split_ifs
    · ring
    · rfl

omit [IsStrictOrderedRing K] in
theorem interp_scale (k : K) : ∀ (l : List (K × K)) (x : K),
    interp (l.map fun e => (e.1, e.2 * k)) x = interp l x * k
  | [], x => by simp [interp]
  | p :: r, x => by
    have ih := seg_scale k (p :: r) x
    simp only [List.map_cons, interp] at ih ⊢
    rw [ih]
    split_ifs <;> rfl

theorem seg_cast : ∀ (l : List (ℚ × ℚ)) (x : ℚ),
    seg (l.map fun e => ((e.1 : K), (e.2 : K))) (x : K) = ((seg l x : ℚ) : K)
  | [], x => by simp [seg]
  | [p], x => rfl
  | p :: q :: r, x => by
    have ih := seg_cast (q :: r) x
    simp only [List.map_cons, seg, Rat.cast_lt] at ih ⊢
    rw [ih]
    split_ifs
    · push_cast; ring
    · rfl

theorem interp_cast : ∀ (l : List (ℚ × ℚ)) (x : ℚ),
    interp (l.map fun e => ((e.1 : K), (e.2 : K))) (x : K) = ((interp l x : ℚ) : K)
  | [], x => by simp [interp]
  | p :: r, x => by
    have ih := seg_cast (K := K) (p :: r) x
    simp only [List.map_cons, interp, Rat.cast_lt] at ih ⊢
    rw [ih]
    split_ifs <;> rfl

theorem table_cast : (table : List (K × K)) = (table : List (ℚ × ℚ)).map fun e => ((e.1 : K), (e.2 : K)) := by
  simp [table]

theorem pel_cast (i : ℕ) : (pel i : K) = ((pel i : ℚ) : K) := by
  unfold pel; push_cast; ring

omit [IsStrictOrderedRing K] in
theorem cost_eq (discount : K) (i : ℕ) : cost discount i = interp table (pel i) * (discount * 100) := by
  unfold cost
  simp_rw [mul_assoc]
  exact interp_scale (discount * 100) table _

/-- The interpolated costs are those over the rational numbers without discount, times the discount. -/
theorem cost_cast (discount : K) (i : ℕ) : cost discount i = ((cost 1 i : ℚ) : K) * discount := by
  rw [cost_eq, cost_eq, table_cast, pel_cast, interp_cast]
  push_cast
  ring

/-- The solution of the normal equations. -/
def best : Cubic ℚ := ⟨-815414210127 / 1317826024177600, 12134601903705 / 184495643384864,
  749569114563059 / 931891259954160, 20110878044374402303 / 570783396721923000⟩

theorem normal (k : ℕ) (hk : k < 4) :
    ∑ i ∈ Finset.range 100, (best.eval (pel i) - cost 1 i) * (pel i) ^ k = 0 := by
  interval_cases k <;> decide +kernel

/-- The only fit. -/
def fitted (discount : K) : Cubic K := ⟨best.a * discount, best.b * discount, best.c * discount, best.d * discount⟩

theorem fitted_eval (discount x : K) :
    (fitted discount).eval x = (best.a * x ^ 3 + best.b * x ^ 2 + best.c * x + best.d) * discount := by
  unfold fitted Cubic.eval; ring

/-- The residuals of the solution are orthogonal to every cubic. -/
theorem orthogonal (discount : K) (h : Cubic K) :
    ∑ i ∈ Finset.range 100, ((fitted discount).eval (pel i) - cost discount i) * h.eval (pel i) = 0 := by
  have key : ∀ k < 4, ∑ i ∈ Finset.range 100, ((fitted discount).eval (pel i) - cost discount i) * (pel i) ^ k = 0 := by
    intro k hk
    have h1 := congrArg (fun q : ℚ => (q : K) * discount) (normal k hk)
    simp only [Rat.cast_zero, zero_mul, Rat.cast_sum, Finset.sum_mul] at h1
    rw [← h1]
    refine Finset.sum_congr rfl fun i _ => ?_
    rw [fitted_eval, cost_cast, pel_cast]
    unfold Cubic.eval
    push_cast
    ring
  have : ∀ i ∈ Finset.range 100, ((fitted discount).eval (pel i) - cost discount i) * h.eval (pel i) =
      h.a * (((fitted discount).eval (pel i) - cost discount i) * (pel i) ^ 3) +
      h.b * (((fitted discount).eval (pel i) - cost discount i) * (pel i) ^ 2) +
      h.c * (((fitted discount).eval (pel i) - cost discount i) * (pel i) ^ 1) +
      h.d * (((fitted discount).eval (pel i) - cost discount i) * (pel i) ^ 0) := by
    intro i _
    conv_lhs => rw [Cubic.eval.eq_1 h]
    ring
  rw [Finset.sum_congr rfl this]
  simp only [Finset.sum_add_distrib, ← Finset.mul_sum]
  rw [key 0 (by norm_num), key 1 (by norm_num), key 2 (by norm_num), key 3 (by norm_num)]
  ring

/-- `curve_fit` has exactly one result. -/
theorem isFit_iff (discount : K) (p : Cubic K) : IsFit discount p ↔ p = fitted discount := by
  have key : ∀ q : Cubic K, sumSq discount q = sumSq discount (fitted discount) +
      ∑ i ∈ Finset.range 100, (q.eval (pel i) - (fitted discount).eval (pel i)) ^ 2 := by
    intro q
    let h : Cubic K := ⟨q.a - (fitted discount).a, q.b - (fitted discount).b, q.c - (fitted discount).c,
      q.d - (fitted discount).d⟩
    have hh : ∀ x, h.eval x = q.eval x - (fitted discount).eval x := by
      intro x
      simp only [h, Cubic.eval]; ring
    have ho := orthogonal discount h
    unfold sumSq
    have : ∀ i ∈ Finset.range 100, (q.eval (pel i) - cost discount i) ^ 2 =
        ((fitted discount).eval (pel i) - cost discount i) ^ 2 +
        (q.eval (pel i) - (fitted discount).eval (pel i)) ^ 2 +
        2 * (((fitted discount).eval (pel i) - cost discount i) * h.eval (pel i)) := by
      intro i _
      rw [hh]; ring
    rw [Finset.sum_congr rfl this, Finset.sum_add_distrib, Finset.sum_add_distrib, ← Finset.mul_sum, ho]
    ring
  constructor
  · intro hp
    have h1 := hp (fitted discount)
    rw [key p] at h1
    have h2 : ∑ i ∈ Finset.range 100, (p.eval (pel i) - (fitted discount).eval (pel i)) ^ 2 = 0 :=
      le_antisymm (by linarith) (Finset.sum_nonneg fun i _ => sq_nonneg _)
    rw [Finset.sum_eq_zero_iff_of_nonneg (fun i _ => sq_nonneg _)] at h2
    have h3 : ∀ i < 100, p.eval (pel i) - (fitted discount).eval (pel i) = 0 := fun i hi =>
      pow_eq_zero_iff (two_ne_zero) |>.1 (h2 i (Finset.mem_range.2 hi))
    have e0 := h3 0 (by norm_num)
    have e1 := h3 33 (by norm_num)
    have e2 := h3 66 (by norm_num)
    have e3 := h3 99 (by norm_num)
    obtain ⟨a, b, c, d⟩ := p
    generalize fitted discount = r at *
    obtain ⟨a', b', c', d'⟩ := r
    simp only [Cubic.eval, pel, Cubic.mk.injEq] at e0 e1 e2 e3 ⊢
    norm_num at e0 e1 e2 e3
    refine ⟨?_, ?_, ?_, ?_⟩ <;> linarith
  · rintro rfl q
    rw [key q]
    linarith [Finset.sum_nonneg fun i (_ : i ∈ Finset.range 100) =>
      sq_nonneg (q.eval (pel i) - (fitted discount).eval (pel i))]

/-- **C158**: the fit exists, there is only one, and the cost is proportional to the discount factor. -/
theorem C158_discount (discount : K) : ∃ p, IsFit discount p ∧ (∀ p', IsFit discount p' → p' = p) ∧
    ∀ q, IsFit 1 q → ∀ vat x, infer p vat x = discount * infer q vat x := by
  refine ⟨fitted discount, (isFit_iff _ _).2 rfl, fun p' h => (isFit_iff _ _).1 h, fun q hq vat x => ?_⟩
  rw [(isFit_iff _ _).1 hq]
  unfold infer
  rw [fitted_eval, fitted_eval]
  split_ifs <;> ring

/-- Specification: the price list, power in kW and Cent per hour. -/
def prices : List (K × K) :=
  [(6, 42), (9, 49), (15, 57), (20, 72), (34, 114), (50, 165), (60, 187), (70, 200), (80, 208)]

/-- **C158**, partial: between 6 and 80 kW the cost is within 5.3 % of the price list (times the discount), also between
its entries, where the price is on the line through the neighbours.  Missing: larger plants (`C158_fails_negative`). -/
theorem C158_prices_partial {discount : K} (hd : 0 ≤ discount) {p : Cubic K} (hp : IsFit discount p) :
    ∀ e ∈ (prices : List (K × K)).zip (prices : List (K × K)).tail, ∀ w : K, 0 ≤ w → w ≤ 1 →
      |infer p false (1000 * (e.1.1 + w * (e.2.1 - e.1.1))) - discount * (e.1.2 + w * (e.2.2 - e.1.2))| ≤
        53 / 1000 * (discount * (e.1.2 + w * (e.2.2 - e.1.2))) := by
  intro e he w h0 h1
  rw [(isFit_iff _ _).1 hp]
  unfold infer
  rw [if_neg (by simp), mul_div_cancel_left₀ _ (by norm_num), fitted_eval]
  have key : ∀ u v : K, |u - v| ≤ 53 / 1000 * v → |u * discount - discount * v| ≤ 53 / 1000 * (discount * v) := by
    intro u v h
    rw [show u * discount - discount * v = discount * (u - v) by ring, abs_mul, abs_of_nonneg hd]
    calc discount * |u - v| ≤ discount * (53 / 1000 * v) := mul_le_mul_of_nonneg_left h hd
      _ = _ := by ring
  refine key _ _ ?_
  simp only [prices, List.tail_cons, List.zip_cons_cons, List.mem_cons, List.zip_nil_right, List.not_mem_nil,
    or_false] at he
  have w2 : 0 ≤ w * (1 - w) := mul_nonneg h0 (by linarith)
  have w3 : 0 ≤ w * w * (1 - w) := mul_nonneg (mul_nonneg h0 h0) (by linarith)
  have w4 : 0 ≤ w * (1 - w) * (1 - w) := mul_nonneg w2 (by linarith)
  have w5 : 0 ≤ w * w * w := by positivity
  have w6 : 0 ≤ (1 - w) * (1 - w) * (1 - w) := by
    have : 0 ≤ 1 - w := by linarith
    positivity
  rcases he with rfl | rfl | rfl | rfl | rfl | rfl | rfl | rfl <;>
  · rw [abs_le]
    simp only [best]
    push_cast
    constructor <;> linarith

/-- The hypotheses are met: 18 kW, halfway between two entries, costs 0.95 times 66 Cent up to 5.3 %. -/
example : ∃ p : Cubic ℚ, IsFit (19 / 20) p ∧ |infer p false (1000 * (15 + 3 / 5 * 5)) - 19 / 20 * (57 + 3 / 5 * 15)| ≤
    53 / 1000 * (19 / 20 * (57 + 3 / 5 * 15)) := by
  obtain ⟨p, hp, -⟩ := C158_discount (19 / 20 : ℚ)
  have := C158_prices_partial (by norm_num) hp ((15, 57), (20, 72)) (by simp [prices]) (3 / 5) (by norm_num) (by norm_num)
  norm_num at this ⊢
  exact ⟨p, hp, this⟩

theorem infer_fitted (discount : K) (vat : Bool) (x : K) : infer (fitted discount) vat x =
    (best.a * (x / 1000) ^ 3 + best.b * (x / 1000) ^ 2 + best.c * (x / 1000) + best.d) * discount *
      if vat then 119 / 100 else 1 := by
  unfold infer
  rw [fitted_eval]
  split_ifs <;> ring

theorem factor_pos {discount : K} (hd : 0 < discount) (vat : Bool) :
    0 < discount * (if vat then (119 / 100 : K) else 1) := by
  refine mul_pos hd ?_
  split_ifs <;> norm_num

/-- **C158**, partial: up to 76.5 kW a larger plant has a higher cost per hour, and all costs are positive.  Missing: larger
plants (`C158_fails_falling`). -/
theorem C158_rising_partial {discount : K} (hd : 0 < discount) {p : Cubic K} (hp : IsFit discount p) (vat : Bool) {x y : K}
    (hx : 0 ≤ x) (hxy : x < y) (hy : y ≤ 76500) : 0 < infer p vat x ∧ infer p vat x < infer p vat y := by
  rw [(isFit_iff _ _).1 hp, infer_fitted, infer_fitted]
  have hf := factor_pos hd vat
  generalize (if vat then (119 / 100 : K) else 1) = v at *
  obtain ⟨u, hu⟩ : ∃ u, u = x / 1000 := ⟨_, rfl⟩
  obtain ⟨w, hw⟩ : ∃ w, w = y / 1000 := ⟨_, rfl⟩
  rw [← hu, ← hw, mul_assoc, mul_assoc]
  have hu0 : 0 ≤ u := by rw [hu]; positivity
  have huw : u < w := by rw [hu, hw]; exact div_lt_div_of_pos_right hxy (by norm_num)
  have hw1 : w ≤ 153 / 2 := by rw [hw, div_le_iff₀ (by norm_num)]; linarith
  have m1 : 0 ≤ u * (153 / 2 - u) := mul_nonneg hu0 (by linarith)
  have m2 : 0 ≤ u * (153 / 2 - w) := mul_nonneg hu0 (by linarith)
  have m3 : 0 ≤ w * (153 / 2 - u) := mul_nonneg (by linarith) (by linarith)
  have m4 : 0 ≤ w * (153 / 2 - w) := mul_nonneg (by linarith) (by linarith)
  constructor
  · refine mul_pos ?_ hf
    have m5 : 0 ≤ u * u * (153 / 2 - u) := mul_nonneg (mul_nonneg hu0 hu0) (by linarith)
    have m6 : 0 ≤ u * u := mul_nonneg hu0 hu0
    simp only [best]
    push_cast
    nlinarith
  · refine mul_lt_mul_of_pos_right ?_ hf
    have : 0 < (w - u) * ((best.a : K) * (u * u + u * w + w * w) + best.b * (u + w) + best.c) := by
      refine mul_pos (by linarith) ?_
      simp only [best]
      push_cast
      nlinarith
    linarith [this]

/-- The hypotheses are met by plants with 20 and 50 kW. -/
example : ∃ p : Cubic ℚ, IsFit (19 / 20) p ∧ infer p false 20000 < infer p false 50000 := by
  obtain ⟨p, hp, -⟩ := C158_discount (19 / 20 : ℚ)
  exact ⟨p, hp, (C158_rising_partial (by norm_num) hp false (by norm_num) (by norm_num) (by norm_num)).2⟩

/-- **C158** is wrong from 77 kW on: a larger plant has a lower cost per hour. -/
theorem C158_fails_falling {discount : K} (hd : 0 < discount) {p : Cubic K} (hp : IsFit discount p) (vat : Bool) {x y : K}
    (hx : 77000 ≤ x) (hxy : x < y) : infer p vat y < infer p vat x := by
  rw [(isFit_iff _ _).1 hp, infer_fitted, infer_fitted]
  have hf := factor_pos hd vat
  generalize (if vat then (119 / 100 : K) else 1) = v at *
  obtain ⟨u, hu⟩ : ∃ u, u = x / 1000 := ⟨_, rfl⟩
  obtain ⟨w, hw⟩ : ∃ w, w = y / 1000 := ⟨_, rfl⟩
  rw [← hu, ← hw, mul_assoc, mul_assoc]
  have hu0 : 77 ≤ u := by rw [hu, le_div_iff₀ (by norm_num)]; linarith
  have huw : u < w := by rw [hu, hw]; exact div_lt_div_of_pos_right hxy (by norm_num)
  refine mul_lt_mul_of_pos_right ?_ hf
  have m1 : 0 ≤ (u - 77) * (u - 77) := mul_nonneg (by linarith) (by linarith)
  have m2 : 0 ≤ (u - 77) * (w - 77) := mul_nonneg (by linarith) (by linarith)
  have m3 : 0 ≤ (w - 77) * (w - 77) := mul_nonneg (by linarith) (by linarith)
  have : 0 < (w - u) * -((best.a : K) * (u * u + u * w + w * w) + best.b * (u + w) + best.c) := by
    refine mul_pos (by linarith) ?_
    simp only [best]
    push_cast
    nlinarith
  linarith [this]

/-- **C158** is wrong from 121 kW on: the cost per hour is negative, so that every hour of operation earns money, although a
negative number given by the user is refused (line 1199). -/
theorem C158_fails_negative {discount : K} (hd : 0 < discount) {p : Cubic K} (hp : IsFit discount p) (vat : Bool) {x : K}
    (hx : 121000 ≤ x) : infer p vat x < 0 := by
  have h1 : infer p vat x ≤ infer p vat 121000 := by
    rcases hx.eq_or_lt with rfl | h
    · exact le_rfl
    · exact (C158_fails_falling hd hp vat (by norm_num) h).le
  refine h1.trans_lt ?_
  rw [(isFit_iff _ _).1 hp, infer_fitted, mul_assoc]
  refine mul_neg_of_neg_of_pos ?_ (factor_pos hd vat)
  simp only [best]
  push_cast
  norm_num

/-- The hypotheses are met by the default discount. -/
example : ∃ p : Cubic ℚ, IsFit (19 / 20) p ∧ infer p false 140000 < 0 := by
  obtain ⟨p, hp, -⟩ := C158_discount (19 / 20 : ℚ)
  exact ⟨p, hp, C158_fails_negative (by norm_num) hp false (by norm_num)⟩

/-! ### Cost per kWh -/

/-- **C158**, partial: with the cost per kWh, a larger plant has a higher cost per hour of full operation among the plants
below 10 kW and among those from 10 kW to 100 kW; other plants than these from 1 to 100 kW are refused.  Missing: plants on
different sides of 10 kW (`C158_fails_jump`). -/
theorem C158_perkWh_partial {x y cx cy : ℝ} (hxy : x < y) (h : y < 10 ∨ 10 ≤ x) (hx : nonflat x = some cx)
    (hy : nonflat y = some cy) : 0 < x * cx ∧ x * cx < y * cy := by
  unfold nonflat at hx hy
  have pw : ∀ {z r : ℝ}, 0 < z → z * z ^ r = z ^ (1 + r) := fun {z r} hz => by
    rw [Real.rpow_add hz, Real.rpow_one]
  split_ifs at hx hy <;> simp only [Option.some.injEq] at hx hy <;> subst hx hy
  · have h0 : 0 < x := by linarith
    refine ⟨by positivity, ?_⟩
    rw [mul_left_comm, mul_left_comm y, pw h0, pw (by linarith)]
    exact mul_lt_mul_of_pos_left (Real.rpow_lt_rpow h0.le hxy (by norm_num)) (by norm_num)
  · exfalso; linarith
  · exfalso; rcases h with h | h <;> linarith
  · have h0 : 0 < x := by linarith
    refine ⟨by positivity, ?_⟩
    rw [mul_left_comm, mul_left_comm y, pw h0, pw (by linarith)]
    exact mul_lt_mul_of_pos_left (Real.rpow_lt_rpow h0.le hxy (by norm_num)) (by norm_num)

/-- The hypotheses are met by plants with 20 and 50 kW. -/
example : ∃ cx cy, nonflat 20 = some cx ∧ nonflat 50 = some cy ∧ 20 * cx < 50 * cy := by
  have e1 : nonflat 20 = some (6.6626 * 20 ^ (-0.25 : ℝ)) := by
    unfold nonflat; rw [if_pos (by norm_num)]
  have e2 : nonflat 50 = some (6.6626 * 50 ^ (-0.25 : ℝ)) := by
    unfold nonflat; rw [if_pos (by norm_num)]
  exact ⟨_, _, e1, e2, (C158_perkWh_partial (by norm_num) (by norm_num) e1 e2).2⟩

/-- **C158** is wrong at 10 kW: every plant between 9 kW and 10 kW costs more per hour than one with 10 kW. -/
theorem C158_fails_jump {x : ℝ} (h9 : 9 ≤ x) (h10 : x < 10) : ∃ cx c10, nonflat x = some cx ∧ nonflat 10 = some c10 ∧
    10 * c10 < x * cx := by
  refine ⟨_, _, by unfold nonflat; rw [if_neg (by intro h; linarith [h.1]), if_pos (by constructor <;> linarith)],
    by unfold nonflat; rw [if_pos (by norm_num)], ?_⟩
  have h1 : (10 : ℝ) ^ (-0.25 : ℝ) ≤ 1 / 1.7 := by
    rw [Real.rpow_neg (by norm_num), one_div]
    refine inv_anti₀ (by norm_num) ?_
    have : (1.7 : ℝ) = (1.7 ^ (4 : ℝ)) ^ (0.25 : ℝ) := by
      rw [← Real.rpow_mul (by norm_num)]; norm_num
    rw [this]
    refine Real.rpow_le_rpow (by positivity) ?_ (by norm_num)
    rw [show (4 : ℝ) = ((4 : ℕ) : ℝ) by norm_num, Real.rpow_natCast]
    norm_num
  have h2 : (1.4 : ℝ) ≤ x ^ (0.1866 : ℝ) := by
    have e : (1.4 : ℝ) = (1.4 ^ (6 : ℝ)) ^ (1 / 6 : ℝ) := by
      rw [← Real.rpow_mul (by norm_num)]; norm_num
    calc (1.4 : ℝ) = (1.4 ^ (6 : ℝ)) ^ (1 / 6 : ℝ) := e
      _ ≤ x ^ (1 / 6 : ℝ) := by
        refine Real.rpow_le_rpow (by positivity) ?_ (by norm_num)
        rw [show (6 : ℝ) = ((6 : ℕ) : ℝ) by norm_num, Real.rpow_natCast]
        norm_num; linarith
      _ ≤ x ^ (0.1866 : ℝ) := Real.rpow_le_rpow_of_exponent_le (by linarith) (by norm_num)
  have h3 : 9 * (3.2619 * 1.4) ≤ x * (3.2619 * x ^ (0.1866 : ℝ)) := by
    refine mul_le_mul h9 (mul_le_mul_of_nonneg_left h2 (by norm_num)) (by norm_num) (by linarith)
  refine lt_of_lt_of_le ?_ h3
  calc 10 * (6.6626 * (10 : ℝ) ^ (-0.25 : ℝ)) ≤ 10 * (6.6626 * (1 / 1.7)) := by
        refine mul_le_mul_of_nonneg_left (mul_le_mul_of_nonneg_left h1 (by norm_num)) (by norm_num)
    _ < _ := by norm_num

end Verif.Maint
