import Verif.Props.CostShape
import Verif.Props.ModelPred

/-!
# C197: local minima of the cost of plans under the constraints of the storage

The variables of the long-term optimisation are the modulations of all steps (`controllers.py:1826-1860`), its constraints those of
C77.  The optimiser (SLSQP) is not modelled.  Here: which local minima of the problem it is given are minima.
-/

set_option linter.unusedSectionVars false

namespace Verif.Tariff

open Verif.ModelPred (beforeEmpty beforeFull heatDmd cumsum)

variable {K : Type*} [Field K] [LinearOrder K] [IsStrictOrderedRing K]

/-- Specification: the plan `x` runs in the steps marked in `w`, within the limits of modulation, and stands still in the others. -/
def Runs (c : Prices K) (w : List Bool) (x : List K) : Prop :=
  List.Forall₂ (fun on v => if on = true then c.lo ≤ v ∧ v ≤ c.up else v = 0) w x

/-- Specification: the constraints of the storage hold in all steps. -/
def Feasible (socMin socMax q : K) (dmd : List K) (n : ℕ) (x : List K) : Prop :=
  ∀ k < x.length, 0 ≤ beforeEmpty socMin q dmd n x k ∧ 0 ≤ beforeFull socMax q dmd n x k

/-- Specification: no modulation of `y` differs by `r` or more from that of `x`. -/
def Near (r : K) (x y : List K) : Prop := List.Forall₂ (fun u v => |v - u| < r) x y

/-- The plan on the way from `x` to `y`. -/
def mix (l m : K) (x y : List K) : List K := List.zipWith (fun u v => l * u + m * v) x y

theorem mix_runs (c : Prices K) {w : List Bool} {x y : List K} {l m : K} (hl : 0 ≤ l) (hm : 0 ≤ m) (h : l + m = 1)
    (hx : Runs c w x) (hy : Runs c w y) : Runs c w (mix l m x y) := by
  unfold Runs mix at *
  induction hx generalizing y with
  | nil => cases hy; exact .nil
  | @cons on u w x hu _ ih =>
    obtain _ | ⟨hv, hy⟩ := hy
    refine .cons ?_ (ih hy)
    cases on
    · simp only [Bool.false_eq_true, if_false] at hu hv ⊢
      rw [hu, hv]; ring
    · simp only [if_true] at hu hv ⊢
      have h1 := mul_le_mul_of_nonneg_left hu.1 hl
      have h2 := mul_le_mul_of_nonneg_left hv.1 hm
      have h3 := mul_le_mul_of_nonneg_left hu.2 hl
      have h4 := mul_le_mul_of_nonneg_left hv.2 hm
      constructor
      · linear_combination h1 + h2 - c.lo * h
      · linear_combination h3 + h4 + c.up * h

theorem mix_sum (l m q : K) (x y : List K) (h : x.length = y.length) :
    ((mix l m x y).map (· * q)).sum = l * (x.map (· * q)).sum + m * (y.map (· * q)).sum := by
  unfold mix
  induction x generalizing y with
  | nil =>
    obtain rfl := List.length_eq_zero_iff.1 h.symm
    simp
  | cons u x ih =>
    obtain _ | ⟨v, y⟩ := y
    · simp at h
    simp only [List.zipWith_cons_cons, List.map_cons, List.sum_cons]
    rw [ih y (by simpa using h)]
    ring

theorem mix_cumsum (l m q : K) (x y : List K) (h : x.length = y.length) (k : ℕ) :
    cumsum ((mix l m x y).map (· * q)) k = l * cumsum (x.map (· * q)) k + m * cumsum (y.map (· * q)) k := by
  unfold cumsum
  rw [← List.map_take, ← List.map_take, ← List.map_take, show (mix l m x y).take (k + 1) = mix l m (x.take (k + 1)) (y.take (k + 1)) from
    List.take_zipWith, mix_sum _ _ _ _ _ (by simp [h])]

theorem mix_feasible {socMin socMax q : K} {dmd : List K} {n : ℕ} {x y : List K} {l m : K} (hl : 0 ≤ l) (hm : 0 ≤ m) (h : l + m = 1)
    (he : x.length = y.length) (hx : Feasible socMin socMax q dmd n x) (hy : Feasible socMin socMax q dmd n y) :
    Feasible socMin socMax q dmd n (mix l m x y) := by
  intro k hk
  have hlen : (mix l m x y).length = x.length := by simp [mix, he]
  obtain ⟨a1, a2⟩ := hx k (hlen ▸ hk)
  obtain ⟨b1, b2⟩ := hy k (he ▸ hlen ▸ hk)
  unfold beforeEmpty beforeFull at *
  rw [mix_cumsum _ _ _ _ _ he]
  constructor
  · linear_combination mul_nonneg hl a1 + mul_nonneg hm b1 + (socMin - heatDmd dmd n k) * h
  · linear_combination mul_nonneg hl a2 + mul_nonneg hm b2 + (socMax + heatDmd dmd n k) * h

theorem runs_possible {c : Prices K} {w : List Bool} {x : List K} (hx : Runs c w x) : ∀ v ∈ x, v = 0 ∨ c.lo ≤ v ∧ v ≤ c.up := by
  unfold Runs at hx
  induction hx with
  | nil => simp
  | @cons on u w x hu _ ih =>
    intro v hv
    rcases List.mem_cons.1 hv with rfl | hv
    · cases on
      · exact Or.inl (by simpa using hu)
      · exact Or.inr (by simpa using hu)
    · exact ih v hv

theorem mix_cost (c : Prices K) (hf : c.flat = true) (hp : 100 ≤ c.pel) (hq : 0 ≤ c.freq) (hlo : 0 < c.lo)
    (hprice : c.eex + 7 ≤ c.buy + c.penalty) {l m : K} (hl : 0 ≤ l) (hm : 0 ≤ m) (h : l + m = 1) {w : List Bool} {x y : List K}
    (hx : Runs c w x) (hy : Runs c w y) {bs ts : List K} (hb : ∀ b ∈ bs, 0 ≤ b) (ht : ∀ t ∈ ts, 0 ≤ t)
    (hbl : bs.length = x.length) (htl : ts.length = x.length) :
    ((bs.zip (ts.zip (mix l m x y))).map fun a => costScalar c a.1 a.2.1 a.2.2).sum ≤
      l * ((bs.zip (ts.zip x)).map fun a => costScalar c a.1 a.2.1 a.2.2).sum +
      m * ((bs.zip (ts.zip y)).map fun a => costScalar c a.1 a.2.1 a.2.2).sum := by
  unfold Runs at hx hy
  induction hx generalizing y bs ts with
  | nil =>
    obtain rfl := List.length_eq_zero_iff.1 hbl
    simp
  | @cons on u w x hu _ ih =>
    obtain _ | ⟨hv, hy⟩ := hy
    obtain _ | ⟨b, bs⟩ := bs
    · simp at hbl
    obtain _ | ⟨t, ts⟩ := ts
    · simp at htl
    rename_i v y
    have ih' := ih hy (bs := bs) (ts := ts) (fun b hb' => hb b (by simp [hb'])) (fun t ht' => ht t (by simp [ht']))
      (by simpa using hbl) (by simpa using htl)
    have h1 : costScalar c b t (l * u + m * v) ≤ l * costScalar c b t u + m * costScalar c b t v := by
      cases on
      · simp only [Bool.false_eq_true, if_false] at hu hv
        rw [hu, hv, mul_zero, mul_zero, add_zero]
        exact le_of_eq (by linear_combination -costScalar c b t 0 * h)
      · simp only [if_true] at hu hv
        exact C196_shape_partial c hf hp hq hlo (hb b (by simp)) (ht t (by simp)) hprice u v l m hu.1 hu.2 hv.1 hv.2 hl hm h
    simp only [mix, List.zipWith_cons_cons, List.zip_cons_cons, List.map_cons, List.sum_cons]
    unfold mix at ih'
    linarith

/-- Total distance of two plans. -/
def dist (x y : List K) : K := (List.zipWith (fun u v => |v - u|) x y).sum

theorem dist_nonneg (x y : List K) : 0 ≤ dist x y := by
  unfold dist
  induction x generalizing y with
  | nil => simp
  | cons u x ih =>
    obtain _ | ⟨v, y⟩ := y
    · simp
    rw [List.zipWith_cons_cons, List.sum_cons]
    exact add_nonneg (abs_nonneg _) (ih y)

theorem mix_near {x y : List K} (he : x.length = y.length) {m r : K} (hm : 0 ≤ m) (h : m * dist x y < r) :
    Near r x (mix (1 - m) m x y) := by
  unfold Near mix
  induction x generalizing y with
  | nil => simp
  | cons u x ih =>
    obtain _ | ⟨v, y⟩ := y
    · simp at he
    have e : dist (u :: x) (v :: y) = |v - u| + dist x y := by simp [dist]
    rw [e] at h
    have h0 := mul_nonneg hm (dist_nonneg x y)
    have h1 := mul_nonneg hm (abs_nonneg (v - u))
    rw [mul_add] at h
    refine .cons ?_ (ih (by simpa using he) (by linarith))
    rw [show (1 - m) * u + m * v - u = m * (v - u) by ring, abs_mul, abs_of_nonneg hm]
    linarith

/-- **C197**, partial: among the plans that run in the same steps and keep the constraints of the storage, a plan that is cheaper than
those near it is the cheapest.  Conditions as for C196.  Missing: plans that run in other steps (`C196_fails_standstill`) and other prices
(`C196_fails_prices`). -/
theorem C197_plan_partial (c : Prices K) (hf : c.flat = true) (hp : 100 ≤ c.pel) (hq : 0 ≤ c.freq) (hlo : 0 < c.lo) (hup : 0 ≤ c.up)
    (hprice : c.eex + 7 ≤ c.buy + c.penalty) {bs ts x : List K} (hb : ∀ b ∈ bs, 0 ≤ b) (ht : ∀ t ∈ ts, 0 ≤ t)
    (hbl : bs.length = x.length) (htl : ts.length = x.length) (w : List Bool) (socMin socMax q : K) (dmd : List K) (n : ℕ)
    (hx : Runs c w x ∧ Feasible socMin socMax q dmd n x) {r : K} (hr : 0 < r)
    (hloc : ∀ y, Runs c w y → Feasible socMin socMax q dmd n y → Near r x y → (costPlan c bs ts x).1 ≤ (costPlan c bs ts y).1) :
    Optimal {y | Runs c w y ∧ Feasible socMin socMax q dmd n y} c bs ts x := by
  refine ⟨hx, fun y hy => ?_⟩
  have he : x.length = y.length := hx.1.length_eq.symm.trans hy.1.length_eq
  have hd : 0 < dist x y + r := by
    have := dist_nonneg x y
    linarith
  have hm0 : 0 < r / (dist x y + r) := div_pos hr hd
  have hm1 : r / (dist x y + r) ≤ 1 := by
    rw [div_le_one hd]
    have := dist_nonneg x y
    linarith
  have hn : r / (dist x y + r) * dist x y < r := by
    rw [div_mul_eq_mul_div, div_lt_iff₀ hd]
    exact mul_lt_mul_of_pos_left (by linarith) hr
  generalize r / (dist x y + r) = m at hm0 hm1 hn
  have hz := mix_runs c (sub_nonneg.2 hm1) hm0.le (by ring) hx.1 hy.1
  have h1 := hloc _ hz (mix_feasible (sub_nonneg.2 hm1) hm0.le (by ring) he hx.2 hy.2) (mix_near he hm0.le hn)
  have h2 := mix_cost c hf hp hq hlo hprice (sub_nonneg.2 hm1) hm0.le (by ring) hx.1 hy.1 hb ht hbl htl
  rw [C72_plan_cost_partial c hlo.le hup (runs_possible hx.1), C72_plan_cost_partial c hlo.le hup (runs_possible hz)] at h1
  rw [C72_plan_cost_partial c hlo.le hup (runs_possible hx.1), C72_plan_cost_partial c hlo.le hup (runs_possible hy.1)]
  dsimp only at h1 ⊢
  have h3 := h1.trans h2
  refine le_of_mul_le_mul_left (a := m) ?_ hm0
  linarith

/-- Two steps with 5 kWh of heat per step at full power: the plan runs at full power, then stands still. -/
example : Runs examplePrices [true, false] [1, 0] ∧ Feasible (5 : ℚ) 10 5 [2, 2] 0 [1, 0] := by
  refine ⟨.cons ?_ (.cons ?_ .nil), ?_⟩
  · decide +kernel
  · decide +kernel
  · intro k hk
    have : k = 0 ∨ k = 1 := by
      simp at hk
      omega
    rcases this with rfl | rfl <;> decide +kernel

theorem example_cost {v : ℚ} (h1 : 1 / 2 ≤ v) (h2 : v ≤ 1) :
    costScalar examplePrices 5000 5000 1 ≤ costScalar examplePrices 5000 5000 v := by
  have e : examplePrices.pel = 10000 := rfl
  have hle : ∀ z : ℚ, 1 / 2 ≤ z → z ≤ 1 → costScalar examplePrices 5000 5000 z = examplePrices.freq * (examplePrices.upkeep +
      (5000 + 5000) / 1000 * (examplePrices.penalty - 0.8) + ((examplePrices.gas - examplePrices.taxRefund - examplePrices.netz) /
      examplePrices.eta + 6.756 - 3.1 - examplePrices.eex) * (z * 10) -
      (examplePrices.buy + examplePrices.penalty - examplePrices.eex - 7) * (z * 10) - 4.9 * (z * 10) - 3 * (z * 10)) := by
    intro z hz hz'
    rw [cost_caps examplePrices rfl (by rw [e]; norm_num) (by norm_num) (by norm_num) (by linarith), e]
    rw [show z * 10000 / 1000 = z * 10 by ring]
    have : z * 10 ≤ 10 := by linarith
    have m1 : ∀ s : ℚ, 10 ≤ s → min (z * 10) s = z * 10 := fun s hs => min_eq_left (this.trans hs)
    rw [m1 _ (by norm_num), m1 _ (by norm_num), m1 _ (by norm_num), m1 _ (by norm_num), m1 _ (by norm_num), m1 _ (by norm_num),
      m1 _ (by norm_num), m1 _ (by norm_num), m1 _ (by norm_num)]
    ring
  rw [hle 1 (by norm_num) le_rfl, hle v h1 h2]
  simp only [examplePrices]
  norm_num
  linarith

/-- The plan of the example is cheaper than those near it. -/
example (y : List ℚ) (hy : Runs examplePrices [true, false] y) :
    (costPlan examplePrices [5000, 5000] [5000, 5000] [1, 0]).1 ≤ (costPlan examplePrices [5000, 5000] [5000, 5000] y).1 := by
  rw [C72_plan_cost_partial examplePrices (by decide +kernel) (by decide +kernel) (runs_possible hy),
    C72_plan_cost_partial examplePrices (by decide +kernel) (by decide +kernel) (by
      intro v hv
      simp only [List.mem_cons, List.not_mem_nil, or_false] at hv
      rcases hv with rfl | rfl
      · exact Or.inr (by decide +kernel)
      · exact Or.inl rfl)]
  unfold Runs at hy
  obtain _ | ⟨h1, _ | ⟨h2, _ | _⟩⟩ := hy
  simp only [if_true, Bool.false_eq_true, if_false] at h1 h2
  subst h2
  have := example_cost (show 1 / 2 ≤ _ from h1.1) (show _ ≤ 1 from h1.2)
  simp only [List.zip_cons_cons, List.zip_nil_right, List.map_cons, List.map_nil, List.sum_cons, List.sum_nil]
  linarith

end Verif.Tariff
