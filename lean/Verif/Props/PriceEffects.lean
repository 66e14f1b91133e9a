import Verif.Model.Tariff
import Verif.Props.Tariff
import Mathlib.Algebra.BigOperators.Group.List.Basic
import Mathlib.Algebra.Order.Field.Basic
import Mathlib.Tactic.Linarith
import Mathlib.Tactic.LinearCombination
import Mathlib.Tactic.Ring

/-!
# C194: effects of prices on optimal plans; C195: optimal plans hour by hour

A plan is optimal if no other plan of a set of admissible plans has a lower cost (`costPlan`).  The set is arbitrary (the
constraints of the storage, C77, are one); the optimisers of `scipy` are not modelled.
-/

set_option linter.unusedSectionVars false

namespace Verif.Tariff

variable {K : Type*} [Field K] [LinearOrder K] [IsStrictOrderedRing K]

/-- Specification: `x` is one of the cheapest of the plans in `S`. -/
def Optimal (S : Set (List K)) (c : Prices K) (bs ts x : List K) : Prop :=
  x ∈ S ∧ ∀ y ∈ S, (costPlan c bs ts x).1 ≤ (costPlan c bs ts y).1

/-- Specification: total over all steps of `f` of the production, the base load and the demand of the tenants, times the length of
a step. -/
def total (c : Prices K) (bs ts x : List K) (f : K → K → K → K) : K :=
  ((bs.zip (ts.zip x)).map fun a => f (cut c a.2.2 * c.pel) a.1 a.2.1 * c.freq).sum

/-- Specification: gas burnt for the production `p`, in kWh per hour. -/
def gasBurnt (eta : K) (p _ _ : K) : K := p / (eta * 1000)
/-- Specification: electricity fed in, in kWh per hour. -/
def fedIn (p b t : K) : K := max 0 (p - (b + t)) / 1000
/-- Specification: own electricity used by base load and tenants. -/
def usedOwn (p b t : K) : K := min p (b + t) / 1000
/-- Specification: electricity bought. -/
def bought (p b t : K) : K := max 0 (b + t - p) / 1000

theorem sum_diff {α : Type*} (l : List α) (f g u : α → K) (d : K) (h : ∀ a ∈ l, f a - g a = d * u a) :
    (l.map f).sum - (l.map g).sum = d * (l.map u).sum := by
  induction l with
  | nil => simp
  | cons a l ih =>
    have h1 := h a (by simp)
    have h2 := ih fun b hb => h b (by simp [hb])
    simp only [List.map_cons, List.sum_cons]
    linear_combination h1 + h2

/-- The cost of a plan at other prices. -/
theorem cost_diff (c c' : Prices K) (bs ts x : List K) (f : K → K → K → K) (d : K) (hc : ∀ y, cut c' y = cut c y)
    (h : ∀ a ∈ bs.zip (ts.zip x), -(earnings c' a.1 a.2.1 (cut c a.2.2)).sum - -(earnings c a.1 a.2.1 (cut c a.2.2)).sum =
      d * (f (cut c a.2.2 * c.pel) a.1 a.2.1 * c.freq)) :
    (costPlan c' bs ts x).1 - (costPlan c bs ts x).1 = d * total c bs ts x f := by
  have e : ∀ c'' : Prices K, (∀ y, cut c'' y = cut c y) → (costPlan c'' bs ts x).1 =
      ((bs.zip (ts.zip x)).map fun a => -(earnings c'' a.1 a.2.1 (cut c a.2.2)).sum).sum := by
    intro c'' hcc
    unfold costPlan
    simp only [show cut c'' = cut c from funext hcc]
    rw [List.zip_map_right, List.zip_map_right, List.map_map]
    rfl
  rw [e c' hc, e c fun _ => rfl]
  exact sum_diff _ _ _ _ d h

/-- Two optimal plans at two values of a price: the higher the price, the less is taken of what it is paid for. -/
theorem revealed {S : Set (List K)} {c c' : Prices K} {bs ts x x' : List K} {f : K → K → K → K} {d : K} (hd : 0 < d)
    (hx : Optimal S c bs ts x) (hx' : Optimal S c' bs ts x')
    (h : ∀ y ∈ S, (costPlan c' bs ts y).1 - (costPlan c bs ts y).1 = d * total c bs ts y f) :
    total c bs ts x' f ≤ total c bs ts x f := by
  have h1 := hx.2 x' hx'.1
  have h2 := hx'.2 x hx.1
  have e1 := h x hx.1
  have e2 := h x' hx'.1
  by_contra hlt
  have := mul_pos hd (sub_pos.2 (not_le.1 hlt))
  linarith

/-- The electricity balance in terms of production and demand. -/
theorem balance_spec {b t : K} (p : K) (hb : 0 ≤ b) (ht : 0 ≤ t) :
    (balance p b t).feed = max 0 (p - (b + t)) ∧
    (balance p b t).ownBase + (balance p b t).ownTenants = min p (b + t) ∧
    (balance p b t).buyBase + (balance p b t).buyTenants = max 0 (b + t - p) := by
  unfold balance
  simp only
  rcases le_total p (b + t) with h | h
  · rw [max_eq_left (by linarith), min_eq_left h, max_eq_right (by linarith)]
    refine ⟨?_, ?_, ?_⟩ <;> split_ifs <;> linarith
  · rw [max_eq_right (by linarith), min_eq_right h, max_eq_left (by linarith)]
    refine ⟨?_, ?_, ?_⟩ <;> split_ifs <;> linarith

/-- **C194** (gas): with a higher gas price no optimal plan burns more gas, whatever plans are admissible. -/
theorem C194_gas (S : Set (List K)) (c : Prices K) (bs ts x x' : List K) {g g' : K} (hg : g < g')
    (hx : Optimal S { c with gas := g } bs ts x) (hx' : Optimal S { c with gas := g' } bs ts x') :
    total c bs ts x' (gasBurnt c.eta) ≤ total c bs ts x (gasBurnt c.eta) := by
  refine revealed (c := { c with gas := g }) (c' := { c with gas := g' }) (d := g' - g) (sub_pos.2 hg) hx hx' fun y _ => ?_
  refine cost_diff _ _ bs ts y (gasBurnt c.eta) (g' - g) (fun _ => rfl) fun a _ => ?_
  simp only [earnings, Earnings.sum, gasBurnt]
  ring

/-- **C194** (exchange): with a higher price at the exchange no optimal plan feeds in less. -/
theorem C194_exchange (S : Set (List K)) (c : Prices K) (bs ts x x' : List K) (hb : ∀ b ∈ bs, 0 ≤ b) (ht : ∀ t ∈ ts, 0 ≤ t)
    {e e' : K} (he : e < e') (hx : Optimal S { c with eex := e } bs ts x) (hx' : Optimal S { c with eex := e' } bs ts x') :
    total c bs ts x fedIn ≤ total c bs ts x' fedIn := by
  refine revealed (c := { c with eex := e' }) (c' := { c with eex := e }) (d := e' - e) (sub_pos.2 he) hx' hx fun y _ => ?_
  refine cost_diff _ _ bs ts y fedIn (e' - e) (fun _ => rfl) fun a ha => ?_
  have hs := (balance_spec (cut c a.2.2 * c.pel) (hb _ (List.of_mem_zip ha).1)
    (ht _ (List.of_mem_zip (List.of_mem_zip ha).2).1)).1
  change -(earnings { c with eex := e } a.1 a.2.1 (cut c a.2.2)).sum - -(earnings { c with eex := e' } a.1 a.2.1 (cut c a.2.2)).sum =
    (e' - e) * (fedIn (cut c a.2.2 * c.pel) a.1 a.2.1 * c.freq)
  simp only [earnings, Earnings.sum, fedIn, ← hs]
  ring

/-- **C194** (electricity): with a higher price of bought electricity no optimal plan uses less of its own. -/
theorem C194_electricity (S : Set (List K)) (c : Prices K) (bs ts x x' : List K) (hb : ∀ b ∈ bs, 0 ≤ b) (ht : ∀ t ∈ ts, 0 ≤ t)
    {e e' : K} (he : e < e') (hx : Optimal S { c with buy := e } bs ts x) (hx' : Optimal S { c with buy := e' } bs ts x') :
    total c bs ts x usedOwn ≤ total c bs ts x' usedOwn := by
  refine revealed (c := { c with buy := e' }) (c' := { c with buy := e }) (d := e' - e) (sub_pos.2 he) hx' hx fun y _ => ?_
  refine cost_diff _ _ bs ts y usedOwn (e' - e) (fun _ => rfl) fun a ha => ?_
  have hs := (balance_spec (cut c a.2.2 * c.pel) (hb _ (List.of_mem_zip ha).1)
    (ht _ (List.of_mem_zip (List.of_mem_zip ha).2).1)).2.1
  change -(earnings { c with buy := e } a.1 a.2.1 (cut c a.2.2)).sum - -(earnings { c with buy := e' } a.1 a.2.1 (cut c a.2.2)).sum =
    (e' - e) * (usedOwn (cut c a.2.2 * c.pel) a.1 a.2.1 * c.freq)
  simp only [earnings, Earnings.sum, usedOwn, ← hs]
  ring

/-- **C194** (penalty): with a higher penalty on resold electricity no optimal plan buys more. -/
theorem C194_penalty (S : Set (List K)) (c : Prices K) (bs ts x x' : List K) (hb : ∀ b ∈ bs, 0 ≤ b) (ht : ∀ t ∈ ts, 0 ≤ t)
    {e e' : K} (he : e < e') (hx : Optimal S { c with penalty := e } bs ts x)
    (hx' : Optimal S { c with penalty := e' } bs ts x') : total c bs ts x' bought ≤ total c bs ts x bought := by
  refine revealed (c := { c with penalty := e }) (c' := { c with penalty := e' }) (d := e' - e) (sub_pos.2 he) hx hx' fun y _ => ?_
  refine cost_diff _ _ bs ts y bought (e' - e) (fun _ => rfl) fun a ha => ?_
  have hs := (balance_spec (cut c a.2.2 * c.pel) (hb _ (List.of_mem_zip ha).1)
    (ht _ (List.of_mem_zip (List.of_mem_zip ha).2).1)).2.2
  change -(earnings { c with penalty := e' } a.1 a.2.1 (cut c a.2.2)).sum -
    -(earnings { c with penalty := e } a.1 a.2.1 (cut c a.2.2)).sum = (e' - e) * (bought (cut c a.2.2 * c.pel) a.1 a.2.1 * c.freq)
  simp only [earnings, Earnings.sum, bought, ← hs]
  ring

/-- **C194** (refunds): with a higher refund of the energy tax or of the network charges no optimal plan burns less gas. -/
theorem C194_refunds (S : Set (List K)) (c : Prices K) (bs ts x x' : List K) {r r' n n' : K} (h : r + n < r' + n')
    (hx : Optimal S { c with taxRefund := r, netz := n } bs ts x) (hx' : Optimal S { c with taxRefund := r', netz := n' } bs ts x') :
    total c bs ts x (gasBurnt c.eta) ≤ total c bs ts x' (gasBurnt c.eta) := by
  refine revealed (c := { c with taxRefund := r', netz := n' }) (c' := { c with taxRefund := r, netz := n })
    (d := r' + n' - (r + n)) (sub_pos.2 h) hx' hx fun y _ => ?_
  refine cost_diff _ _ bs ts y (gasBurnt c.eta) _ (fun _ => rfl) fun a _ => ?_
  simp only [earnings, Earnings.sum, gasBurnt]
  ring

/-- Specification: 1 if the plant runs. -/
def running (p _ _ : K) : K := if p = 0 then 0 else 1

/-- **C194** (upkeep): with a higher upkeep per hour of operation no optimal plan has more hours of operation. -/
theorem C194_upkeep (S : Set (List K)) (c : Prices K) (bs ts x x' : List K) (hf : c.flat = true) (hp : c.pel ≠ 0)
    {u u' : K} (hu : u < u') (hx : Optimal S { c with upkeep := u } bs ts x) (hx' : Optimal S { c with upkeep := u' } bs ts x') :
    total c bs ts x' running ≤ total c bs ts x running := by
  refine revealed (c := { c with upkeep := u }) (c' := { c with upkeep := u' }) (d := u' - u) (sub_pos.2 hu) hx hx' fun y _ => ?_
  refine cost_diff _ _ bs ts y running (u' - u) (fun _ => rfl) fun a _ => ?_
  simp only [earnings, Earnings.sum, running, hf, if_true, mul_eq_zero, hp, or_false]
  split_ifs <;> ring

/-- Prices of an example with a plant of 10 kW. -/
def examplePrices : Prices ℚ :=
  { pel := 10000, eta := 1 / 3, lo := 1 / 2, up := 1, freq := 1, flat := true, gas := 5, taxRefund := 0, netz := 0, eex := 4, buy := 25,
    markup := 4 / 5, upkeep := 2, penalty := 1, pow := id, nonflat := 1 }

/-- Two plans are admissible, standstill and full power.  With gas for 5 ct full power is optimal, with gas for 20 ct standstill. -/
example : Optimal {[0], [1]} { examplePrices with gas := 5 } [5000] [5000] [1] ∧
    Optimal {[0], [1]} { examplePrices with gas := 20 } [5000] [5000] [0] := by
  refine ⟨⟨by simp, ?_⟩, ⟨by simp, ?_⟩⟩ <;> rintro y (rfl | rfl) <;> decide +kernel

/-- Without demand: standstill is optimal with an exchange price of 4 ct, full power with 40 ct. -/
example : Optimal {[0], [1]} { examplePrices with eex := 4, gas := 10 } [0] [0] [0] ∧
    Optimal {[0], [1]} { examplePrices with eex := 40, gas := 10 } [0] [0] [1] := by
  refine ⟨⟨by simp, ?_⟩, ⟨by simp, ?_⟩⟩ <;> rintro y (rfl | rfl) <;> decide +kernel

/-- Price of bought electricity 10 ct and 25 ct, gas for 7 ct. -/
example : Optimal {[0], [1]} { examplePrices with buy := 10, gas := 7 } [5000] [5000] [0] ∧
    Optimal {[0], [1]} { examplePrices with buy := 25, gas := 7 } [5000] [5000] [1] := by
  refine ⟨⟨by simp, ?_⟩, ⟨by simp, ?_⟩⟩ <;> rintro y (rfl | rfl) <;> decide +kernel

/-- Penalty of 0 and 30 ct, upkeep of 0 and 200 ct, refund of 0 and 10 ct. -/
example : (Optimal {[0], [1]} { examplePrices with penalty := 0, gas := 10 } [5000] [5000] [0] ∧
    Optimal {[0], [1]} { examplePrices with penalty := 30, gas := 10 } [5000] [5000] [1]) ∧
    (Optimal {[0], [1]} { examplePrices with upkeep := 0 } [5000] [5000] [1] ∧
    Optimal {[0], [1]} { examplePrices with upkeep := 200 } [5000] [5000] [0]) ∧
    (Optimal {[0], [1]} { examplePrices with taxRefund := 0, netz := 0, gas := 10 } [5000] [5000] [0] ∧
    Optimal {[0], [1]} { examplePrices with taxRefund := 10, netz := 0, gas := 10 } [5000] [5000] [1]) := by
  refine ⟨⟨⟨by simp, ?_⟩, ⟨by simp, ?_⟩⟩, ⟨⟨by simp, ?_⟩, ⟨by simp, ?_⟩⟩, ⟨⟨by simp, ?_⟩, ⟨by simp, ?_⟩⟩⟩ <;>
    rintro y (rfl | rfl) <;> decide +kernel

/-! ## C195 -/

/-- Specification: the plans for `n` steps with each entry from `M`. -/
def allPlans (n : ℕ) (M : Set K) : Set (List K) := {x | x.length = n ∧ ∀ v ∈ x, v ∈ M}

/-- Specification: the modulations that are possible. -/
def Possible (c : Prices K) (M : Set K) : Prop := ∀ v ∈ M, v = 0 ∨ c.lo ≤ v ∧ v ≤ c.up

theorem separate (f : K → K → K → K) (M : Set K) (bs ts x : List K) (hb : bs.length = x.length) (ht : ts.length = x.length)
    (hx : ∀ v ∈ x, v ∈ M) :
    (∀ y ∈ allPlans x.length M, ((bs.zip (ts.zip x)).map fun a => f a.1 a.2.1 a.2.2).sum ≤
      ((bs.zip (ts.zip y)).map fun a => f a.1 a.2.1 a.2.2).sum) ↔
    ∀ a ∈ bs.zip (ts.zip x), ∀ m ∈ M, f a.1 a.2.1 a.2.2 ≤ f a.1 a.2.1 m := by
  induction x generalizing bs ts with
  | nil =>
    obtain rfl := List.length_eq_zero_iff.1 hb
    simp
  | cons v x ih =>
    obtain _ | ⟨b, bs⟩ := bs
    · simp at hb
    obtain _ | ⟨t, ts⟩ := ts
    · simp at ht
    have ih' := ih bs ts (by simpa using hb) (by simpa using ht) fun w hw => hx w (by simp [hw])
    simp only [List.zip_cons_cons, List.map_cons, List.sum_cons, List.mem_cons, forall_eq_or_imp]
    rw [← ih']
    constructor
    · refine fun h => ⟨fun m hm => ?_, fun y hy => ?_⟩
      · have := h (m :: x) ⟨by simp, by
          intro w hw
          rcases List.mem_cons.1 hw with rfl | hw
          · exact hm
          · exact hx w (by simp [hw])⟩
        simp only [List.zip_cons_cons, List.map_cons, List.sum_cons] at this
        linarith
      · have := h (v :: y) ⟨by simp [hy.1], by
          intro w hw
          rcases List.mem_cons.1 hw with rfl | hw
          · exact hx w (by simp)
          · exact hy.2 w hw⟩
        simp only [List.zip_cons_cons, List.map_cons, List.sum_cons] at this
        linarith
    · rintro ⟨h1, h2⟩ y ⟨hy, hym⟩
      obtain _ | ⟨m, y⟩ := y
      · simp at hy
      simp only [List.zip_cons_cons, List.map_cons, List.sum_cons]
      have := h1 m (hym m (by simp))
      have := h2 y ⟨by simpa using hy, fun w hw => hym w (by simp [hw])⟩
      linarith

/-- **C195**: if each step may be chosen freely, a plan is optimal exactly if the modulation of each step has the lowest cost of that
step, as found by the scalar cost function. -/
theorem C195_hour_by_hour (c : Prices K) (hlo : 0 ≤ c.lo) (hup : 0 ≤ c.up) (M : Set K) (hM : Possible c M) (bs ts x : List K)
    (hb : bs.length = x.length) (ht : ts.length = x.length) (hx : ∀ v ∈ x, v ∈ M) :
    Optimal (allPlans x.length M) c bs ts x ↔
      ∀ a ∈ bs.zip (ts.zip x), ∀ m ∈ M, costScalar c a.1 a.2.1 a.2.2 ≤ costScalar c a.1 a.2.1 m := by
  rw [← separate (costScalar c) M bs ts x hb ht hx]
  have e : ∀ y ∈ allPlans x.length M, (costPlan c bs ts y).1 =
      ((bs.zip (ts.zip y)).map fun a => costScalar c a.1 a.2.1 a.2.2).sum := fun y hy => by
    rw [C72_plan_cost_partial c hlo hup fun v hv => hM v (hy.2 v hv)]
  have hx' : x ∈ allPlans x.length M := ⟨rfl, hx⟩
  constructor
  · intro h y hy
    rw [← e x hx', ← e y hy]
    exact h.2 y hy
  · refine fun h => ⟨hx', fun y hy => ?_⟩
    rw [e x hx', e y hy]
    exact h y hy

/-- Two hours, the first with demand, the second without: run in the first, stand still in the second. -/
example : Possible examplePrices {0, 1} ∧
    ∀ a ∈ ([5000, 0] : List ℚ).zip (([5000, 0] : List ℚ).zip [1, 0]), ∀ m ∈ ({0, 1} : Set ℚ),
      costScalar { examplePrices with gas := 7 } a.1 a.2.1 a.2.2 ≤ costScalar { examplePrices with gas := 7 } a.1 a.2.1 m := by
  refine ⟨?_, ?_⟩
  · rintro v (rfl | rfl)
    · exact Or.inl rfl
    · exact Or.inr ⟨by decide +kernel, by decide +kernel⟩
  · rintro a ha m hm
    simp only [List.zip_cons_cons, List.zip_nil_right, List.mem_cons, List.not_mem_nil, or_false] at ha
    rcases ha with rfl | rfl <;> rcases hm with rfl | rfl <;> decide +kernel

end Verif.Tariff
