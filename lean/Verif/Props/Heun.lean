import Verif.Props.Attempt
import Mathlib.Algebra.Module.Pi
import Mathlib.Algebra.Module.LinearMap.Basic
import Mathlib.Data.List.OfFn
import Mathlib.Tactic.Module

/-!
# C102, C103: the whole plant follows Heun's method, conserved quantities
-/

set_option linter.unusedSectionVars false

namespace Verif.Attempt

variable {K X H N P : Type*} [Field K] [AddCommGroup X] [Module K X]

/-- Specification: one step of Heun's method for `y' = F y`. -/
def HeunStep {Y : Type*} [AddCommGroup Y] [Module K Y] (F : Y → Y) (h : K) (y y' : Y) : Prop :=
  y' = y + (h / 2) • (F y + F (y + h • F y))

/-- Specification: the system computes the differential equation `y' k = f k (π y) (y k)` of `n` parts, where `π`
gives the port values that belong to temperatures of the parts (all other port values being constant), and there are
no parts that are solved without differential equation. -/
structure Describes (sys : System K X H N P) {n : ℕ} (f : Fin n → P → X → X) (π : (Fin n → X) → P) : Prop where
  diffs : ∀ k : Fin n, ∃ d, sys.diffs[k.val]? = some d ∧ ∀ m p x h, (d m p x h).dT = f k p x
  interm : ∀ y y', sys.interm (List.ofFn y) [] (π y') = π y
  result : ∀ y y', sys.result (List.ofFn y) [] (π y') = π y
  solves : sys.solves = []

/-- The right hand side for the whole plant. -/
def rhs {n : ℕ} (f : Fin n → P → X → X) (π : (Fin n → X) → P) (y : Fin n → X) : Fin n → X :=
  fun k => f k (π y) (y k)

theorem predict_getElem? {ports : P} {h : K} {k : ℕ} {d : Diff K X H P} {s : PState X H} :
    ∀ {ds : List (Diff K X H P)} {ss : List (PState X H)}, (predict ports h ds ss).2 = true →
      ds[k]? = some d → ss[k]? = some s → (predict ports h ds ss).1[k]? = some (predict1 ports h d s) := by
  induction k with
  | zero =>
    intro ds ss hf hd hs
    cases ds with
    | nil => simp at hd
    | cons d' ds =>
      cases ss with
      | nil => simp at hs
      | cons s' ss =>
        simp only [List.getElem?_cons_zero, Option.some.injEq] at hd hs
        subst hd hs
        rw [predict]
        split_ifs <;> rfl
  | succ k ih =>
    intro ds ss hf hd hs
    cases ds with
    | nil => simp at hd
    | cons d' ds =>
      cases ss with
      | nil => simp at hs
      | cons s' ss =>
        simp only [List.getElem?_cons_succ] at hd hs
        rw [predict] at hf ⊢
        split_ifs at hf ⊢ with hst
        rw [List.getElem?_cons_succ]
        exact ih hf hd hs

theorem correct_getElem? {ports : P} {h : K} {k : ℕ} {d : Diff K X H P} {s : PState X H} :
    ∀ {ds : List (Diff K X H P)} {ss : List (PState X H)},
      ds[k]? = some d → ss[k]? = some s → (correct ports h ds ss)[k]? = some (correct1 ports h d s) := by
  induction k with
  | zero =>
    intro ds ss hd hs
    cases ds with
    | nil => simp at hd
    | cons d' ds =>
      cases ss with
      | nil => simp at hs
      | cons s' ss =>
        simp only [List.getElem?_cons_zero, Option.some.injEq] at hd hs
        subst hd hs
        rfl
  | succ k ih =>
    intro ds ss hd hs
    cases ds with
    | nil => simp at hd
    | cons d' ds =>
      cases ss with
      | nil => simp at hs
      | cons s' ss =>
        simp only [List.getElem?_cons_succ] at hd hs
        rw [correct, List.getElem?_cons_succ]
        exact ih hd hs

theorem correct_length (ports : P) (h : K) (ds : List (Diff K X H P)) (ss : List (PState X H)) :
    (correct ports h ds ss).length = ss.length := by
  have := congrArg List.length (correct_prev ports h ds ss)
  simpa using this

theorem eq_ofFn {n : ℕ} {l : List X} {y : Fin n → X} (hl : l.length = n) (h : ∀ k : Fin n, l[k.val]? = some (y k)) :
    l = List.ofFn y := by
  apply List.ext_getElem?
  intro i
  by_cases hi : i < n
  · rw [h ⟨i, hi⟩, List.getElem?_ofFn, dif_pos hi]
  · rw [List.getElem?_eq_none (by omega), List.getElem?_eq_none (by rw [List.length_ofFn]; omega)]

/-- **C102**, partial: in a plant whose parts all have a differential equation, and whose port values belong to the
temperatures of the parts, every stable step is a step of Heun's method for the plant as a whole, and the port values
belong to the new temperatures.  Missing: plants with pumps, connectors or mixing valves (`C102_fails_pump`). -/
theorem C102_heun_partial {sys : System K X H N P} {n : ℕ} {f : Fin n → P → X → X} {π : (Fin n → X) → P}
    (hd : Describes sys f π) {s : State X H N P} {y : Fin n → X} (hy : s.parts.map PState.prev = List.ofFn y)
    (hp : s.ports = π y) (hn : s.nonnum = []) {h : K} (hst : (attempt sys h s).stable = true) :
    ∃ y', (attempt sys h s).parts.map PState.res = List.ofFn y' ∧ (attempt sys h s).ports = π y' ∧
      HeunStep (rhs f π) h y y' := by
  have hpred : (predict s.ports h sys.diffs s.parts).2 = true := by
    by_contra hb
    rw [attempt, if_neg hb] at hst
    cases hst
  have hlen : s.parts.length = n := by
    have := congrArg List.length hy
    simpa using this
  have hpart : ∀ k : Fin n, ∃ st, s.parts[k.val]? = some st ∧ st.prev = y k := by
    intro k
    have hk : k.val < s.parts.length := by rw [hlen]; exact k.2
    refine ⟨s.parts[k.val], List.getElem?_eq_getElem hk, ?_⟩
    have := congrArg (fun l => l[k.val]?) hy
    simp only [List.getElem?_map, List.getElem?_eq_getElem hk, List.getElem?_ofFn, k.2, dif_pos, Option.map_some,
      Option.some.injEq] at this
    exact this
  have hT : (predict s.ports h sys.diffs s.parts).1.map PState.T = List.ofFn (y + h • rhs f π y) := by
    apply eq_ofFn
    · rw [List.length_map, predict_length, hlen]
    · intro k
      obtain ⟨st, h1, h2⟩ := hpart k
      obtain ⟨d, h3, h4⟩ := hd.diffs k
      rw [List.getElem?_map, predict_getElem? hpred h3 h1]
      simp only [predict1, Option.map_some, h4, h2, hp]
      rfl
  have hns : ∀ p : P, solveAll p h sys.solves s.nonnum = [] := by
    intro p
    rw [hd.solves, hn]
    rfl
  have hp1 : sys.interm ((predict s.ports h sys.diffs s.parts).1.map PState.T)
      (solveAll s.ports h sys.solves s.nonnum) s.ports = π (y + h • rhs f π y) := by
    rw [hT, hns, hp]
    exact hd.interm _ _
  have hfin : (attempt sys h s).parts = correct (π (y + h • rhs f π y)) h sys.diffs
      (predict s.ports h sys.diffs s.parts).1 := by
    unfold attempt
    rw [if_pos hpred]
    unfold finish
    dsimp only
    rw [hp1]
  refine ⟨y + (h / 2) • (rhs f π y + rhs f π (y + h • rhs f π y)), ?_, ?_, rfl⟩
  · rw [hfin]
    apply eq_ofFn
    · rw [List.length_map, correct_length, predict_length, hlen]
    · intro k
      obtain ⟨st, h1, h2⟩ := hpart k
      obtain ⟨d, h3, h4⟩ := hd.diffs k
      rw [List.getElem?_map, correct_getElem? h3 (predict_getElem? hpred h3 h1)]
      simp only [correct1, predict1, Option.map_some, h4, h2, hp]
      rfl
  · have hres : (correct (π (y + h • rhs f π y)) h sys.diffs (predict s.ports h sys.diffs s.parts).1).map PState.res =
        List.ofFn (y + (h / 2) • (rhs f π y + rhs f π (y + h • rhs f π y))) := by
      apply eq_ofFn
      · rw [List.length_map, correct_length, predict_length, hlen]
      · intro k
        obtain ⟨st, h1, h2⟩ := hpart k
        obtain ⟨d, h3, h4⟩ := hd.diffs k
        rw [List.getElem?_map, correct_getElem? h3 (predict_getElem? hpred h3 h1)]
        simp only [correct1, predict1, Option.map_some, h4, h2, hp]
        rfl
    unfold attempt
    rw [if_pos hpred]
    unfold finish
    dsimp only
    rw [hp1, hres, hns]
    have : solveAll (π (y + h • rhs f π y)) h sys.solves [] = [] := by rw [hd.solves]; rfl
    rw [this]
    exact hd.result _ _

/-- **C102** (second order): for a linear plant a step of Heun's method is the exponential series up to the second
order. -/
theorem C102_second_order {Y : Type*} [AddCommGroup Y] [Module K Y] (A : Y →ₗ[K] Y) {h : K} {y y' : Y}
    (h2 : (2 : K) ≠ 0) (hs : HeunStep A h y y') : y' = y + h • A y + (h ^ 2 / 2) • A (A y) := by
  unfold HeunStep at hs
  rw [hs, map_add, map_smul, ← add_assoc, ← two_smul K (A y), smul_add, smul_smul, smul_smul, div_mul_cancel₀ _ h2,
    ← add_assoc, show h / 2 * h = h ^ 2 / 2 by ring]

/-- **C103**, partial: every weighted sum of temperatures that the differential equation of the plant conserves, such
as the energy of an adiabatic circuit with constant heat capacities, is conserved exactly by a step of any length.
Missing: plants with pumps, connectors or mixing valves (`C103_fails_pump`). -/
theorem C103_conserved_partial {sys : System K X H N P} {n : ℕ} {f : Fin n → P → X → X} {π : (Fin n → X) → P}
    (hd : Describes sys f π) {s : State X H N P} {y : Fin n → X} (hy : s.parts.map PState.prev = List.ofFn y)
    (hp : s.ports = π y) (hn : s.nonnum = []) {h : K} (hst : (attempt sys h s).stable = true)
    (E : (Fin n → X) →ₗ[K] K) (hE : ∀ z, E (fun k => f k (π z) (z k)) = 0) :
    ∃ y', (attempt sys h s).parts.map PState.res = List.ofFn y' ∧ E y' = E y := by
  obtain ⟨y', h1, _, h3⟩ := C102_heun_partial hd hy hp hn hst
  refine ⟨y', h1, ?_⟩
  unfold HeunStep at h3
  have e : ∀ z, E (rhs f π z) = 0 := hE
  rw [h3, map_add, map_smul, map_add, e, e]
  simp

theorem correct_current (p : P) (h : K) : ∀ (ds : List (Diff K X H P)) (ss : List (PState X H)),
    ss.length ≤ ds.length → ∀ q ∈ correct p h ds ss, q.T = q.res
  | _, [], _, q, hq => by simp [correct] at hq
  | [], s :: ss, hl, _, _ => by simp at hl
  | d :: ds, s :: ss, hl, q, hq => by
    rw [correct, List.mem_cons] at hq
    rcases hq with rfl | hq
    · rfl
    · exact correct_current p h ds ss (by simpa using hl) q hq

/-- **C102** (what is read): after a step the array of temperatures of each part, which sensors and controllers read,
holds the result of the step. -/
theorem C102_current {sys : System K X H N P} {s : State X H N P} {h : K} (hl : s.parts.length = sys.diffs.length)
    (hst : (attempt sys h s).stable = true) : ∀ q ∈ (attempt sys h s).parts, q.T = q.res := by
  unfold attempt at hst ⊢
  split_ifs at hst ⊢
  exact correct_current _ _ _ _ (by rw [predict_length, hl])

/-! ## Two pipes in a circle -/

/-- Two pipes of one cell, each flowing into the other, directly. -/
def circle (a : K) : System K K Unit K (K × K) where
  diffs := [fun _ p x _ => ⟨a * (p.2 - x), (), true⟩, fun _ p x _ => ⟨a * (p.1 - x), (), true⟩]
  solves := []
  interm := fun ts _ _ => (ts.getD 0 0, ts.getD 1 0)
  result := fun ts _ _ => (ts.getD 0 0, ts.getD 1 0)

/-- The same with a pump in between, which hands the temperature of the second pipe on to the first. -/
def pumpCircle (a : K) : System K K Unit K (K × K × K) where
  diffs := [fun _ p x _ => ⟨a * (p.2.2 - x), (), true⟩, fun _ p x _ => ⟨a * (p.1 - x), (), true⟩]
  solves := [fun _ p _ => p.2.1]
  interm := fun ts ns _ => (ts.getD 0 0, ts.getD 1 0, ns.getD 0 0)
  result := fun ts ns _ => (ts.getD 0 0, ts.getD 1 0, ns.getD 0 0)

theorem circle_describes (a : K) : Describes (circle a) (n := 2)
    (fun k p x => if k = 0 then a * (p.2 - x) else a * (p.1 - x)) (fun y => (y 0, y 1)) := by
  refine ⟨?_, fun _ _ => rfl, fun _ _ => rfl, rfl⟩
  intro k
  match k with
  | 0 => exact ⟨_, rfl, fun _ _ _ _ => rfl⟩
  | 1 => exact ⟨_, rfl, fun _ _ _ _ => rfl⟩

/-- The circle of two pipes at 80 and 20 meets the hypotheses; it keeps the sum of the temperatures. -/
example : (attempt (circle (1 / 2 : ℚ)) 1 ⟨[⟨80, 0, 0, 0, 0, ()⟩, ⟨20, 0, 0, 0, 0, ()⟩], [], (80, 20), true⟩).parts.map
    PState.res = [65, 35] ∧
    ∀ z : Fin 2 → ℚ, LinearMap.proj (R := ℚ) (φ := fun _ : Fin 2 => ℚ) 0 (rhs (fun k p x => if k = 0 then
      (1 / 2) * (p.2 - x) else (1 / 2) * (p.1 - x)) (fun y => (y 0, y 1)) z) + LinearMap.proj (R := ℚ)
      (φ := fun _ : Fin 2 => ℚ) 1 (rhs (fun k p x => if k = 0 then (1 / 2) * (p.2 - x) else (1 / 2) * (p.1 - x))
      (fun y => (y 0, y 1)) z) = 0 := by
  refine ⟨by decide +kernel, fun z => ?_⟩
  simp only [LinearMap.proj_apply, rhs]
  simp
  ring

example : (attempt (circle (1 / 2 : ℚ)) 1 ⟨[⟨80, 0, 0, 0, 0, ()⟩, ⟨20, 0, 0, 0, 0, ()⟩], [], (80, 20), true⟩).stable = true ∧
    (attempt (circle (1 / 2 : ℚ)) 1 ⟨[⟨80, 0, 0, 0, 0, ()⟩, ⟨20, 0, 0, 0, 0, ()⟩], [], (80, 20), true⟩).parts.map
    PState.T = [65, 35] := by decide +kernel

/-- What a step does to the circle with the pump. -/
theorem pumpCircle_step (a h u v w : K) (s t : PState K Unit) (hs : s.prev = u) (ht : t.prev = v) :
    let c := attempt (pumpCircle a) h ⟨[s, t], [w], (u, v, v), true⟩
    c.parts.map PState.res = [u + h / 2 * (a * (v - u) + a * (v - (u + h * (a * (v - u))))),
        v + h / 2 * (a * (u - v) + a * (u + h * (a * (v - u)) - (v + h * (a * (u - v)))))] := by
  simp [attempt, pumpCircle, predict, predict1, finish, correct, correct1, solveAll, hs, ht]

/-- **C102** is false of the code with a pump: although all port values are up to date before the step, the second
evaluation takes the temperature behind the pump from the beginning of the step.  The result differs from Heun's
method by `(h a)² / 2` times the difference of the temperatures, for every step length. -/
theorem C102_fails_pump (a h u v w : K) (s t : PState K Unit) (hs : s.prev = u) (ht : t.prev = v)
    (h2 : (2 : K) ≠ 0) :
    let c := attempt (pumpCircle a) h ⟨[s, t], [w], (u, v, v), true⟩
    ∀ y' : Fin 2 → K, HeunStep (fun y => ![a * (y 1 - y 0), a * (y 0 - y 1)]) h ![u, v] y' →
      c.parts.map PState.res = [y' 0 - (h * a) ^ 2 / 2 * (u - v), y' 1] := by
  intro c y' hy'
  unfold HeunStep at hy'
  have h0 := congrFun hy' 0
  have h1 := congrFun hy' 1
  simp only [Pi.add_apply, Pi.smul_apply, smul_eq_mul, Matrix.cons_val_zero, Matrix.cons_val_one] at h0 h1
  have e := pumpCircle_step a h u v w s t hs ht
  simp only at e
  rw [h0, h1]
  rw [show c.parts.map PState.res = _ from e]
  congr 1
  · field_simp
    ring

/-- **C103** is false of the code with a pump: in an adiabatic circle of two equal pipes with a pump, every step
changes the sum of the temperatures by `(h a)² / 2` times the difference of the temperatures. -/
theorem C103_fails_pump (a h u v w : K) (s t : PState K Unit) (hs : s.prev = u) (ht : t.prev = v)
    (h2 : (2 : K) ≠ 0) :
    let c := attempt (pumpCircle a) h ⟨[s, t], [w], (u, v, v), true⟩
    (c.parts.map PState.res).sum = u + v - (h * a) ^ 2 / 2 * (u - v) := by
  intro c
  have e := pumpCircle_step a h u v w s t hs ht
  simp only at e
  rw [show c.parts.map PState.res = _ from e]
  simp only [List.sum_cons, List.sum_nil]
  field_simp
  ring

/-- Pipes at 80 and 20 with half of their content replaced in the step: the mean falls from 50 to 46.25. -/
example : ((attempt (pumpCircle (1 / 2 : ℚ)) 1 ⟨[⟨80, 0, 0, 0, 0, ()⟩, ⟨20, 0, 0, 0, 0, ()⟩], [0], (80, 20, 20),
    true⟩).parts.map PState.res).sum / 2 = 185 / 4 := by decide +kernel

end Verif.Attempt
