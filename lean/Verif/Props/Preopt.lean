import Verif.Model.Preopt
import Mathlib.Algebra.Order.Field.Basic
import Mathlib.Tactic.Linarith
import Mathlib.Tactic.NormNum

/-!
# C198: the starting point of the long-term optimisation
-/

set_option linter.unusedSectionVars false

namespace Verif.Preopt

open Verif.ModelPred (beforeEmpty beforeFull)

variable {K : Type*} [Field K] [LinearOrder K] [IsStrictOrderedRing K]

/-- Specification: the constraints of the storage hold in all steps. -/
def Keeps (e : Env K) (x : List K) : Prop :=
  ∀ k < x.length, 0 ≤ beforeEmpty e.socMin e.q e.dmd e.n x k ∧ 0 ≤ beforeFull e.socMax e.q e.dmd e.n x k

theorem violated_iff (e : Env K) (x : List K) : (anyFull e x || anyEmpty e x) = false ↔ Keeps e x := by
  unfold anyFull anyEmpty Keeps full empty
  simp only [Bool.or_eq_false_iff, List.any_eq_false, List.mem_range, decide_eq_true_eq, not_lt]
  exact ⟨fun h k hk => ⟨h.2 k hk, h.1 k hk⟩, fun h => ⟨fun k hk => (h k hk).2, fun k hk => (h k hk).1⟩⟩

/-- **C198** (result): the starting point keeps the constraints of the storage, or it is the plan that was given. -/
theorem C198_result (e : Env K) (rank : (ℕ → Bool) → List K → ℕ → ℕ) (x0 : List K) : Keeps e (preopt e rank x0) ∨ preopt e rank x0 = x0 := by
  unfold preopt
  generalize (fun k => decide (full e x0 k < 0)) = mask
  have : ∀ n x, Keeps e (loop e rank mask x0 n x) ∨ loop e rank mask x0 n x = x0 := by
    intro n
    induction n with
    | zero =>
      intro x
      unfold loop
      split_ifs with h
      · exact Or.inr rfl
      · exact Or.inl ((violated_iff e x).1 (by simpa using h))
    | succ n ih =>
      intro x
      unfold loop
      split_ifs with h
      · exact ih _
      · exact Or.inl ((violated_iff e x).1 (by simpa using h))
  exact this 100 x0

/-- **C198** (kept): a plan that keeps the constraints is not changed. -/
theorem C198_kept (e : Env K) (rank : (ℕ → Bool) → List K → ℕ → ℕ) {x0 : List K} (h : Keeps e x0) : preopt e rank x0 = x0 := by
  unfold preopt loop
  rw [(violated_iff e x0).2 h]
  rfl

theorem pass_length (e : Env K) (rank : (ℕ → Bool) → List K → ℕ → ℕ) (mask : ℕ → Bool) (x : List K) :
    (pass e rank mask x).length = x.length := by
  have h1 : ∀ y, (lower rank mask y).length = y.length := fun y => by simp [lower]
  have h2 : (raise e x).length = x.length := by simp [raise]
  unfold pass
  dsimp only
  by_cases a : anyEmpty e x = true <;> simp only [a, if_true, if_false, Bool.false_eq_true] <;> split_ifs <;> simp [h1, h2]

theorem loop_inv (e : Env K) (rank : (ℕ → Bool) → List K → ℕ → ℕ) (mask : ℕ → Bool) (x0 : List K) (P : List K → Prop) (h0 : P x0)
    (hp : ∀ x, P x → P (pass e rank mask x)) (n : ℕ) (x : List K) (hx : P x) : P (loop e rank mask x0 n x) := by
  induction n generalizing x with
  | zero =>
    unfold loop
    split_ifs
    · exact h0
    · exact hx
  | succ n ih =>
    unfold loop
    split_ifs
    · exact ih _ (hp x hx)
    · exact hx

/-- Specification: places of the selected entries of a plan in ascending order. -/
def Sorts (rank : (ℕ → Bool) → List K → ℕ → ℕ) : Prop :=
  ∀ mask (x : List K) (k : ℕ), k < x.length → mask k = true → rank mask x k < (List.range x.length).countP mask

theorem minus_range {m j : ℕ} (h : j < m) : (-0.2 : K) ≤ minus m j ∧ (minus m j : K) ≤ -0.01 := by
  unfold minus
  split_ifs with h1
  · norm_num
  · have hm : (1 : K) < m := by exact_mod_cast not_le.1 h1
    have hj : (j : K) ≤ m - 1 := by
      have : (j : K) + 1 ≤ m := by exact_mod_cast h
      linarith
    have hj0 : (0 : K) ≤ j := Nat.cast_nonneg j
    have hd : (0 : K) < m - 1 := by linarith
    have e1 : (0 : K) ≤ j * (0.19 / (m - 1)) := mul_nonneg hj0 (div_nonneg (by norm_num) hd.le)
    have e2 : (j : K) * (0.19 / (m - 1)) ≤ 0.19 := by
      rw [mul_div_assoc', div_le_iff₀ hd, mul_comm]
      exact mul_le_mul_of_nonneg_left hj (by norm_num)
    norm_num at e1 e2 ⊢
    constructor <;> linarith

/-- A property of single entries that raising and lowering keep holds for the whole plan. -/
theorem pass_all (e : Env K) {rank : (ℕ → Bool) → List K → ℕ → ℕ} (hr : Sorts rank) (mask : ℕ → Bool) (P : K → Prop)
    (hraise : ∀ v, P v → P (if 1 < (if v * 1.05 < 0.5 then 0.5 else v * 1.05) then 1 else (if v * 1.05 < 0.5 then 0.5 else v * 1.05)))
    (hcut : ∀ v, P v → P (if 1 < v then 1 else v))
    (hlower : ∀ v d, P v → -0.2 ≤ d → d ≤ -0.01 → P (if v + d < 0.5 then 0 else v + d)) (x : List K) (hx : ∀ v ∈ x, P v) :
    ∀ v ∈ pass e rank mask x, P v := by
  have h1 : ∀ y : List K, (∀ v ∈ y, P v) → ∀ v ∈ lower rank mask y, P v := by
    intro y hy v hv
    unfold lower at hv
    obtain ⟨k, hk, rfl⟩ := List.mem_mapIdx.1 hv
    dsimp only
    split_ifs with hm hlt
    · have := minus_range (K := K) (hr mask y k hk hm)
      have := hlower (y[k]) _ (hy _ (List.getElem_mem hk)) this.1 this.2
      rwa [if_pos hlt] at this
    · have := minus_range (K := K) (hr mask y k hk hm)
      have := hlower (y[k]) _ (hy _ (List.getElem_mem hk)) this.1 this.2
      rwa [if_neg hlt] at this
    · exact hy _ (List.getElem_mem hk)
  have h2 : ∀ v ∈ raise e x, P v := by
    intro v hv
    unfold raise at hv
    obtain ⟨k, hk, rfl⟩ := List.mem_mapIdx.1 hv
    have hk' := hx _ (List.getElem_mem hk)
    dsimp only
    by_cases a : empty e x k < e.socMin * 0.1
    · simp only [if_pos a]
      exact hraise _ hk'
    · simp only [if_neg a]
      exact hcut _ hk'
  unfold pass
  dsimp only
  by_cases a : anyEmpty e x = true
  · simp only [a, if_true]
    split_ifs
    · exact h1 _ h2
    · exact h2
  · simp only [a, if_false, Bool.false_eq_true]
    split_ifs
    · exact h1 _ hx
    · exact hx

/-- **C198** (range): the starting point has as many entries as the plan that was given, and all are between 0 and 1 if those were. -/
theorem C198_range (e : Env K) {rank : (ℕ → Bool) → List K → ℕ → ℕ} (hr : Sorts rank) {x0 : List K} (h : ∀ v ∈ x0, 0 ≤ v ∧ v ≤ 1) :
    (preopt e rank x0).length = x0.length ∧ ∀ v ∈ preopt e rank x0, 0 ≤ v ∧ v ≤ 1 := by
  refine ⟨loop_inv e rank _ x0 (fun x => x.length = x0.length) rfl (fun x hx => (pass_length ..).trans hx) 100 x0 rfl,
    loop_inv e rank _ x0 (fun x => ∀ v ∈ x, 0 ≤ v ∧ v ≤ 1) h (fun x hx => ?_) 100 x0 h⟩
  refine pass_all e hr _ _ ?_ ?_ ?_ x hx
  · rintro v ⟨h0, _⟩
    have : 0 ≤ v * 1.05 := mul_nonneg h0 (by norm_num)
    split_ifs <;> constructor <;> first | assumption | norm_num at *
    all_goals assumption
  · rintro v ⟨h0, h1⟩
    rw [if_neg (not_lt.2 h1)]
    exact ⟨h0, h1⟩
  · rintro v d ⟨h0, h1⟩ _ hd
    split_ifs with hl
    · norm_num
    · norm_num at hl hd ⊢
      constructor <;> linarith

/-- **C198**, partial (modulation): for a plant that can run between half and full power, the starting point only has modulations that the
plant can run, if the given plan has.  Missing: plants with another range (`C198_fails_modulation`). -/
theorem C198_modulation_partial (e : Env K) {rank : (ℕ → Bool) → List K → ℕ → ℕ} (hr : Sorts rank) {x0 : List K}
    (h : ∀ v ∈ x0, v = 0 ∨ 0.5 ≤ v ∧ v ≤ 1) : ∀ v ∈ preopt e rank x0, v = 0 ∨ 0.5 ≤ v ∧ v ≤ 1 := by
  refine loop_inv e rank _ x0 (fun x => ∀ v ∈ x, v = 0 ∨ 0.5 ≤ v ∧ v ≤ 1) h (fun x hx => ?_) 100 x0 h
  refine pass_all e hr _ _ ?_ ?_ ?_ x hx
  · intro v _
    refine Or.inr ?_
    split_ifs with h1 h2 h3 <;> norm_num at * <;> exact ⟨by assumption, by assumption⟩
  · rintro v (rfl | ⟨h0, h1⟩)
    · norm_num
    · rw [if_neg (not_lt.2 h1)]
      exact Or.inr ⟨h0, h1⟩
  · intro v d hv _ hd
    split_ifs with hl
    · exact Or.inl rfl
    · refine Or.inr ⟨not_lt.1 hl, ?_⟩
      norm_num at hd
      rcases hv with rfl | ⟨_, h1⟩ <;> linarith

/-- Places found by sorting, equal entries in the order of the plan. -/
def stable (mask : ℕ → Bool) (x : List ℚ) (k : ℕ) : ℕ :=
  (List.range x.length).countP fun j => mask j && decide (x.getD j 0 < x.getD k 0 ∨ x.getD j 0 = x.getD k 0 ∧ j < k)

theorem countP_lt {α : Type*} {p q : α → Bool} {l : List α} (h : ∀ a, p a = true → q a = true) {a : α} (ha : a ∈ l)
    (hq : q a = true) (hp : p a = false) : l.countP p < l.countP q := by
  induction l with
  | nil => simp at ha
  | cons b l ih =>
    have hle : l.countP p ≤ l.countP q := List.countP_mono_left fun x _ => h x
    rcases List.mem_cons.1 ha with rfl | ha
    · rw [List.countP_cons_of_neg (by simp [hp]), List.countP_cons_of_pos hq]
      omega
    · have := ih ha
      rw [List.countP_cons, List.countP_cons]
      have hb := h b
      by_cases c : p b = true
      · simp only [c, hb c, if_true]; omega
      · simp only [c, if_false, Bool.false_eq_true]
        omega

theorem stable_sorts : Sorts stable := by
  intro mask x k hk hm
  refine countP_lt (a := k) (fun j hj => ?_) (List.mem_range.2 hk) hm ?_
  · simp only [Bool.and_eq_true] at hj
    exact hj.1
  · simp

/-- The first of two steps is changed: the storage would be overfull. -/
example : preopt (⟨10, 6, 10, [0, 4], 0⟩ : Env ℚ) stable [1, 1] = [0, 97 / 100] := by decide +kernel

/-- **C198** fails to find a plan: the steps to be lowered are looked up before the loop, so that a storage that becomes overfull by raising
others is not noticed; the plan that was given comes back after 100 passes, though running in one step only would do. -/
theorem C198_fails_gives_up : preopt (⟨1, 3, 8, [0, 4, 1 / 2], 0⟩ : Env ℚ) stable [0, 0, 0] = [0, 0, 0] ∧
    ¬ Keeps (⟨1, 3, 8, [0, 4, 1 / 2], 0⟩ : Env ℚ) [0, 0, 0] ∧ Keeps (⟨1, 3, 8, [0, 4, 1 / 2], 0⟩ : Env ℚ) [0, 1 / 2, 0] := by
  refine ⟨by decide +kernel, fun h => ?_, (violated_iff _ _).1 (by decide +kernel)⟩
  exact absurd ((violated_iff _ _).2 h) (by decide +kernel)

/-- **C198** fails for other ranges of modulation: half power is written into the plan of a plant that has to run at 60 percent at
least. -/
theorem C198_fails_modulation : preopt (⟨1, 10, 10, [0, 4], 0⟩ : Env ℚ) stable [0, 0] = [0, 1 / 2] := by decide +kernel

end Verif.Preopt
