import Mathlib.Analysis.Convex.Jensen
import Mathlib.Data.Real.Basic
import Mathlib.Algebra.BigOperators.Fin
import Mathlib.Data.Fintype.Option
import Mathlib.Algebra.BigOperators.Option
import Mathlib.Tactic.Linarith
import Mathlib.Tactic.FieldSimp
import Mathlib.Tactic.Ring

/-!
# Jensen's inequality for a cell which is pulled towards its neighbours
-/

namespace Verif.Jensen

open Finset

/-- The cell at `T` is pulled with the conductances of a list towards the temperatures of that list: `c` is the sum of the
conductances, `d` the heat flow, `e` the same with `φ` of the temperatures. -/
def Mix (φ : ℝ → ℝ) (a b T c d e : ℝ) : Prop :=
  ∃ l : List (ℝ × ℝ), (∀ q ∈ l, 0 ≤ q.1 ∧ q.2 ∈ Set.Icc a b) ∧ (l.map Prod.fst).sum = c ∧
    (l.map fun q => q.1 * (q.2 - T)).sum = d ∧ (l.map fun q => q.1 * (φ q.2 - φ T)).sum = e

variable {φ : ℝ → ℝ} {a b T c d e c' d' e' : ℝ}

theorem Mix.zero (φ : ℝ → ℝ) (a b T : ℝ) : Mix φ a b T 0 0 0 := ⟨[], by simp⟩

theorem Mix.one (hc : 0 ≤ c) {x : ℝ} (h : a ≤ x ∧ x ≤ b) : Mix φ a b T c (c * (x - T)) (c * (φ x - φ T)) :=
  ⟨[(c, x)], by simpa using ⟨hc, h⟩, by simp, by simp, by simp⟩

theorem Mix.add (h : Mix φ a b T c d e) (h' : Mix φ a b T c' d' e') : Mix φ a b T (c + c') (d + d') (e + e') := by
  obtain ⟨l, h1, h2, h3, h4⟩ := h
  obtain ⟨l', h1', h2', h3', h4'⟩ := h'
  refine ⟨l ++ l', ?_, by simp [h2, h2'], by simp [h3, h3'], by simp [h4, h4']⟩
  intro q hq
  rcases List.mem_append.1 hq with hq | hq
  exacts [h1 q hq, h1' q hq]

theorem Mix.sum {ι : Type*} (l : List ι) (c d e : ι → ℝ) (h : ∀ i ∈ l, Mix φ a b T (c i) (d i) (e i)) :
    Mix φ a b T (l.map c).sum (l.map d).sum (l.map e).sum := by
  induction l with
  | nil => exact Mix.zero φ a b T
  | cons i l ih =>
    simp only [List.map_cons, List.sum_cons]
    exact (h i List.mem_cons_self).add (ih fun j hj => h j (List.mem_cons_of_mem _ hj))

theorem sum_map {α : Type*} (l : List α) (f : α → ℝ) : (l.map f).sum = ∑ i : Fin l.length, f (l.get i) := by
  conv_lhs => rw [← List.ofFn_get l]
  rw [List.map_ofFn, List.sum_ofFn]
  rfl

/-- Jensen's inequality: after a step that is not too long the cell is a mean of what it is connected to. -/
theorem Mix.step (hφ : ConvexOn ℝ (Set.Icc a b) φ) (hT : a ≤ T ∧ T ≤ b) (hm : Mix φ a b T c d e) {h C : ℝ} (hh : 0 ≤ h)
    (hC : 0 < C) (hs : h * c ≤ C) : φ (T + h * (d / C)) ≤ φ T + h * (e / C) := by
  obtain ⟨l, h1, rfl, rfl, rfl⟩ := hm
  rw [sum_map] at hs
  rw [sum_map, sum_map]
  set t := h / C with ht
  have ht0 : 0 ≤ t := div_nonneg hh hC.le
  have hs' : t * ∑ i : Fin l.length, (l.get i).1 ≤ 1 := by
    rw [ht, div_mul_eq_mul_div]
    exact (div_le_one hC).2 hs
  have key := hφ.map_sum_le (t := (univ : Finset (Option (Fin l.length))))
    (w := fun o => o.elim (1 - t * ∑ i : Fin l.length, (l.get i).1) fun i => t * (l.get i).1)
    (p := fun o => o.elim T fun i => (l.get i).2) ?_ ?_ ?_
  · rw [Fintype.sum_option, Fintype.sum_option] at key
    simp only [Option.elim, smul_eq_mul] at key
    have e1 : (1 - t * ∑ i : Fin l.length, (l.get i).1) * T + ∑ i : Fin l.length, t * (l.get i).1 * (l.get i).2 =
        T + h * ((∑ i : Fin l.length, (l.get i).1 * ((l.get i).2 - T)) / C) := by
      simp only [mul_sub, sum_sub_distrib, ← sum_mul, mul_assoc, ← mul_sum]
      rw [ht]
      ring
    have e2 : (1 - t * ∑ i : Fin l.length, (l.get i).1) * φ T + ∑ i : Fin l.length, t * (l.get i).1 * φ (l.get i).2 =
        φ T + h * ((∑ i : Fin l.length, (l.get i).1 * (φ (l.get i).2 - φ T)) / C) := by
      simp only [mul_sub, sum_sub_distrib, ← sum_mul, mul_assoc, ← mul_sum]
      rw [ht]
      ring
    rw [e1, e2] at key
    exact key
  · rintro (_ | i) _
    · simp only [Option.elim]
      linarith
    · exact mul_nonneg ht0 (h1 _ (List.get_mem _ _)).1
  · rw [Fintype.sum_option]
    simp only [Option.elim, ← mul_sum]
    ring
  · rintro (_ | i) _
    · exact hT
    · exact (h1 _ (List.get_mem _ _)).2

end Verif.Jensen
