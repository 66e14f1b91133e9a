import Verif.Spec.Cells
import Verif.Props.Flows
import Mathlib.Algebra.BigOperators.Group.Finset.Basic
import Mathlib.Algebra.BigOperators.Ring.Finset
import Mathlib.Algebra.BigOperators.Intervals
import Mathlib.Tactic.Ring
import Mathlib.Tactic.FieldSimp
import Mathlib.Tactic.Linarith
import Mathlib.Tactic.LinearCombination

/-!
# Sums over the cells of a part
-/

namespace Verif.Cells

open Verif.Flows Finset

variable {K : Type*} [Field K]

theorem addAt_eq (f : ℕ → K) (l : List (ℕ × K)) (k : ℕ) :
    addAt f l k = f k + ((l.filter (·.1 = k)).map Prod.snd).sum := by
  induction l generalizing f with
  | nil => simp [addAt]
  | cons p l ih =>
    obtain ⟨i, v⟩ := p
    rw [addAt, ih]
    by_cases h : i = k
    · subst h; simp [add_assoc]
    · have h' : ¬ k = i := fun e => h e.symm
      simp [h, h']

/-- A sum over cells of something added at ports. -/
theorem sum_addAt (n : ℕ) (w f : ℕ → K) (l : List (ℕ × K)) (hl : ∀ p ∈ l, p.1 < n) :
    ∑ k ∈ range n, w k * addAt f l k =
      (∑ k ∈ range n, w k * f k) + (l.map fun p => w p.1 * p.2).sum := by
  induction l generalizing f with
  | nil => simp [addAt]
  | cons p l ih =>
    obtain ⟨i, v⟩ := p
    rw [addAt, ih _ fun q hq => hl q (List.mem_cons_of_mem _ hq)]
    have hi : i ∈ range n := mem_range.2 (hl (i, v) List.mem_cons_self)
    have : ∑ k ∈ range n, w k * (if k = i then f k + v else f k) =
        (∑ k ∈ range n, w k * f k) + w i * v := by
      have h2 : ∀ k ∈ range n, w k * (if k = i then f k + v else f k) =
          w k * f k + (if k = i then w k * v else 0) := by
        intro k _
        split_ifs <;> ring
      rw [sum_congr rfl h2, sum_add_distrib, sum_ite_eq' (range n) i, if_pos hi]
    rw [this]
    simp [add_assoc]

/-- A sum over ports grouped by cells. -/
theorem sum_by_cell (n : ℕ) (l : List (ℕ × K)) (hl : ∀ p ∈ l, p.1 < n) (h : ℕ → K) :
    (l.map fun p => p.2 * h p.1).sum =
      ∑ k ∈ range n, ((l.filter (·.1 = k)).map Prod.snd).sum * h k := by
  induction l with
  | nil => simp
  | cons p l ih =>
    have hp : p.1 ∈ range n := mem_range.2 (hl p List.mem_cons_self)
    rw [List.map_cons, List.sum_cons, ih fun q hq => hl q (List.mem_cons_of_mem _ hq)]
    have : ∀ k ∈ range n, (((p :: l).filter (·.1 = k)).map Prod.snd).sum * h k =
        (if k = p.1 then p.2 * h k else 0) + ((l.filter (·.1 = k)).map Prod.snd).sum * h k := by
      intro k _
      by_cases hk : p.1 = k
      · subst hk; simp; ring
      · have hk' : ¬ k = p.1 := fun e => hk e.symm
        simp [hk, hk']
    rw [sum_congr rfl this, sum_add_distrib, sum_ite_eq' (range n) p.1, if_pos hp]

/-- Shift of an index: what leaves cell `k` downwards enters cell `k + 1`. -/
theorem sum_shift (n : ℕ) (a : ℕ → K) (h0 : a 0 = 0) :
    ∑ k ∈ range n, (if k + 1 < n then a (k + 1) else 0) = ∑ k ∈ range n, a k := by
  rcases n with _ | n
  · simp
  · rw [sum_range_succ, if_neg (by omega), add_zero, sum_range_succ', h0, add_zero]
    refine sum_congr rfl fun k hk => ?_
    rw [if_pos (by have := mem_range.1 hk; omega)]

theorem sum_shift' (n : ℕ) (a : ℕ → K) (h0 : ∀ k, k + 1 = n → a k = 0) :
    ∑ k ∈ range n, (if 0 < k then a (k - 1) else 0) = ∑ k ∈ range n, a k := by
  rcases n with _ | n
  · simp
  · rw [sum_range_succ', if_neg (lt_irrefl 0), add_zero, sum_range_succ, h0 n rfl, add_zero]
    refine sum_congr rfl fun k _ => ?_
    rw [if_pos (by omega), Nat.add_sub_cancel]

end Verif.Cells
