import Verif.Props.PriceEffects
import Verif.Props.ModelPred

/-!
# C204: the length of the steps of a plan
-/

set_option linter.unusedSectionVars false

namespace Verif.Tariff

open Verif.ModelPred (beforeEmpty beforeFull heatDmd cumsum)

variable {K : Type*} [Field K] [LinearOrder K] [IsStrictOrderedRing K]

/-- Specification: every step is divided into `m` steps with the same value. -/
def divided {A : Type*} (m : ℕ) (xs : List A) : List A := xs.flatMap (List.replicate m)

theorem divided_cons {A : Type*} (m : ℕ) (x : A) (xs : List A) :
    divided m (x :: xs) = List.replicate m x ++ divided m xs := rfl

theorem divided_map {A B : Type*} (m : ℕ) (f : A → B) (xs : List A) : divided m (xs.map f) = (divided m xs).map f := by
  induction xs with
  | nil => rfl
  | cons x xs ih => rw [List.map_cons, divided_cons, divided_cons, ih, List.map_append, List.map_replicate]

theorem divided_zip {A B : Type*} (m : ℕ) (xs : List A) (ys : List B) :
    (divided m xs).zip (divided m ys) = divided m (xs.zip ys) := by
  induction xs generalizing ys with
  | nil => rfl
  | cons x xs ih =>
    obtain _ | ⟨y, ys⟩ := ys
    · show List.zip _ [] = []
      simp
    · rw [List.zip_cons_cons, divided_cons, divided_cons, divided_cons, List.zip_append (by simp), ih]
      simp

theorem divided_sum (m : ℕ) (xs : List K) : (divided m xs).sum = m * xs.sum := by
  induction xs with
  | nil => simp [divided]
  | cons x xs ih => rw [divided_cons, List.sum_append, ih, List.sum_cons, List.sum_replicate, nsmul_eq_mul, mul_add]

theorem divided_take {A : Type*} (m : ℕ) (xs : List A) (j : ℕ) : (divided m xs).take (m * j) = divided m (xs.take j) := by
  induction xs generalizing j with
  | nil => simp [divided]
  | cons x xs ih =>
    obtain _ | j := j
    · simp [divided]
    · rw [List.take_succ_cons, divided_cons, divided_cons, ← ih, List.take_append]
      congr 1
      · rw [List.take_of_length_le]
        rw [List.length_replicate]
        exact Nat.le_mul_of_pos_right m (by omega)
      · rw [List.length_replicate]
        congr 1
        rw [Nat.mul_succ]
        omega

theorem earnings_freq (c : Prices K) (f b t x : K) :
    (earnings { c with freq := f * c.freq } b t x).sum = f * (earnings c b t x).sum := by
  unfold earnings Earnings.sum
  dsimp only
  split_ifs <;> ring

/-- **C204**: dividing all steps of a plan does not change its cost, whatever the prices, loads and plans. -/
theorem C204_cost (c : Prices K) {m : ℕ} (hm : 0 < m) (bs ts xs : List K) :
    (costPlan { c with freq := c.freq / m } (divided m bs) (divided m ts) (divided m xs)).1 = (costPlan c bs ts xs).1 := by
  unfold costPlan
  dsimp only
  have e : (cut { c with freq := c.freq / m } : K → K) = cut c := rfl
  rw [e, ← divided_map, divided_zip, divided_zip, ← divided_map, divided_sum, ← List.sum_map_mul_left]
  congr 1
  refine List.map_congr_left fun a _ => ?_
  have h := earnings_freq c (1 / m) a.1 a.2.1 a.2.2
  rw [one_div_mul_eq_div] at h
  rw [h]
  have : (m : K) ≠ 0 := Nat.cast_ne_zero.2 hm.ne'
  field_simp

theorem cumsum_divided {m : ℕ} (hm : 0 < m) (xs : List K) (j : ℕ) :
    cumsum (divided m xs) (m * (j + 1) - 1) = m * cumsum xs j := by
  unfold cumsum
  have : m * (j + 1) - 1 + 1 = m * (j + 1) := Nat.sub_add_cancel (Nat.mul_pos hm (by omega))
  rw [this, divided_take, divided_sum]

theorem cumsum_divided_first {m : ℕ} (hm : 0 < m) (xs : List K) (n : ℕ) :
    cumsum (divided m xs) (m * n) = m * (xs.take n).sum + (xs[n]?).getD 0 := by
  unfold cumsum
  rw [List.take_add, List.sum_append, divided_take, divided_sum]
  congr 1
  induction xs generalizing n with
  | nil => simp [divided]
  | cons x xs ih =>
    obtain _ | n := n
    · rw [divided_cons]
      obtain ⟨m, rfl⟩ : ∃ i, m = i + 1 := ⟨m - 1, by omega⟩
      simp [List.replicate_succ]
    · rw [divided_cons, List.drop_append, List.length_replicate]
      have h1 : m * (n + 1) - m = m * n := by rw [Nat.mul_succ]; omega
      rw [h1, List.drop_of_length_le (by rw [List.length_replicate]; exact Nat.le_mul_of_pos_right m (by omega)),
        List.nil_append, ih]
      simp

/-- **C204**, partial: at the ends of the original steps, the constraints of the divided plan are those of the original
plan but for one term: the storage is emptier by the part `1 - 1 / m` of the demand in the first step.  (The original
plan does not count this demand at all, C77; the finer the steps, the smaller the part that is not counted.) -/
theorem C204_constraints_partial {m : ℕ} (hm : 0 < m) (socMin socMax q : K) (dmd xs : List K) (n k : ℕ) :
    let missing := (dmd[n]?).getD 0 * (1 - 1 / m)
    beforeEmpty socMin (q / m) (divided m (dmd.map (· / (m : K)))) (m * n) (divided m xs) (m * (k + 1) - 1) =
      beforeEmpty socMin q dmd n xs k - missing ∧
    beforeFull socMax (q / m) (divided m (dmd.map (· / (m : K)))) (m * n) (divided m xs) (m * (k + 1) - 1) =
      beforeFull socMax q dmd n xs k + missing := by
  intro missing
  have hm' : (m : K) ≠ 0 := Nat.cast_ne_zero.2 hm.ne'
  have e1 : cumsum ((divided m xs).map (· * (q / m))) (m * (k + 1) - 1) = cumsum (xs.map (· * q)) k := by
    rw [← divided_map, cumsum_divided hm]
    unfold cumsum
    rw [← List.map_take, ← List.map_take, List.sum_map_mul_right, List.sum_map_mul_right]
    field_simp
  have hmap : ∀ l : List K, (l.map (· / (m : K))).sum = l.sum / m := fun l => by
    simp only [div_eq_mul_inv]
    rw [List.sum_map_mul_right]
    simp
  have e2 : heatDmd (divided m (dmd.map (· / (m : K)))) (m * n) (m * (k + 1) - 1) = heatDmd dmd n k + missing := by
    unfold heatDmd
    have hi : m * n + (m * (k + 1) - 1) = m * (n + k + 1) - 1 := by
      have : 1 ≤ m * (k + 1) := Nat.mul_pos hm (by omega)
      rw [← Nat.add_sub_assoc this, ← Nat.mul_add, Nat.add_assoc]
    rw [hi, cumsum_divided hm, cumsum_divided_first hm]
    unfold cumsum
    rw [← List.map_take, ← List.map_take, hmap, hmap, List.getElem?_map, List.take_add_one (l := dmd) (i := n), List.sum_append]
    have hg : ((dmd[n]?).map (· / (m : K))).getD 0 = (dmd[n]?).getD 0 / m := by
      cases dmd[n]? <;> simp
    have ho : (dmd[n]?).toList.sum = (dmd[n]?).getD 0 := by
      cases dmd[n]? <;> simp
    rw [hg, ho]
    simp only [missing]
    field_simp
    ring
  unfold beforeEmpty beforeFull
  rw [e1, e2]
  constructor <;> ring

/-- One step at full power, and the same as two steps: 3 kWh of demand are not counted with one step, 1.5 kWh with two. -/
example : beforeEmpty (0 : ℚ) 5 [3, 3] 0 [1, 1] 1 = 7 ∧
    beforeEmpty (0 : ℚ) (5 / 2) (divided 2 [3 / 2, 3 / 2]) 0 (divided 2 [1, 1]) 3 = 11 / 2 := by
  decide +kernel

/-- **C204** is false of the constraints: with the storage at its lower capacity and a demand of 3 kWh per step, standing still is
admissible for a plan with one step, and not if the step is divided into two. -/
theorem C204_fails_first_step :
    0 ≤ beforeEmpty (0 : ℚ) 5 [3] 0 [0] 0 ∧
    beforeEmpty (0 : ℚ) (5 / 2) (divided 2 [3 / 2]) 0 (divided 2 [0]) 1 = -3 / 2 := by
  decide +kernel

end Verif.Tariff
