import Verif.Model.Outliers
import Mathlib.Algebra.Order.Chebyshev
import Mathlib.Tactic.Linarith
import Mathlib.Tactic.FieldSimp
import Mathlib.Tactic.NormNum
import Mathlib.Tactic.Push
import Mathlib.Data.Fin.VecNotation
import Mathlib.Data.List.GetD

/-!
# C104, C105: removal of outliers
-/

set_option linter.unusedSectionVars false

namespace Verif.Outliers

open Finset

variable {n : ℕ}

/-! ## C104: standard deviation -/

/-- Sum of squared distances from the mean. -/
noncomputable def dev2 (y : Fin n → ℝ) : ℝ := ∑ i, (y i - mean y) ^ 2

theorem sum_dev (y : Fin n → ℝ) (hn : 0 < n) : ∑ i, (y i - mean y) = 0 := by
  have : (n : ℝ) ≠ 0 := by exact_mod_cast hn.ne'
  rw [sum_sub_distrib, sum_const, card_univ, Fintype.card_fin, nsmul_eq_mul]
  unfold mean
  field_simp
  ring

theorem dev2_nonneg (y : Fin n → ℝ) : 0 ≤ dev2 y := sum_nonneg fun _ _ => sq_nonneg _

theorem keepStd_iff {ddof : ℕ} (h : ddof < n) {k : ℝ} (hk : 0 ≤ k) (y : Fin n → ℝ) (i : Fin n) :
    keepStd ddof k y i ↔ (y i - mean y) ^ 2 * ((n : ℝ) - ddof) ≤ k ^ 2 * dev2 y := by
  have hd : (0 : ℝ) < (n : ℝ) - ddof := by
    have : (ddof : ℝ) < n := by exact_mod_cast h
    linarith
  unfold keepStd std
  rw [if_neg (by omega)]
  show |y i - mean y| ≤ k * Real.sqrt (dev2 y / _) ↔ _
  have hq : 0 ≤ dev2 y / ((n : ℝ) - ddof) := div_nonneg (dev2_nonneg y) hd.le
  rw [← sq_le_sq₀ (abs_nonneg _) (mul_nonneg hk (Real.sqrt_nonneg _)), sq_abs, mul_pow, Real.sq_sqrt hq,
    ← mul_div_assoc, le_div_iff₀ hd]

/-- Samuelson's inequality. -/
theorem samuelson (y : Fin n → ℝ) (i : Fin n) : (n : ℝ) * (y i - mean y) ^ 2 ≤ ((n : ℝ) - 1) * dev2 y := by
  have hn : 0 < n := i.pos
  have h0 := sum_dev y hn
  have e1 : (y i - mean y) + ∑ j ∈ univ.erase i, (y j - mean y) = 0 := by
    rw [add_sum_erase univ (fun j => y j - mean y) (mem_univ i), h0]
  have e2 : (y i - mean y) ^ 2 + ∑ j ∈ univ.erase i, (y j - mean y) ^ 2 = dev2 y :=
    add_sum_erase univ (fun j => (y j - mean y) ^ 2) (mem_univ i)
  have hc := sq_sum_le_card_mul_sum_sq (s := univ.erase i) (f := fun j => y j - mean y)
  rw [card_erase_of_mem (mem_univ i), card_univ, Fintype.card_fin, Nat.cast_sub hn, Nat.cast_one] at hc
  have e3 : ∑ j ∈ univ.erase i, (y j - mean y) = -(y i - mean y) := by linarith
  rw [e3, neg_sq] at hc
  have e4 : ∑ j ∈ univ.erase i, (y j - mean y) ^ 2 = dev2 y - (y i - mean y) ^ 2 := by linarith
  rw [e4] at hc
  linarith

/-- **C104** (few outliers): of `n` values at most `n / k²` are removed: with the default of three standard
deviations never more than one value in nine. -/
theorem C104_few_removed {ddof : ℕ} (h : ddof < n) {k : ℝ} (hk : 0 < k) (y : Fin n → ℝ) :
    (#{i | removeStd ddof k y i = none} : ℝ) * k ^ 2 ≤ n := by
  classical
  have hn : (0 : ℝ) < n := by exact_mod_cast (by omega : 0 < n)
  have hd : (0 : ℝ) < (n : ℝ) - ddof := by
    have : (ddof : ℝ) < n := by exact_mod_cast h
    linarith
  set R : Finset (Fin n) := {i | removeStd ddof k y i = none} with hR
  have hmem : ∀ i ∈ R, k ^ 2 * dev2 y < (y i - mean y) ^ 2 * ((n : ℝ) - ddof) := by
    intro i hi
    rw [hR, mem_filter] at hi
    have hi := hi.2
    unfold removeStd at hi
    by_contra hle
    push Not at hle
    rw [if_pos ((keepStd_iff h hk.le y i).mpr hle)] at hi
    simp at hi
  rcases R.eq_empty_or_nonempty with he | ⟨i, hi⟩
  · rw [he]; simp
  · have hpos : 0 < dev2 y := by
      by_contra hz
      have hz : dev2 y = 0 := le_antisymm (not_lt.mp hz) (dev2_nonneg y)
      have := hmem i hi
      have hs := samuelson y i
      rw [hz, mul_zero] at this hs
      have : 0 < (y i - mean y) ^ 2 := by
        by_contra hc
        push Not at hc
        have := mul_nonpos_of_nonpos_of_nonneg hc hd.le
        linarith
      have := mul_pos hn this
      linarith
    have h1 : ∑ i ∈ R, k ^ 2 * dev2 y ≤ ∑ i ∈ R, (y i - mean y) ^ 2 * ((n : ℝ) - ddof) :=
      sum_le_sum fun i hi => (hmem i hi).le
    rw [sum_const, nsmul_eq_mul, ← sum_mul] at h1
    have h2 : ∑ i ∈ R, (y i - mean y) ^ 2 ≤ dev2 y :=
      sum_le_univ_sum_of_nonneg fun _ => sq_nonneg _
    have h3 : (∑ i ∈ R, (y i - mean y) ^ 2) * ((n : ℝ) - ddof) ≤ dev2 y * n := by
      have hd' : (n : ℝ) - ddof ≤ n := by
        have : (0 : ℝ) ≤ ddof := Nat.cast_nonneg _
        linarith
      exact mul_le_mul h2 hd' hd.le hpos.le
    have h4 : ((#R : ℝ) * k ^ 2) * dev2 y ≤ n * dev2 y := by linarith
    exact le_of_mul_le_mul_right h4 hpos

/-- **C104** is false of the code for short series: with three standard deviations, no value of a series of two to
ten values is ever removed, however far it is from the others.  (`ddof` is 1 for pandas, 0 for numpy.) -/
theorem C104_fails_short_series {ddof : ℕ} (hd : ddof ≤ 1) (h2 : 2 ≤ n) (h10 : n ≤ 10) (y : Fin n → ℝ) (i : Fin n) :
    removeStd ddof 3 y i = some (y i) := by
  classical
  unfold removeStd
  rw [if_pos]
  rw [keepStd_iff (by omega) (by norm_num)]
  have hs := samuelson y i
  have hv := dev2_nonneg y
  have hn2 : (2 : ℝ) ≤ n := by exact_mod_cast h2
  have hn : (n : ℝ) ≤ 10 := by exact_mod_cast h10
  have hsq : 0 ≤ (y i - mean y) ^ 2 := sq_nonneg _
  have hdd : (0 : ℝ) ≤ ddof := Nat.cast_nonneg _
  generalize (y i - mean y) ^ 2 = q at hs hsq ⊢
  have h1 : q * ((n : ℝ) - ddof) ≤ (n : ℝ) * q := by
    have := mul_nonneg hsq hdd
    linarith
  have h3 : ((n : ℝ) - 1) * dev2 y ≤ 9 * dev2 y := mul_le_mul_of_nonneg_right (by linarith) hv
  linarith

theorem quadratic_pos {a : ℝ} (ha : 0 < a) (b c : ℝ) : ∃ d, ∀ x, d ≤ x → 0 < a * x ^ 2 + b * x + c := by
  refine ⟨1 + (|b| + |c|) / a, fun x hx => ?_⟩
  have hb := abs_nonneg b
  have hc := abs_nonneg c
  have hq : 0 ≤ (|b| + |c|) / a := div_nonneg (by linarith) ha.le
  have h1 : 1 ≤ x := by linarith
  have h2 : a + (|b| + |c|) ≤ a * x := by
    have := mul_le_mul_of_nonneg_left hx ha.le
    rw [mul_add, mul_one, mul_div_cancel₀ _ ha.ne'] at this
    exact this
  have h3 : (a + (|b| + |c|)) * x ≤ a * x * x := mul_le_mul_of_nonneg_right h2 (by linarith)
  have h4 : -(|b| * x) ≤ b * x := by
    rw [← neg_mul]
    exact mul_le_mul_of_nonneg_right (neg_abs_le b) (by linarith)
  have h5 : -(|c| * x) ≤ c := by
    have := le_mul_of_one_le_right hc h1
    have := neg_abs_le c
    linarith
  have h6 : 0 < a * x := mul_pos ha (by linarith)
  nlinarith

/-- **C104**, partial: in a series that is long enough, a value that is far enough from the others is removed.  The
condition on the length is `(n - 1)² > k² n` for pandas: 11 values for three standard deviations.  Missing: shorter
series (`C104_fails_short_series`) and series of a single value (`C104_fails_single`). -/
theorem C104_far_removed_partial {k : ℝ} (hk : 0 < k) (hlong : k ^ 2 * n < ((n : ℝ) - 1) ^ 2) (hn : 2 ≤ n)
    (y : Fin n → ℝ) (i : Fin n) :
    ∃ d, ∀ x, d ≤ x → removeStd 1 k (Function.update y i x) i = none := by
  classical
  have hn2 : (2 : ℝ) ≤ n := by exact_mod_cast hn
  set S := ∑ j ∈ univ.erase i, y j with hS
  set Q := ∑ j ∈ univ.erase i, y j ^ 2 with hQ
  have hmean : ∀ x, mean (Function.update y i x) = (x + S) / n := by
    intro x
    unfold mean
    rw [← add_sum_erase univ _ (mem_univ i), Function.update_self,
      sum_congr rfl fun j hj => Function.update_of_ne (ne_of_mem_erase hj) x y]
  have hdev : ∀ x, dev2 (Function.update y i x) = x ^ 2 + Q - (x + S) ^ 2 / n := by
    intro x
    have e1 : dev2 (Function.update y i x) =
        ∑ j, Function.update y i x j ^ 2 - (n : ℝ) * mean (Function.update y i x) ^ 2 := by
      unfold dev2
      have : ∀ j, (Function.update y i x j - mean (Function.update y i x)) ^ 2 = Function.update y i x j ^ 2
          - 2 * mean (Function.update y i x) * Function.update y i x j + mean (Function.update y i x) ^ 2 := by
        intro j; ring
      rw [sum_congr rfl fun j _ => this j, sum_add_distrib, sum_sub_distrib, ← mul_sum, sum_const, card_univ,
        Fintype.card_fin, nsmul_eq_mul]
      have : ∑ j, Function.update y i x j = n * mean (Function.update y i x) := by
        unfold mean
        field_simp
      rw [this]
      ring
    rw [e1, hmean, ← add_sum_erase univ _ (mem_univ i), Function.update_self,
      sum_congr rfl fun j hj => by rw [Function.update_of_ne (ne_of_mem_erase hj) x y], ← hQ]
    field_simp
  have ha : 0 < ((n : ℝ) - 1) * (((n : ℝ) - 1) ^ 2 - k ^ 2 * n) := mul_pos (by linarith) (by linarith)
  obtain ⟨d, hd⟩ := quadratic_pos ha (2 * (k ^ 2 * n * S - ((n : ℝ) - 1) ^ 2 * S))
    (((n : ℝ) - 1) * S ^ 2 - k ^ 2 * n * (n * Q - S ^ 2))
  refine ⟨d, fun x hx => ?_⟩
  unfold removeStd
  rw [if_neg]
  rw [keepStd_iff (by omega) hk.le, hmean, hdev, Function.update_self]
  push Not
  have h0 := hd x hx
  have hpos : (0 : ℝ) < n ^ 2 := by positivity
  rw [← mul_lt_mul_iff_left₀ hpos]
  have e1 : k ^ 2 * (x ^ 2 + Q - (x + S) ^ 2 / n) * n ^ 2 = k ^ 2 * n * (n * (x ^ 2 + Q) - (x + S) ^ 2) := by
    field_simp
  have e2 : (x - (x + S) / n) ^ 2 * ((n : ℝ) - (1 : ℕ)) * n ^ 2 = ((n : ℝ) - 1) * (((n : ℝ) - 1) * x - S) ^ 2 := by
    push_cast
    field_simp
    ring
  rw [e1, e2]
  nlinarith [h0]

/-- Eleven values are long enough for three standard deviations. -/
example : (3 : ℝ) ^ 2 * (11 : ℕ) < (((11 : ℕ) : ℝ) - 1) ^ 2 := by norm_num

/-- **C104** is false of the code: the only value of a pandas series is removed. -/
theorem C104_fails_single (k : ℝ) (y : Fin 1 → ℝ) (i : Fin 1) : removeStd 1 k y i = none := by
  classical
  unfold removeStd
  rw [if_neg]
  unfold keepStd std
  rw [if_pos le_rfl]
  exact id

/-- **C104** (units): the decision does not depend on the unit of the data. -/
theorem C104_units {ddof : ℕ} {k : ℝ} {a : ℝ} (ha : a ≠ 0) (b : ℝ) (hn : 0 < n) (y : Fin n → ℝ) (i : Fin n) :
    removeStd ddof k (fun j => a * y j + b) i = (removeStd ddof k y i).map fun x => a * x + b := by
  classical
  have hm : mean (fun j => a * y j + b) = a * mean y + b := by
    have : (n : ℝ) ≠ 0 := by exact_mod_cast hn.ne'
    unfold mean
    rw [sum_add_distrib, ← mul_sum, sum_const, card_univ, Fintype.card_fin, nsmul_eq_mul]
    field_simp
  have hk : keepStd ddof k (fun j => a * y j + b) i ↔ keepStd ddof k y i := by
    unfold keepStd std
    by_cases h : n ≤ ddof
    · rw [if_pos h, if_pos h]
    · rw [if_neg h, if_neg h]
      simp only [hm]
      have e : ∀ j, (a * y j + b - (a * mean y + b)) ^ 2 = a ^ 2 * (y j - mean y) ^ 2 := fun j => by ring
      rw [sum_congr rfl fun j _ => e j, ← mul_sum, mul_div_assoc, Real.sqrt_mul (sq_nonneg a), Real.sqrt_sq_eq_abs,
        show a * y i + b - (a * mean y + b) = a * (y i - mean y) by ring, abs_mul,
        show k * (|a| * Real.sqrt ((∑ j, (y j - mean y) ^ 2) / ((n : ℝ) - ddof))) =
          |a| * (k * Real.sqrt ((∑ j, (y j - mean y) ^ 2) / ((n : ℝ) - ddof))) by ring]
      exact mul_le_mul_iff_right₀ (abs_pos.mpr ha)
  unfold removeStd
  by_cases h : keepStd ddof k y i
  · rw [if_pos h, if_pos (hk.mpr h)]; rfl
  · rw [if_neg h, if_neg (fun h' => h (hk.mp h'))]; rfl

/-! ## C105: median -/

section Mad

variable {K : Type*} [Field K] [LinearOrder K] [IsStrictOrderedRing K]

theorem card_eq_countP (y : Fin n → K) (P : K → Prop) [DecidablePred P] :
    #{i | P (y i)} = (sorted y).countP (fun x => decide (P x)) := by
  have h1 : (sorted y).countP (fun x => decide (P x)) = (List.ofFn y).countP (fun x => decide (P x)) :=
    (List.perm_insertionSort (· ≤ ·) (List.ofFn y)).countP_eq _
  rw [h1, List.ofFn_eq_map, List.countP_map, List.countP_eq_length_filter]
  rfl

theorem length_sorted (y : Fin n → K) : (sorted y).length = n := by
  unfold sorted
  rw [List.length_insertionSort, List.length_ofFn]

theorem sorted_le (y : Fin n → K) {a b : ℕ} (hab : a ≤ b) (hb : b < n) :
    (sorted y).getD a 0 ≤ (sorted y).getD b 0 := by
  have hlen := length_sorted y
  rw [List.getD_eq_getElem _ _ (by omega), List.getD_eq_getElem _ _ (by omega)]
  rcases hab.eq_or_lt with rfl | hlt
  · rfl
  · exact List.pairwise_iff_getElem.mp (List.pairwise_insertionSort (· ≤ ·) (List.ofFn y)) a b _ _ hlt

theorem lower_le_median (y : Fin n → K) (hn : 0 < n) : (sorted y).getD ((n - 1) / 2) 0 ≤ median y := by
  unfold median
  by_cases h : n % 2 = 1
  · rw [if_pos h, show (n - 1) / 2 = n / 2 by omega]
  · rw [if_neg h, show (n - 1) / 2 = n / 2 - 1 by omega, le_div_iff₀ (by norm_num)]
    have := sorted_le y (show n / 2 - 1 ≤ n / 2 by omega) (by omega)
    linarith

theorem median_le_upper (y : Fin n → K) (hn : 0 < n) : median y ≤ (sorted y).getD (n / 2) 0 := by
  unfold median
  by_cases h : n % 2 = 1
  · rw [if_pos h]
  · rw [if_neg h, div_le_iff₀ (by norm_num)]
    have := sorted_le y (show n / 2 - 1 ≤ n / 2 by omega) (by omega)
    linarith

/-- At most half of the values are above the median. -/
theorem half_above (y : Fin n → K) (hn : 0 < n) : 2 * #{i | median y < y i} ≤ n := by
  have hlen := length_sorted y
  rw [card_eq_countP y (fun x => median y < x), ← List.take_append_drop ((n - 1) / 2 + 1) (sorted y),
    List.countP_append]
  have h1 : ((sorted y).take ((n - 1) / 2 + 1)).countP (fun x => decide (median y < x)) = 0 := by
    rw [List.countP_eq_zero]
    intro x hx
    obtain ⟨j, hj, rfl⟩ := List.mem_iff_getElem.mp hx
    rw [List.length_take] at hj
    rw [decide_eq_true_iff, not_lt, List.getElem_take]
    have := sorted_le y (show j ≤ (n - 1) / 2 by omega) (by omega)
    rw [List.getD_eq_getElem _ _ (by omega)] at this
    exact this.trans (lower_le_median y hn)
  have h2 : ((sorted y).drop ((n - 1) / 2 + 1)).countP (fun x => decide (median y < x)) ≤ n - ((n - 1) / 2 + 1) := by
    have := List.countP_le_length (p := fun x => decide (median y < x)) (l := (sorted y).drop ((n - 1) / 2 + 1))
    rwa [List.length_drop, hlen] at this
  omega

/-- At most half of the values are below the median. -/
theorem half_below (y : Fin n → K) (hn : 0 < n) : 2 * #{i | y i < median y} ≤ n := by
  have hlen := length_sorted y
  rw [card_eq_countP y (fun x => x < median y), ← List.take_append_drop (n / 2) (sorted y), List.countP_append]
  have h1 : ((sorted y).drop (n / 2)).countP (fun x => decide (x < median y)) = 0 := by
    rw [List.countP_eq_zero]
    intro x hx
    obtain ⟨j, hj, rfl⟩ := List.mem_iff_getElem.mp hx
    rw [List.length_drop] at hj
    rw [decide_eq_true_iff, not_lt, List.getElem_drop]
    have := sorted_le y (show n / 2 ≤ n / 2 + j by omega) (by omega)
    rw [List.getD_eq_getElem _ _ (show n / 2 + j < (sorted y).length by omega)] at this
    exact (median_le_upper y hn).trans this
  have h2 : ((sorted y).take (n / 2)).countP (fun x => decide (x < median y)) ≤ n / 2 := by
    have := List.countP_le_length (p := fun x => decide (x < median y)) (l := (sorted y).take (n / 2))
    rw [List.length_take] at this
    omega
  omega

/-- A value which more than half of the entries have is the median. -/
theorem median_majority (y : Fin n → K) {v : K} (h : n < 2 * #{i | y i = v}) : median y = v := by
  have hn : 0 < n := by
    by_contra h0
    have h0 : n = 0 := by omega
    subst h0
    simp at h
  rcases lt_trichotomy (median y) v with hlt | heq | hgt
  · have := half_above y hn
    have hle : #{i | y i = v} ≤ #{i | median y < y i} :=
      card_le_card (monotone_filter_right _ fun i _ hi => by rw [hi]; exact hlt)
    omega
  · exact heq
  · have := half_below y hn
    have hle : #{i | y i = v} ≤ #{i | y i < median y} :=
      card_le_card (monotone_filter_right _ fun i _ hi => by rw [hi]; exact hgt)
    omega

theorem median_nonneg {y : Fin n → K} (hn : 0 < n) (h : ∀ i, 0 ≤ y i) : 0 ≤ median y := by
  by_contra hc
  push Not at hc
  have := half_above y hn
  rw [filter_true_of_mem fun i _ => hc.trans_le (h i), card_univ, Fintype.card_fin] at this
  omega

theorem removeMad_none {c : K} {y : Fin n → K} {i : Fin n} : removeMad c y i = none ↔ outlierMad c y i := by
  unfold removeMad
  by_cases h : outlierMad c y i
  · rw [if_pos h]; simp [h]
  · rw [if_neg h]; simp [h]

/-- **C105** (few outliers): at most half of the values are removed, if the product of threshold and constant is
at least one (3.7 by default). -/
theorem C105_half_kept {c : K} (hc : 1 ≤ c) (y : Fin n → K) : 2 * #{i | removeMad c y i = none} ≤ n := by
  rcases Nat.eq_zero_or_pos n with rfl | hn
  · simp
  · have h0 : 0 ≤ median (dist y) := median_nonneg hn fun i => abs_nonneg _
    have hle : #{i | removeMad c y i = none} ≤ #{i | median (dist y) < dist y i} := by
      apply card_le_card
      intro i hi
      rw [mem_filter] at hi ⊢
      refine ⟨hi.1, lt_of_le_of_lt ?_ (removeMad_none.mp hi.2)⟩
      exact le_mul_of_one_le_left h0 hc
    have := half_above (dist y) hn
    omega

/-- **C105** (order): no value is kept that is farther from the median than a removed one. -/
theorem C105_far_removed {c : K} {y : Fin n → K} {i j : Fin n} (hi : removeMad c y i = none)
    (hij : |y i - median y| ≤ |y j - median y|) : removeMad c y j = none :=
  removeMad_none.mpr ((removeMad_none.mp hi).trans_le hij)

/-- **C105** is false of the code: if more than half of the values are equal, such as the zeros of a meter at rest,
every other value counts as outlier, however near. -/
theorem C105_fails_majority (c : K) (y : Fin n → K) {v : K} (h : n < 2 * #{i | y i = v}) (i : Fin n) :
    removeMad c y i = none ↔ y i ≠ v := by
  have hm := median_majority y h
  have hd : median (dist y) = 0 := by
    apply median_majority
    refine h.trans_le (Nat.mul_le_mul_left 2 (card_le_card (monotone_filter_right _ fun i _ hi => ?_)))
    unfold dist
    rw [hm, hi, sub_self, abs_zero]
  rw [removeMad_none]
  unfold outlierMad
  rw [hd, mul_zero]
  unfold dist
  rw [hm, abs_pos, sub_ne_zero]

/-- Two readings among five. -/
example : 5 < 2 * #{i | (![0, 0, 1 / 1000, 0, 2 / 1000] : Fin 5 → ℚ) i = 0} := by decide +kernel

theorem median_map (y : Fin n → K) {a : K} (ha : 0 < a) (b : K) (hn : 0 < n) :
    median (fun i => a * y i + b) = a * median y + b := by
  have hs : sorted (fun i => a * y i + b) = (sorted y).map fun x => a * x + b := by
    unfold sorted
    rw [List.map_insertionSort (r := (· ≤ ·)) (s := (· ≤ ·)), List.map_ofFn]
    · rfl
    · intro x _ x' _
      rw [add_le_add_iff_right, mul_le_mul_iff_right₀ ha]
  have hg : ∀ j, j < n → (sorted fun i => a * y i + b).getD j 0 = a * (sorted y).getD j 0 + b := by
    intro j hj
    have hlen := length_sorted y
    rw [hs, List.getD_eq_getElem _ _ (by rw [List.length_map]; omega), List.getElem_map,
      List.getD_eq_getElem _ _ (by omega)]
  unfold median
  by_cases h : n % 2 = 1
  · rw [if_pos h, if_pos h, hg _ (by omega)]
  · rw [if_neg h, if_neg h, hg _ (by omega), hg _ (by omega)]
    ring

/-- **C105** (units): the decision does not depend on the unit of the data. -/
theorem C105_units (c : K) {a : K} (ha : 0 < a) (b : K) (y : Fin n → K) (i : Fin n) :
    removeMad c (fun j => a * y j + b) i = (removeMad c y i).map fun x => a * x + b := by
  have hn : 0 < n := i.pos
  have hd : dist (fun j => a * y j + b) = fun j => a * dist y j + 0 := by
    funext j
    unfold dist
    rw [median_map y ha b hn, show a * y j + b - (a * median y + b) = a * (y j - median y) by ring, abs_mul,
      abs_of_pos ha, add_zero]
  have hk : outlierMad c (fun j => a * y j + b) i ↔ outlierMad c y i := by
    unfold outlierMad
    rw [hd, median_map _ ha 0 hn, add_zero]
    simp only [add_zero]
    rw [show c * (a * median (dist y)) = a * (c * median (dist y)) by ring,
      mul_lt_mul_iff_right₀ ha]
  unfold removeMad
  by_cases h : outlierMad c y i
  · rw [if_pos h, if_pos (hk.mpr h)]; rfl
  · rw [if_neg h, if_neg (fun h' => h (hk.mp h'))]; rfl

/-- A series in which a value is removed and one in which half of the values are. -/
example : removeMad (37 / 10) (![1, 2, 3, 100] : Fin 4 → ℚ) 3 = none ∧
    removeMad (37 / 10) (![1, 2, 3, 100] : Fin 4 → ℚ) 0 = some 1 := by decide +kernel

end Mad

end Verif.Outliers
