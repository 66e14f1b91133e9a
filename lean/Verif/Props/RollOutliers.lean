import Verif.Model.RollOutliers
import Verif.Props.Outliers

/-!
# C148: removal of outliers by a rolling median
-/

namespace Verif.Outliers

open Finset

/-! ## The rolling median -/

theorem findSome_eq {α β : Type*} (l₁ l₂ : List α) (a : α) (f : α → Option β) (h : ∀ x ∈ l₁, f x = none)
    {b : β} (ha : f a = some b) : (l₁ ++ a :: l₂).findSome? f = some b := by
  rw [List.findSome?_append]
  have : l₁.findSome? f = none := List.findSome?_eq_none_iff.2 h
  rw [this, List.findSome?_cons, ha]
  rfl

/-- Forward and backward filling repeats the first and the last median at the ends. -/
theorem localMed_eq {w n : ℕ} (hw : 0 < w) (hn : w ≤ n) (y : ℕ → ℝ) (i : ℕ) :
    localMed w n y i = rollMed w n y (max (w - 1 - (w - 1) / 2) (min i (n - 1 - (w - 1) / 2))) := by
  set L := w - 1 - (w - 1) / 2 with hL
  set R := n - 1 - (w - 1) / 2 with hR
  have hLR : L ≤ R := by omega
  have hsome : ∀ j, (L ≤ j ∧ j ≤ R) ↔ (rollMed w n y j).isSome := by
    intro j
    unfold rollMed
    dsimp only
    split_ifs with h
    · simp; omega
    · simp; omega
  have hb : ∀ j, j ≤ R → bfill n (rollMed w n y) j = rollMed w n y (max L j) := by
    intro j hj
    obtain ⟨b, hb⟩ := Option.isSome_iff_exists.1 ((hsome (max L j)).1 ⟨le_max_left _ _, by omega⟩)
    rw [hb]
    unfold bfill
    have e : List.range' j (n - j) = List.range' j (max L j - j) ++ max L j ::
        List.range' (max L j + 1) (n - max L j - 1) := by
      rw [← List.range'_succ, show n - max L j - 1 + 1 = n - max L j by omega]
      have := List.range'_append (s := j) (m := max L j - j) (n := n - max L j) (step := 1)
      rw [show j + 1 * (max L j - j) = max L j by omega] at this
      rw [this]
      congr 1
      omega
    rw [e]
    refine findSome_eq _ _ _ _ (fun x hx => ?_) hb
    rw [List.mem_range'_1] at hx
    by_contra hne
    have := (hsome x).2 (Option.isSome_iff_ne_none.2 hne)
    omega
  have hb' : ∀ j, R < j → bfill n (rollMed w n y) j = none := by
    intro j hj
    unfold bfill
    rw [List.findSome?_eq_none_iff]
    intro x hx
    rw [List.mem_range'_1] at hx
    by_contra hne
    have := (hsome x).2 (Option.isSome_iff_ne_none.2 hne)
    omega
  unfold localMed ffill
  obtain ⟨b, hbb⟩ := Option.isSome_iff_exists.1 ((hsome (max L (min i R))).1 ⟨le_max_left _ _, by omega⟩)
  rw [hbb]
  have e : (List.range (i + 1)).reverse =
      ((List.range' (min i R + 1) (i - min i R)).reverse) ++ min i R :: (List.range (min i R)).reverse := by
    rw [← List.reverse_inj]
    simp only [List.reverse_append, List.reverse_reverse, List.reverse_cons, List.append_assoc]
    rw [show List.range (min i R) ++ ([min i R] ++ List.range' (min i R + 1) (i - min i R)) =
      (List.range (min i R) ++ [min i R]) ++ List.range' (min i R + 1) (i - min i R) by simp,
      ← List.range_succ, List.range_eq_range', List.range_eq_range']
    have := List.range'_append (s := 0) (m := min i R + 1) (n := i - min i R) (step := 1)
    rw [show 0 + 1 * (min i R + 1) = min i R + 1 by omega] at this
    rw [this]
    congr 1
    omega
  rw [e]
  refine findSome_eq _ _ _ _ (fun x hx => ?_) (by rw [hb _ (by omega)]; exact hbb)
  rw [List.mem_reverse, List.mem_range'_1] at hx
  exact hb' x (by omega)

theorem rollMed_some {w n : ℕ} (hw : 0 < w) (y : ℕ → ℝ) {i : ℕ} (h1 : w - 1 - (w - 1) / 2 ≤ i)
    (h2 : i + (w - 1) / 2 < n) :
    rollMed w n y i = some (median fun j : Fin w => y (i - (w - 1 - (w - 1) / 2) + j)) := by
  unfold rollMed
  dsimp only
  rw [if_pos ⟨by omega, h2⟩]
  congr 3
  funext j
  congr 2
  omega

/-! ## Series whose distances from the median are zero or `v` -/

theorem outlier_two_valued {w n : ℕ} {k : ℝ} (hk : 0 < k) (h2 : 2 ≤ n) (y m : ℕ → ℝ)
    (hm : ∀ i < n, localMed w n y i = some (m i)) (P : ℕ → Prop) [DecidablePred P] {v : ℝ} (hv : v ≠ 0)
    (hd : ∀ i < n, |y i - m i| = if P i then |v| else 0) {c : ℕ} (hc : #{i : Fin n | P i} = c) (i : Fin n) :
    outlierRoll w k n y i ↔ P i ∧ k ^ 2 * (c * (n - c)) < n * (n - 1) := by
  have hn0 : (0 : ℝ) < n := by exact_mod_cast (by omega : 0 < n)
  have hn1 : (0 : ℝ) < (n : ℝ) - 1 := by
    have : (2 : ℝ) ≤ n := by exact_mod_cast h2
    linarith
  have hdiff : diffMed w (n := n) y = fun i : Fin n => if P i then |v| else 0 := by
    funext j
    unfold diffMed
    rw [hm j j.2]
    exact hd j j.2
  have hmean : mean (fun i : Fin n => if P i then |v| else 0) = c * |v| / n := by
    unfold mean
    rw [sum_ite, sum_const_zero, add_zero, sum_const, hc, nsmul_eq_mul]
  have hdev : ∑ j : Fin n, ((if P j then |v| else 0) - (c : ℝ) * |v| / n) ^ 2 = v ^ 2 * (c * (n - c)) / n := by
    have : ∀ j : Fin n, ((if P j then |v| else 0) - (c : ℝ) * |v| / n) ^ 2 =
        (if P j then v ^ 2 * (1 - 2 * c / n) else 0) + v ^ 2 * (c / n) ^ 2 := by
      intro j
      split_ifs
      · have := sq_abs v
        field_simp
        rw [this]
        ring
      · rw [zero_sub, neg_sq, div_pow, mul_pow, sq_abs]
        ring
    rw [sum_congr rfl fun j _ => this j, sum_add_distrib, sum_ite, sum_const_zero, add_zero, sum_const, hc,
      sum_const, card_univ, Fintype.card_fin, nsmul_eq_mul, nsmul_eq_mul]
    field_simp
    ring
  have hv2 : 0 < v ^ 2 := by positivity
  have hcn : (c : ℝ) ≤ n := by
    have : c ≤ n := by
      rw [← hc]
      exact (card_le_univ _).trans_eq (Fintype.card_fin n)
    exact_mod_cast this
  have hstd : std 1 (diffMed w (n := n) y) = some (Real.sqrt (v ^ 2 * (c * (n - c)) / n / ((n : ℝ) - 1))) := by
    unfold std
    rw [if_neg (by omega), hdiff, hmean, hdev]
    norm_num
  unfold outlierRoll
  rw [hm i i.2, hstd]
  dsimp only
  rw [hd i i.2]
  have hx : 0 ≤ v ^ 2 * (c * (n - c)) / n / ((n : ℝ) - 1) := by
    have : (0 : ℝ) ≤ (n : ℝ) - c := by linarith
    positivity
  split_ifs with hP
  · simp only [hP, true_and]
    rw [← Real.sqrt_sq hk.le, ← Real.sqrt_mul hx, Real.sqrt_lt' (abs_pos.2 hv), sq_abs, Real.sqrt_sq hk.le]
    rw [show v ^ 2 * (c * (n - c)) / n / ((n : ℝ) - 1) * k ^ 2 =
      (k ^ 2 * (c * (n - c))) / (n * (n - 1)) * v ^ 2 by field_simp]
    rw [mul_lt_iff_lt_one_left hv2, div_lt_one (by positivity)]
  · simp only [hP, false_and, iff_false, not_lt]
    positivity

/-! ## C148 -/

theorem median_window {w n : ℕ} (hw : 3 ≤ w) (hn : w ≤ n) (y : ℕ → ℝ) {c : ℝ} {p : ℕ}
    (hy : ∀ i, i ≠ p → y i = c) {i : ℕ} (hi : i < n) : localMed w n y i = some c := by
  rw [localMed_eq (by omega) hn y i, rollMed_some (by omega) y (le_max_left _ _) (by omega)]
  congr 1
  set s := max (w - 1 - (w - 1) / 2) (min i (n - 1 - (w - 1) / 2)) - (w - 1 - (w - 1) / 2)
  refine median_majority _ ?_
  have hcard : w - 1 ≤ #{j : Fin w | y (s + j) = c} := by
    have h1 : #{j : Fin w | ¬ y (s + j) = c} ≤ 1 := by
      refine card_le_one.2 fun a ha b hb => ?_
      simp only [mem_filter, mem_univ, true_and] at ha hb
      have ha' : s + (a : ℕ) = p := by
        by_contra h
        exact ha (hy _ h)
      have hb' : s + (b : ℕ) = p := by
        by_contra h
        exact hb (hy _ h)
      exact Fin.ext (by omega)
    have h2 := card_filter_add_card_filter_not (s := (univ : Finset (Fin w))) (fun j => y (s + j) = c)
    rw [card_univ, Fintype.card_fin] at h2
    omega
  omega

/-- **C148**, partial: of a constant series with one different value exactly this value is removed, at any position
and whatever its size, if the series has more than `k²` values (ten by default), and nothing otherwise.  Missing:
other series (`C148_fails_ramp`, `C148_fails_alternating`). -/
theorem C148_spike_partial {w n : ℕ} (hw : 3 ≤ w) (hn : w ≤ n) {k : ℝ} (hk : 0 < k) {c v : ℝ} (hv : v ≠ 0)
    (p : Fin n) (i : Fin n) :
    removeRoll w k n (fun j => if j = p then c + v else c) i =
      if i = p ∧ k ^ 2 < n then none else some (if i = p then c + v else c) := by
  classical
  set y : ℕ → ℝ := fun j => if j = p then c + v else c with hy
  have hn0 : (0 : ℝ) < n := by exact_mod_cast (by omega : 0 < n)
  have hn1 : (0 : ℝ) < (n : ℝ) - 1 := by
    have : (3 : ℝ) ≤ n := by exact_mod_cast (by omega : 3 ≤ n)
    linarith
  have hm : ∀ i < n, localMed w n y i = some c := fun i hi =>
    median_window hw hn y (p := p) (fun j hj => by simp [hy, hj]) hi
  have hcard : #{j : Fin n | (j : ℕ) = p} = 1 := by
    rw [card_eq_one]
    exact ⟨p, by ext j; simp [Fin.ext_iff]⟩
  have key := outlier_two_valued (w := w) hk (by omega) y (fun _ => c) hm (fun j => j = (p : ℕ)) hv
    (fun j _ => by
      show |(if j = (p : ℕ) then c + v else c) - c| = _
      split_ifs <;> simp) hcard i
  have e : k ^ 2 * (((1 : ℕ) : ℝ) * (n - ((1 : ℕ) : ℝ))) < n * (n - 1) ↔ k ^ 2 < n := by
    rw [Nat.cast_one, one_mul, mul_lt_mul_iff_left₀ hn1]
  rw [e, ← Fin.ext_iff] at key
  unfold removeRoll
  have hyi : y i = if i = p then c + v else c := by
    simp only [hy, Fin.ext_iff]
  by_cases h : i = p ∧ k ^ 2 < n
  · rw [if_pos (key.2 h), if_pos h]
  · rw [if_neg (fun h' => h (key.1 h')), if_neg h, hyi]

/-- The default number of standard deviations: a series of ten values is long enough, one of nine is not. -/
example : (3 : ℝ) ^ 2 < (10 : ℕ) ∧ ¬ (3 : ℝ) ^ 2 < (9 : ℕ) := by norm_num

/-- **C148**, partial: a constant series is kept.  Missing: as above. -/
theorem C148_constant_partial {w n : ℕ} (hw : 3 ≤ w) (hn : w ≤ n) {k c : ℝ} (i : Fin n) :
    removeRoll w k n (fun _ => c) i = some c := by
  classical
  unfold removeRoll
  rw [if_neg]
  have hm : ∀ i < n, localMed w n (fun _ => c) i = some c := fun i hi =>
    median_window hw hn (fun _ => c) (p := 0) (fun j hj => rfl) hi
  have hd : diffMed w (n := n) (fun _ => c) = fun _ => 0 := by
    funext j
    unfold diffMed
    rw [hm j j.2]
    simp
  unfold outlierRoll
  rw [hm i i.2, hd]
  have : std 1 (fun _ : Fin n => (0 : ℝ)) = some 0 := by
    unfold std mean
    rw [if_neg (by omega)]
    simp
  rw [this]
  simp

theorem median_three {y : Fin 3 → ℝ} (h : (y 0 ≤ y 1 ∧ y 1 ≤ y 2) ∨ (y 2 ≤ y 1 ∧ y 1 ≤ y 0)) :
    median y = y 1 := by
  have two : ∀ (P : Fin 3 → Prop) [DecidablePred P] (a b : Fin 3), a ≠ b → P a → P b → 2 ≤ #{i | P i} := by
    intro P _ a b hab ha hb
    have : ({a, b} : Finset (Fin 3)) ⊆ ({i | P i} : Finset (Fin 3)) := by
      intro x hx
      simp only [mem_insert, mem_singleton] at hx
      rcases hx with rfl | rfl <;> simpa
    have := card_le_card this
    rwa [card_pair hab] at this
  rcases lt_trichotomy (median y) (y 1) with hlt | heq | hgt
  · have := half_above y (by norm_num)
    have h2 : 2 ≤ #{i | median y < y i} := by
      rcases h with h | h
      · exact two _ 1 2 (by decide) hlt (hlt.trans_le h.2)
      · exact two _ 1 0 (by decide) hlt (hlt.trans_le h.2)
    omega
  · exact heq
  · have := half_below y (by norm_num)
    have h2 : 2 ≤ #{i | y i < median y} := by
      rcases h with h | h
      · exact two _ 1 0 (by decide) hgt (h.1.trans_lt hgt)
      · exact two _ 1 2 (by decide) hgt (h.1.trans_lt hgt)
    omega

theorem localMed_three {n : ℕ} (hn : 3 ≤ n) (y : ℕ → ℝ) {i : ℕ} (hi : i < n) :
    localMed 3 n y i = some (median fun j : Fin 3 => y (max 1 (min i (n - 2)) - 1 + j)) := by
  rw [localMed_eq (by norm_num) hn y i, rollMed_some (by omega) y (le_max_left _ _) (by omega)]
  rfl

theorem two_ends {n : ℕ} (hn : 2 ≤ n) : #{j : Fin n | (j : ℕ) = 0 ∨ (j : ℕ) = n - 1} = 2 := by
  have : ({j : Fin n | (j : ℕ) = 0 ∨ (j : ℕ) = n - 1} : Finset (Fin n)) =
      {⟨0, by omega⟩, ⟨n - 1, by omega⟩} := by
    ext j
    simp [Fin.ext_iff]
  rw [this, card_pair]
  simp [Fin.ext_iff]
  omega

theorem long {n : ℕ} (hn : 17 ≤ n) : (3 : ℝ) ^ 2 * ((2 : ℕ) * (n - (2 : ℕ))) < n * (n - 1) := by
  have : (17 : ℝ) ≤ n := by exact_mod_cast hn
  push_cast
  nlinarith

/-- **C148** is false of rising or falling series: of seventeen or more values on a straight line the first and the
last one are removed, with the default window and limit. -/
theorem C148_fails_ramp {n : ℕ} (hn : 17 ≤ n) (a b : ℝ) (hb : b ≠ 0) (i : Fin n) :
    removeRoll 3 3 n (fun j => a + b * j) i =
      if (i : ℕ) = 0 ∨ (i : ℕ) = n - 1 then none else some (a + b * (i : ℕ)) := by
  classical
  set y : ℕ → ℝ := fun j => a + b * j with hy
  have hm : ∀ i < n, localMed 3 n y i = some (y (max 1 (min i (n - 2)))) := by
    intro i hi
    rw [localMed_three (by omega) y hi, median_three]
    · congr 2
      show max 1 (min i (n - 2)) - 1 + 1 = _
      omega
    · set s := max 1 (min i (n - 2)) - 1
      rcases le_or_gt 0 b with h | h
      · left
        simp only [hy]
        push_cast
        constructor <;> simp <;> nlinarith
      · right
        simp only [hy]
        push_cast
        constructor <;> simp <;> nlinarith
  have key := outlier_two_valued (w := 3) (k := 3) (by norm_num) (by omega) y
    (fun i => y (max 1 (min i (n - 2)))) hm (fun j => j = 0 ∨ j = n - 1) hb
    (fun j hj => by
      simp only [hy]
      by_cases h0 : j = 0
      · subst h0
        rw [if_pos (Or.inl rfl), show max 1 (min 0 (n - 2)) = 1 by omega, abs_eq_abs]
        right; push_cast; ring
      · by_cases h1 : j = n - 1
        · rw [if_pos (Or.inr h1), h1, show max 1 (min (n - 1) (n - 2)) = n - 2 by omega, abs_eq_abs]
          left
          have e1 : ((n - 1 : ℕ) : ℝ) = n - 1 := by rw [Nat.cast_sub (by omega)]; simp
          have e2 : ((n - 2 : ℕ) : ℝ) = n - 2 := by rw [Nat.cast_sub (by omega)]; simp
          rw [e1, e2]; ring
        · rw [if_neg (by tauto), show max 1 (min j (n - 2)) = j by omega]
          simp) (two_ends (by omega)) i
  unfold removeRoll
  by_cases h : (i : ℕ) = 0 ∨ (i : ℕ) = n - 1
  · rw [if_pos (key.2 ⟨h, long hn⟩), if_pos h]
  · rw [if_neg (fun h' => h (key.1 h').1), if_neg h]

example : removeRoll 3 3 20 (fun j => 0 + 1 * (j : ℝ)) 0 = none := by
  rw [C148_fails_ramp (by norm_num) 0 1 one_ne_zero]; rfl

/-- **C148** is false of series that alternate, like a valve that opens and closes: with seventeen or more values all
but the first and the last one are removed, with the default window and limit. -/
theorem C148_fails_alternating {n : ℕ} (hn : 17 ≤ n) (a b : ℝ) (hab : a ≠ b) (i : Fin n) :
    removeRoll 3 3 n (fun j => if j % 2 = 0 then a else b) i =
      if (i : ℕ) = 0 ∨ (i : ℕ) = n - 1 then some (if (i : ℕ) % 2 = 0 then a else b) else none := by
  classical
  set y : ℕ → ℝ := fun j => if j % 2 = 0 then a else b with hy
  have hm : ∀ i < n, localMed 3 n y i = some (y (max 1 (min i (n - 2)) - 1)) := by
    intro i hi
    rw [localMed_three (by omega) y hi]
    congr 1
    set s := max 1 (min i (n - 2)) - 1
    refine median_majority _ ?_
    have h2 : y (s + 2) = y s := by simp only [hy]; rw [show (s + 2) % 2 = s % 2 by omega]
    have : ({0, 2} : Finset (Fin 3)) ⊆ ({j | y (s + j) = y s} : Finset (Fin 3)) := by
      intro x hx
      simp only [mem_insert, mem_singleton] at hx
      rcases hx with rfl | rfl
      · simp
      · simpa using h2
    have := card_le_card this
    rw [card_pair (by decide)] at this
    omega
  have hne : ∀ j, |y (j + 1) - y j| = |a - b| := by
    intro j
    simp only [hy]
    rcases Nat.mod_two_eq_zero_or_one j with h | h
    · rw [if_neg (by omega), if_pos h, abs_sub_comm]
    · rw [if_pos (by omega), if_neg (by omega)]
  have hcard : #{j : Fin n | ¬ ((j : ℕ) = 0 ∨ (j : ℕ) = n - 1)} = n - 2 := by
    have h1 := card_filter_add_card_filter_not (s := (univ : Finset (Fin n)))
      (fun j => (j : ℕ) = 0 ∨ (j : ℕ) = n - 1)
    rw [card_univ, Fintype.card_fin, two_ends (by omega)] at h1
    omega
  have key := outlier_two_valued (w := 3) (k := 3) (by norm_num) (by omega) y
    (fun i => y (max 1 (min i (n - 2)) - 1)) hm (fun j => ¬ (j = 0 ∨ j = n - 1)) (sub_ne_zero.2 hab)
    (fun j hj => by
      by_cases h0 : j = 0
      · subst h0
        rw [if_neg (by simp), show max 1 (min 0 (n - 2)) - 1 = 0 by omega]; simp
      · by_cases h1 : j = n - 1
        · rw [if_neg (by tauto), show max 1 (min j (n - 2)) - 1 = n - 3 by omega, h1]
          have : y (n - 1) = y (n - 3) := by
            simp only [hy]; rw [show (n - 1) % 2 = (n - 3) % 2 by omega]
          rw [this]; simp
        · rw [if_pos (by tauto), show max 1 (min j (n - 2)) - 1 = j - 1 by omega]
          have := hne (j - 1)
          rwa [show j - 1 + 1 = j by omega] at this) hcard i
  have hlong : (3 : ℝ) ^ 2 * ((n - 2 : ℕ) * (n - ((n - 2 : ℕ) : ℝ))) < n * (n - 1) := by
    have h := long hn
    have e2 : ((n - 2 : ℕ) : ℝ) = n - 2 := by rw [Nat.cast_sub (by omega)]; simp
    rw [e2]
    push_cast at h
    linarith
  unfold removeRoll
  by_cases h : (i : ℕ) = 0 ∨ (i : ℕ) = n - 1
  · rw [if_neg (fun h' => (key.1 h').1 h), if_pos h]
  · rw [if_pos (key.2 ⟨h, hlong⟩), if_neg h]

example : removeRoll 3 3 20 (fun j => if j % 2 = 0 then 0 else 1) 7 = none := by
  rw [C148_fails_alternating (by norm_num) 0 1 zero_ne_one]; rfl

end Verif.Outliers
