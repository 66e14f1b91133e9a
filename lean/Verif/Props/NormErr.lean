import Verif.Model.NormErr
import Verif.Props.Outliers

/-!
# C124: normalised errors
-/

namespace Verif.NormErr

open Stats Outliers Finset

variable {n : ℕ}

theorem mean_affine (y : Fin n → ℝ) (a b : ℝ) (hn : 0 < n) :
    Stats.mean (fun i => a * y i + b) = a * Stats.mean y + b := by
  have : (n : ℝ) ≠ 0 := by positivity
  unfold Stats.mean
  rw [sum_add_distrib, ← mul_sum, sum_const, card_univ, Fintype.card_fin, nsmul_eq_mul]
  field_simp

theorem mean_scale (y : Fin n → ℝ) (a : ℝ) : Stats.mean (fun i => a * y i) = a * Stats.mean y := by
  unfold Stats.mean
  rw [← mul_sum, mul_div_assoc]

theorem msd_affine (y yh : Fin n → ℝ) (a b : ℝ) :
    Stats.msd (fun i => a * y i + b) (fun i => a * yh i + b) = a * Stats.msd y yh := by
  unfold Stats.msd
  rw [← mean_scale]
  congr 1
  funext i
  ring

theorem mae_affine (y yh : Fin n → ℝ) {a : ℝ} (ha : 0 < a) (b : ℝ) :
    Stats.mae (fun i => a * y i + b) (fun i => a * yh i + b) = a * Stats.mae y yh := by
  unfold Stats.mae
  rw [← mean_scale]
  congr 1
  funext i
  rw [show a * y i + b - (a * yh i + b) = a * (y i - yh i) by ring, abs_mul, abs_of_pos ha]

theorem mse_affine (y yh : Fin n → ℝ) (a b : ℝ) :
    Stats.mse (fun i => a * y i + b) (fun i => a * yh i + b) = a ^ 2 * Stats.mse y yh := by
  unfold Stats.mse
  rw [← mean_scale]
  congr 1
  funext i
  ring

theorem rmse_affine (y yh : Fin n → ℝ) {a : ℝ} (ha : 0 < a) (b : ℝ) :
    Stats.rmse (fun i => a * y i + b) (fun i => a * yh i + b) = a * Stats.rmse y yh := by
  unfold Stats.rmse
  rw [mse_affine, Real.sqrt_mul (sq_nonneg a), Real.sqrt_sq ha.le]

theorem sorted_affine (y : Fin n → ℝ) {a : ℝ} (ha : 0 < a) (b : ℝ) {j : ℕ} (hj : j < n) :
    (sorted fun i => a * y i + b).getD j 0 = a * (sorted y).getD j 0 + b := by
  have hs : sorted (fun i => a * y i + b) = (sorted y).map fun x => a * x + b := by
    unfold sorted
    rw [List.map_insertionSort (r := (· ≤ ·)) (s := (· ≤ ·)), List.map_ofFn]
    · rfl
    · intro x _ x' _
      rw [add_le_add_iff_right, mul_le_mul_iff_right₀ ha]
  have hlen := length_sorted y
  rw [hs, List.getD_eq_getElem _ _ (by rw [List.length_map]; omega), List.getElem_map,
    List.getD_eq_getElem _ _ (by omega)]

theorem quantile_affine (y : Fin n → ℝ) {a : ℝ} (ha : 0 < a) (b : ℝ) (hn : 0 < n) {p : ℝ} (hp1 : p ≤ 1) :
    quantile (fun i => a * y i + b) p = a * quantile y p + b := by
  have hf : ⌊p * ((n - 1 : ℕ) : ℝ)⌋₊ < n := by
    have h1 : p * ((n - 1 : ℕ) : ℝ) ≤ ((n - 1 : ℕ) : ℝ) := mul_le_of_le_one_left (by positivity) hp1
    have h2 := Nat.floor_le_floor h1
    rw [Nat.floor_natCast] at h2
    omega
  unfold quantile atPos
  rw [sorted_affine y ha b hf, sorted_affine y ha b (by omega)]
  ring

/-- The divisor measures a width, and not a distance from zero. -/
def Norm.Width : Norm → Prop
  | .iqr | .range => True
  | .mean | .median => False

theorem norm_affine (d : Norm) (y : Fin n → ℝ) {a : ℝ} (ha : 0 < a) (b : ℝ) (hn : 0 < n) (hd : d.Width ∨ b = 0) :
    d.eval (fun i => a * y i + b) = a * d.eval y := by
  cases d with
  | iqr =>
    simp only [Norm.eval]
    rw [quantile_affine y ha b hn (by norm_num), quantile_affine y ha b hn (by norm_num)]
    ring
  | range =>
    simp only [Norm.eval]
    rw [sorted_affine y ha b (by omega), sorted_affine y ha b hn]
    ring
  | mean =>
    obtain hd | rfl := hd
    · exact hd.elim
    · simp only [Norm.eval]
      rw [mean_affine y a 0 hn, add_zero]
  | median =>
    obtain hd | rfl := hd
    · exact hd.elim
    · simp only [Norm.eval]
      rw [median_map y ha 0 hn, add_zero]

/-- **C124**, partial: all normalised errors but the normalised MSE do not depend on the unit of the data (and not on
the zero of the scale either, if the divisor is a width). -/
theorem C124_units_partial (e : Err) (he : e ≠ .mse) (d : Norm) (y yh : Fin n → ℝ) {a : ℝ} (ha : 0 < a) (b : ℝ)
    (hn : 0 < n) (hd : d.Width ∨ b = 0) :
    normalized e d (fun i => a * y i + b) (fun i => a * yh i + b) = normalized e d y yh := by
  unfold normalized
  rw [norm_affine d y ha b hn hd]
  have hE : e.eval (fun i => a * y i + b) (fun i => a * yh i + b) = a * e.eval y yh := by
    cases e with
    | mse => exact absurd rfl he
    | rmse => exact rmse_affine y yh ha b
    | msd => exact msd_affine y yh a b
    | mae => exact mae_affine y yh ha b
  by_cases h0 : d.eval y = 0
  · rw [if_pos (by rw [h0, mul_zero]), if_pos h0]
  · rw [if_neg (mul_ne_zero ha.ne' h0), if_neg h0, hE, mul_div_mul_left _ _ ha.ne']

/-- Half of the range, in degrees Celsius and in Fahrenheit. -/
example : normalized .mae .range (fun i => 9 / 5 * (![0, 10] : Fin 2 → ℝ) i + 32)
    (fun i => 9 / 5 * (![5, 5] : Fin 2 → ℝ) i + 32) = normalized .mae .range ![0, 10] ![5, 5] :=
  C124_units_partial .mae (by simp) .range _ _ (by norm_num) 32 (by norm_num) (.inl trivial)

/-- **C124** is wrong for the normalised MSE (the default): it grows with the number that expresses the data. -/
theorem C124_fails_mse (d : Norm) (y yh : Fin n → ℝ) {a : ℝ} (ha : 0 < a) (hn : 0 < n) :
    normalized .mse d (fun i => a * y i) (fun i => a * yh i) = (normalized .mse d y yh).map (a * ·) := by
  have h1 := norm_affine d y ha 0 hn (.inr rfl)
  have h2 := mse_affine y yh a 0
  simp only [add_zero] at h1 h2
  unfold normalized
  simp only [Err.eval]
  rw [h1, h2]
  by_cases h0 : d.eval y = 0
  · rw [if_pos (by rw [h0, mul_zero]), if_pos h0]
    rfl
  · rw [if_neg (mul_ne_zero ha.ne' h0), if_neg h0, Option.map_some]
    congr 1
    field_simp

/-- **C124** is wrong for the mean: the coefficient of variation of temperatures depends on the zero of the scale; the
larger the mean, the smaller it gets. -/
theorem C124_fails_zero (y yh : Fin n → ℝ) (hn : 0 < n) (hm : 0 < Stats.mean y) (he : 0 < Stats.rmse y yh) {b : ℝ}
    (hb : 0 < b) : ∃ u v, normalized .rmse .mean y yh = some u ∧
      normalized .rmse .mean (fun i => y i + b) (fun i => yh i + b) = some v ∧ v < u := by
  have h1 := mean_affine y 1 b hn
  have h2 := rmse_affine y yh one_pos b
  simp only [one_mul] at h1 h2
  refine ⟨Stats.rmse y yh / Stats.mean y, Stats.rmse y yh / (Stats.mean y + b), if_neg hm.ne', ?_, ?_⟩
  · have h3 : normalized .rmse .mean (fun i => y i + b) (fun i => yh i + b) =
        some (Stats.rmse (fun i => y i + b) (fun i => yh i + b) / Stats.mean fun i => y i + b) :=
      if_neg (show Stats.mean (fun i => y i + b) ≠ 0 by rw [h1]; positivity)
    rw [h3, h1, h2]
  · exact div_lt_div_of_pos_left he hm (by linarith)

/-- **C124** is wrong below zero: for a negative mean the coefficient of variation is negative, and the worse the
prediction the smaller it is. -/
theorem C124_fails_negative (y yh zh : Fin n → ℝ) (hm : Stats.mean y < 0) (he : Stats.rmse y yh < Stats.rmse y zh) :
    ∃ u v, normalized .rmse .mean y yh = some u ∧ normalized .rmse .mean y zh = some v ∧ v < u ∧ v < 0 := by
  refine ⟨_, _, if_neg hm.ne, if_neg hm.ne, ?_, ?_⟩
  · exact (div_lt_div_right_of_neg hm).mpr he
  · exact div_neg_of_pos_of_neg ((Real.sqrt_nonneg _).trans_lt he) hm

example : Stats.mean (![-4, -2] : Fin 2 → ℝ) < 0 ∧ Stats.rmse ![-4, -2] ![-4, -2] < Stats.rmse (![-4, -2] : Fin 2 → ℝ) ![-3, -1] := by
  constructor
  · norm_num [Stats.mean]
  · norm_num [Stats.rmse, Stats.mse, Stats.mean]

/-! ### What the divisors are -/

/-- Specification: a value at the fraction `p` of `n` values, counted in the `n - 1` steps between them: more than this
fraction of the values are not above it and more than the rest not below it. -/
def IsQuantile (y : Fin n → ℝ) (p q : ℝ) : Prop :=
  p * (n - 1) < #{i | y i ≤ q} ∧ (1 - p) * (n - 1) < #{i | q ≤ y i}

theorem count_le (y : Fin n → ℝ) {k : ℕ} (hk : k < n) {q : ℝ} (h : (sorted y).getD k 0 ≤ q) :
    k + 1 ≤ #{i | y i ≤ q} := by
  have hlen := length_sorted y
  rw [card_eq_countP y (fun x => x ≤ q), ← List.take_append_drop (k + 1) (sorted y), List.countP_append]
  have h1 : ((sorted y).take (k + 1)).countP (fun x => decide (x ≤ q)) = ((sorted y).take (k + 1)).length := by
    rw [List.countP_eq_length]
    intro x hx
    obtain ⟨j, hj, rfl⟩ := List.mem_iff_getElem.mp hx
    rw [List.length_take] at hj
    rw [decide_eq_true_iff, List.getElem_take]
    have := sorted_le y (show j ≤ k by omega) hk
    rw [List.getD_eq_getElem _ _ (by omega)] at this
    exact this.trans h
  rw [h1, List.length_take]
  omega

theorem count_ge (y : Fin n → ℝ) {k : ℕ} (hk : k < n) {q : ℝ} (h : q ≤ (sorted y).getD k 0) :
    n - k ≤ #{i | q ≤ y i} := by
  have hlen := length_sorted y
  rw [card_eq_countP y (fun x => q ≤ x), ← List.take_append_drop k (sorted y), List.countP_append]
  have h1 : ((sorted y).drop k).countP (fun x => decide (q ≤ x)) = ((sorted y).drop k).length := by
    rw [List.countP_eq_length]
    intro x hx
    obtain ⟨j, hj, rfl⟩ := List.mem_iff_getElem.mp hx
    rw [List.length_drop] at hj
    rw [decide_eq_true_iff, List.getElem_drop]
    have := sorted_le y (show k ≤ k + j by omega) (by omega)
    rw [List.getD_eq_getElem _ _ (show k + j < (sorted y).length by omega)] at this
    exact h.trans this
  rw [h1, List.length_drop]
  omega

theorem atPos_quantile (y : Fin n → ℝ) (hn : 0 < n) {p : ℝ} (h0 : 0 ≤ p) (h1 : p ≤ 1) :
    IsQuantile y p (quantile y p) := by
  have hn1 : ((n - 1 : ℕ) : ℝ) = n - 1 := by rw [Nat.cast_sub hn, Nat.cast_one]
  have hN : (0 : ℝ) ≤ (n - 1 : ℕ) := Nat.cast_nonneg _
  have hle : p * ((n - 1 : ℕ) : ℝ) ≤ (n - 1 : ℕ) := mul_le_of_le_one_left hN h1
  have hnn : 0 ≤ p * ((n - 1 : ℕ) : ℝ) := mul_nonneg h0 hN
  have hf : ⌊p * ((n - 1 : ℕ) : ℝ)⌋₊ ≤ n - 1 := by
    have := Nat.floor_le_floor hle
    rwa [Nat.floor_natCast] at this
  have a0 := Nat.floor_le hnn
  have a1 := Nat.lt_floor_add_one (p * ((n - 1 : ℕ) : ℝ))
  unfold IsQuantile quantile atPos
  rw [show (1 - p) * ((n : ℝ) - 1) = (n - 1) - p * (n - 1) by ring, ← hn1]
  generalize p * ((n - 1 : ℕ) : ℝ) = h at *
  generalize ⌊h⌋₊ = k at *
  have d := sub_nonneg.2 (sorted_le y (a := k) (b := min (k + 1) (n - 1)) (by omega) (by omega))
  have t0 : 0 ≤ h - k := by linarith
  have t1 : h - k ≤ 1 := by linarith
  constructor
  · have := count_le y (k := k) (by omega) (le_add_of_nonneg_right (mul_nonneg t0 d))
    have := (Nat.cast_le (α := ℝ)).2 this
    push_cast at this
    linarith
  · rcases t0.eq_or_lt with e | e
    · rw [← e, zero_mul, add_zero]
      have := count_ge y (k := k) (by omega) (le_refl ((sorted y).getD k 0))
      have h3 := (Nat.cast_le (α := ℝ)).2 this
      rw [Nat.cast_sub (by omega)] at h3
      rw [hn1]
      linarith
    · have hk : k < n - 1 := by
        by_contra hc
        have : k = n - 1 := by omega
        rw [this] at e
        linarith
      have hm : min (k + 1) (n - 1) = k + 1 := by omega
      rw [hm] at d ⊢
      have := count_ge y (k := k + 1) (q := (sorted y).getD k 0 + (h - k) * ((sorted y).getD (k + 1) 0 - (sorted y).getD k 0))
        (by omega) (by nlinarith)
      have h3 := (Nat.cast_le (α := ℝ)).2 this
      rw [Nat.cast_sub (by omega)] at h3
      push_cast at h3
      rw [hn1]
      linarith

theorem getD_mem (y : Fin n → ℝ) {k : ℕ} (hk : k < n) : ∃ i, y i = (sorted y).getD k 0 := by
  have hlen := length_sorted y
  rw [List.getD_eq_getElem _ _ (by omega)]
  have := List.getElem_mem (l := sorted y) (n := k) (by omega)
  unfold sorted at this
  rw [List.mem_insertionSort, List.mem_ofFn] at this
  exact this

theorem mem_getD (y : Fin n → ℝ) (i : Fin n) : ∃ k < n, y i = (sorted y).getD k 0 := by
  have hlen := length_sorted y
  have : y i ∈ sorted y := by
    unfold sorted
    rw [List.mem_insertionSort, List.mem_ofFn]
    exact ⟨i, rfl⟩
  obtain ⟨k, hk, h⟩ := List.mem_iff_getElem.mp this
  exact ⟨k, by omega, by rw [List.getD_eq_getElem _ _ hk, h]⟩

theorem range_eq (y : Fin n → ℝ) {hi lo : ℝ} (h1 : IsGreatest (Set.range y) hi) (h2 : IsLeast (Set.range y) lo) :
    Norm.range.eval y = hi - lo := by
  obtain ⟨⟨i, hi'⟩, h1⟩ := h1
  obtain ⟨⟨j, hj'⟩, h2⟩ := h2
  have hn : 0 < n := i.pos
  obtain ⟨a, ha⟩ := getD_mem y (k := n - 1) (by omega)
  obtain ⟨b, hb⟩ := getD_mem y hn
  obtain ⟨k, hk, ek⟩ := mem_getD y i
  obtain ⟨l, hl, el⟩ := mem_getD y j
  have e1 : (sorted y).getD (n - 1) 0 = hi := by
    apply le_antisymm
    · rw [← ha]; exact h1 ⟨a, rfl⟩
    · rw [← hi', ek]; exact sorted_le y (by omega) (by omega)
  have e2 : (sorted y).getD 0 0 = lo := by
    apply le_antisymm
    · rw [← hj', el]; exact sorted_le y (by omega) hl
    · rw [← hb]; exact h2 ⟨b, rfl⟩
  simp only [Norm.eval]
  rw [e1, e2]

/-- **C124** (divisors): the divisors are what their names say: the largest minus the smallest value, the distance of the
quartiles, the middle and the mean. -/
theorem C124_divisors (y : Fin n → ℝ) (hn : 0 < n) :
    (∃ hi lo, IsGreatest (Set.range y) hi ∧ IsLeast (Set.range y) lo ∧ Norm.range.eval y = hi - lo) ∧
    (∃ q1 q3, IsQuantile y (1 / 4) q1 ∧ IsQuantile y (3 / 4) q3 ∧ Norm.iqr.eval y = q3 - q1) ∧
    (2 * #{i | Norm.median.eval y < y i} ≤ n ∧ 2 * #{i | y i < Norm.median.eval y} ≤ n) ∧
    n * Norm.mean.eval y = ∑ i, y i := by
  refine ⟨?_, ⟨_, _, atPos_quantile y hn (by norm_num) (by norm_num), atPos_quantile y hn (by norm_num) (by norm_num),
    rfl⟩, ⟨half_above y hn, half_below y hn⟩, ?_⟩
  · have : Nonempty (Fin n) := ⟨⟨0, hn⟩⟩
    obtain ⟨i, hi⟩ := Finite.exists_max y
    obtain ⟨j, hj⟩ := Finite.exists_min y
    have h1 : IsGreatest (Set.range y) (y i) := ⟨⟨i, rfl⟩, by rintro _ ⟨k, rfl⟩; exact hi k⟩
    have h2 : IsLeast (Set.range y) (y j) := ⟨⟨j, rfl⟩, by rintro _ ⟨k, rfl⟩; exact hj k⟩
    exact ⟨_, _, h1, h2, range_eq y h1 h2⟩
  · simp only [Norm.eval, Stats.mean]
    have : (n : ℝ) ≠ 0 := by positivity
    field_simp

/-- Of 0, 4 and 8, 2 is a first quartile and 5 is not. -/
example : IsQuantile (![0, 4, 8] : Fin 3 → ℝ) (1 / 4) 2 ∧ ¬ IsQuantile (![0, 4, 8] : Fin 3 → ℝ) (1 / 4) 5 ∧
    Norm.range.eval (![0, 4, 8] : Fin 3 → ℝ) = 8 := by
  refine ⟨?_, ?_, ?_⟩
  · unfold IsQuantile
    have h1 : (univ.filter fun i : Fin 3 => (![0, 4, 8] : Fin 3 → ℝ) i ≤ 2) = {0} := by
      ext i; fin_cases i <;> simp <;> norm_num
    have h2 : (univ.filter fun i : Fin 3 => 2 ≤ (![0, 4, 8] : Fin 3 → ℝ) i) = {1, 2} := by
      ext i; fin_cases i <;> simp <;> norm_num
    rw [h1, h2, card_singleton, card_pair (by decide)]
    norm_num
  · unfold IsQuantile
    have h2 : (univ.filter fun i : Fin 3 => 5 ≤ (![0, 4, 8] : Fin 3 → ℝ) i) = {2} := by
      ext i; fin_cases i <;> simp <;> norm_num
    rw [h2]
    norm_num
  · have h1 : IsGreatest (Set.range (![0, 4, 8] : Fin 3 → ℝ)) 8 :=
      ⟨⟨2, rfl⟩, by rintro _ ⟨k, rfl⟩; fin_cases k <;> simp <;> norm_num⟩
    have h2 : IsLeast (Set.range (![0, 4, 8] : Fin 3 → ℝ)) 0 :=
      ⟨⟨0, rfl⟩, by rintro _ ⟨k, rfl⟩; fin_cases k <;> simp⟩
    rw [range_eq _ h1 h2]
    norm_num

end Verif.NormErr
