import Verif.Model.Stats
import Mathlib.Algebra.Order.BigOperators.Group.Finset
import Mathlib.Algebra.Order.Chebyshev
import Mathlib.Algebra.BigOperators.Fin
import Mathlib.Data.Fin.VecNotation
import Mathlib.Tactic.Linarith
import Mathlib.Tactic.Positivity
import Mathlib.Tactic.FieldSimp
import Mathlib.Tactic.Ring
import Mathlib.Tactic.FinCases

/-!
# Error measures and the scaled truncation error (C56, C57)
-/

namespace Verif.Stats

open Finset

section Measures

variable {n : ℕ}

theorem sq_mean_le (f : Fin n → ℝ) : (mean f) ^ 2 ≤ mean fun i => (f i) ^ 2 := by
  unfold mean
  rcases Nat.eq_zero_or_pos n with rfl | hn
  · simp
  have hn' : (0 : ℝ) < n := by exact_mod_cast hn
  have h := sq_sum_le_card_mul_sum_sq (s := univ) (f := f)
  rw [card_univ, Fintype.card_fin] at h
  rw [div_pow, div_le_div_iff₀ (by positivity) hn']
  nlinarith

theorem abs_mean_le (f : Fin n → ℝ) : |mean f| ≤ mean fun i => |f i| := by
  unfold mean
  rw [abs_div, Nat.abs_cast]
  exact div_le_div_of_nonneg_right (abs_sum_le_sum_abs _ _) (Nat.cast_nonneg n)

/-- C56: the mean absolute error is not below the absolute mean signed deviation, the root mean square error not
below the mean absolute error. -/
theorem C56_ordering (y yh : Fin n → ℝ) : |msd y yh| ≤ mae y yh ∧ mae y yh ≤ rmse y yh := by
  constructor
  · refine le_trans (abs_mean_le _) (le_of_eq ?_)
    unfold mae
    congr 1
    funext i
    exact abs_sub_comm _ _
  · unfold rmse mae mse
    apply Real.le_sqrt_of_sq_le
    have := sq_mean_le fun i => |y i - yh i|
    simpa only [sq_abs] using this

/-- C56: for at least one value each of MSE, RMSE and MAE is zero exactly for identical series; the signed
deviation of identical series is zero. -/
theorem C56_zero_iff (hn : 0 < n) (y yh : Fin n → ℝ) :
    (mse y yh = 0 ↔ y = yh) ∧ (rmse y yh = 0 ↔ y = yh) ∧ (mae y yh = 0 ↔ y = yh) ∧ msd y y = 0 := by
  have hn' : (n : ℝ) ≠ 0 := by
    have : (0 : ℝ) < n := by exact_mod_cast hn
    exact this.ne'
  have h1 : mse y yh = 0 ↔ y = yh := by
    unfold mse mean
    rw [div_eq_zero_iff, or_iff_left hn', sum_eq_zero_iff_of_nonneg (fun i _ => sq_nonneg _)]
    constructor
    · intro h
      funext i
      have := pow_eq_zero_iff (two_ne_zero) |>.1 (h i (mem_univ i))
      linarith
    · rintro rfl i _
      simp
  refine ⟨h1, ?_, ?_, ?_⟩
  · unfold rmse
    rw [Real.sqrt_eq_zero]
    · exact h1
    · unfold mse mean
      exact div_nonneg (sum_nonneg fun i _ => sq_nonneg _) (Nat.cast_nonneg n)
  · unfold mae mean
    rw [div_eq_zero_iff, or_iff_left hn', sum_eq_zero_iff_of_nonneg (fun i _ => abs_nonneg _)]
    constructor
    · intro h
      funext i
      have := abs_eq_zero.1 (h i (mem_univ i))
      linarith
    · rintro rfl i _
      simp
  · simp [msd, mean]

theorem ssTot_nonneg (y : Fin n → ℝ) : 0 ≤ ssTot y := sum_nonneg fun _ _ => sq_nonneg _

/-- C56: the coefficient of determination of one column, where it exists, is at most 1, equals 1 exactly for
identical series, and is 0 for the prediction by the mean; it exists exactly if the observation is not constant. -/
theorem C56_r_squared (y yh : Fin n → ℝ) :
    (rSquared y yh = none ↔ ∀ i, y i = mean y) ∧
      (∀ r, rSquared y yh = some r → r ≤ 1 ∧ (r = 1 ↔ y = yh)) ∧
      ∀ r, rSquared y (fun _ => mean y) = some r → r = 0 := by
  unfold rSquared
  refine ⟨?_, ?_, ?_⟩
  · have : ssTot y = 0 ↔ ∀ i, y i = mean y := by
      unfold ssTot
      rw [sum_eq_zero_iff_of_nonneg fun i _ => sq_nonneg _]
      constructor
      · intro h i
        have := pow_eq_zero_iff (two_ne_zero) |>.1 (h i (mem_univ i))
        linarith
      · intro h i _
        rw [h i]; simp
    rw [← this]
    by_cases h : ssTot y = 0
    · simp [h]
    · simp [h]
  · intro r hr
    by_cases h : ssTot y = 0
    · rw [if_pos h] at hr; cases hr
    · rw [if_neg h, Option.some.injEq] at hr
      have hp : 0 < ssTot y := lt_of_le_of_ne (ssTot_nonneg y) (Ne.symm h)
      have h0 : 0 ≤ ∑ i, (y i - yh i) ^ 2 := sum_nonneg fun i _ => sq_nonneg _
      have hd : 0 ≤ (∑ i, (y i - yh i) ^ 2) / ssTot y := div_nonneg h0 hp.le
      refine ⟨by linarith, ?_⟩
      have : r = 1 ↔ (∑ i, (y i - yh i) ^ 2) / ssTot y = 0 := by constructor <;> intro h <;> linarith
      rw [this, div_eq_zero_iff, or_iff_left h, sum_eq_zero_iff_of_nonneg fun i _ => sq_nonneg _]
      constructor
      · intro h'
        funext i
        have := pow_eq_zero_iff (two_ne_zero) |>.1 (h' i (mem_univ i))
        linarith
      · rintro rfl i _
        simp
  · intro r hr
    by_cases h : ssTot y = 0
    · rw [if_pos h] at hr; cases hr
    · rw [if_neg h, Option.some.injEq] at hr
      have : (∑ i, (y i - mean y) ^ 2) / ssTot y = 1 := div_self h
      rw [this] at hr
      linarith

/-- Full statement of the last clause of C56: several columns get the coefficient of each column. -/
def C56_columns_statement : Prop :=
  ∀ (n m : ℕ) (y yh : Fin m → Fin n → ℝ) (c : Fin m), rSquaredColumns y yh c = rSquared (y c) (yh c)

/-- C56, several columns, what holds: with a single observed column every prediction gets its own coefficient;
with several observed columns the reported value is never below the coefficient of the column. -/
theorem C56_columns_partial {m : ℕ} :
    (∀ (y : Fin n → ℝ) (yh : Fin m → Fin n → ℝ) c, rSquaredPredictions y yh c = rSquared y (yh c)) ∧
      (∀ (y yh : Fin m → Fin n → ℝ) (c : Fin m) (r : ℝ), rSquared (y c) (yh c) = some r →
        ∃ r', rSquaredColumns y yh c = some r' ∧ r ≤ r' ∧ r' ≤ 1) ∧
      ∀ (y yh : Fin 1 → Fin n → ℝ), rSquaredColumns y yh 0 = rSquared (y 0) (yh 0) := by
  refine ⟨fun _ _ _ => rfl, ?_, ?_⟩
  · intro y yh c r hr
    unfold rSquared at hr
    by_cases h : ssTot (y c) = 0
    · rw [if_pos h] at hr; cases hr
    · rw [if_neg h, Option.some.injEq] at hr
      have hp : 0 < ssTot (y c) := lt_of_le_of_ne (ssTot_nonneg _) (Ne.symm h)
      have hle : ssTot (y c) ≤ ∑ c', ssTot (y c') :=
        single_le_sum (fun c' _ => ssTot_nonneg (y c')) (mem_univ c)
      have hp' : 0 < ∑ c', ssTot (y c') := lt_of_lt_of_le hp hle
      have h0 : 0 ≤ ∑ i, (y c i - yh c i) ^ 2 := sum_nonneg fun i _ => sq_nonneg _
      refine ⟨_, if_neg hp'.ne', ?_, ?_⟩
      · rw [← hr]
        have := div_le_div_of_nonneg_left h0 hp hle
        linarith
      · have := div_nonneg h0 hp'.le
        linarith
  · intro y yh
    simp [rSquaredColumns, rSquared]

/-- C56 fails for two observed columns: the coefficients are 0 and 0, reported are 1/2 and 1/2. -/
theorem C56_fails_columns : ¬ C56_columns_statement := by
  intro h
  have := h 2 2 (fun _ => ![0, 2]) (fun _ => ![1, 1]) 0
  norm_num [rSquaredColumns, rSquared, ssTot, mean, Fin.sum_univ_two] at this

example : rSquared ![0, 2] ![0, 1] = some (1 / 2) ∧ mae ![0, 2] ![0, 1] = 1 / 2 ∧ msd ![0, 2] ![0, 1] = -1 / 2 := by
  norm_num [rSquared, ssTot, mean, mae, msd, Fin.sum_univ_two]

/-- C56: the adjusted coefficient is not above the plain one (at most 1) for a model with `0 ≤ p` explanatory
variables and more than `p + 1` samples. -/
theorem C56_adjusted {p n r : ℝ} (hp : 0 ≤ p) (hn : p + 1 < n) (hr : r ≤ 1) :
    ∃ a, rSquaredAdj p n r = some a ∧ a ≤ r ∧ (p = 0 → a = r) := by
  have h : 0 < n - p - 1 := by linarith
  refine ⟨_, if_neg h.ne', ?_, ?_⟩
  · rw [if_pos hr]
    have : 1 - r ≤ (1 - r) * (n - 1) / (n - p - 1) := by
      rw [le_div_iff₀ h]
      nlinarith
    linarith
  · rintro rfl
    rw [if_pos hr]
    have : (1 - r) * (n - 1) / (n - 0 - 1) = 1 - r := by
      field_simp
      ring
    rw [this]; ring

end Measures

section Corrector

/-- Full statement of C57: with tolerances as the environment accepts them (`0 < rtol < 1`, `0 < atol < 1`,
`simenv.py:341-354`), whatever the temperatures, the scaled error exists, is not negative, and is zero exactly if
predictor and corrector agree in every weighted cell. -/
def C57_statement : Prop :=
  ∀ (rtol atol : ℝ) (cs : List Cell), 0 < rtol → rtol < 1 → 0 < atol → atol < 1 →
    ∃ e, truncErr rtol atol cs = some e ∧ 0 ≤ e ∧ (e = 0 ↔ ∀ c ∈ cs, c.weight = 0 ∨ c.res = c.pred)

/-- The conclusion of C57 needs only tolerances which are not zero. -/
theorem truncErr_of_ne {rtol atol : ℝ} (cs : List Cell) (h : ∀ c ∈ cs, tolerance rtol atol c ≠ 0) :
    ∃ e, truncErr rtol atol cs = some e ∧ 0 ≤ e ∧ (e = 0 ↔ ∀ c ∈ cs, c.weight = 0 ∨ c.res = c.pred) := by
  induction cs with
  | nil => exact ⟨0, rfl, le_refl _, by simp⟩
  | cons c cs ih =>
    obtain ⟨e, he, h0, hz⟩ := ih fun c' hc' => h c' (List.mem_cons_of_mem _ hc')
    have hc := h c (List.mem_cons_self ..)
    refine ⟨((c.res - c.pred) * c.weight / tolerance rtol atol c) ^ 2 + e, ?_, by positivity, ?_⟩
    · simp only [truncErr, cellErr, if_neg hc, he, Option.bind_eq_bind, Option.bind_some]
    · have hs : 0 ≤ ((c.res - c.pred) * c.weight / tolerance rtol atol c) ^ 2 := sq_nonneg _
      rw [add_eq_zero_iff_of_nonneg hs h0, hz, pow_eq_zero_iff two_ne_zero, div_eq_zero_iff, or_iff_left hc,
        mul_eq_zero, sub_eq_zero, List.forall_mem_cons, or_comm]

/-- C57 for temperatures above `-atol / rtol` (in particular for all temperatures of at least 0 degC): the
tolerance of every cell is positive, the scaled error is a finite non-negative number, zero exactly if predictor
and corrector agree in all weighted cells. -/
theorem C57_well_scaled_partial {rtol atol : ℝ} (hr : 0 < rtol) {cs : List Cell}
    (h : ∀ c ∈ cs, -atol / rtol < max c.prev c.res) :
    (∀ c ∈ cs, 0 < tolerance rtol atol c) ∧
      ∃ e, truncErr rtol atol cs = some e ∧ 0 ≤ e ∧ (e = 0 ↔ ∀ c ∈ cs, c.weight = 0 ∨ c.res = c.pred) := by
  have hpos : ∀ c ∈ cs, 0 < tolerance rtol atol c := by
    intro c hc
    have := (div_lt_iff₀ hr).1 (h c hc)
    unfold tolerance
    linarith
  exact ⟨hpos, truncErr_of_ne cs fun c hc => (hpos c hc).ne'⟩

/-- C57: a cell whose deviation is within its tolerance contributes at most the square of its weight; the error of
a part with weights at most 1 in which all deviations are within tolerance is at most 1. -/
theorem C57_within_tolerance {rtol atol : ℝ} {cs : List Cell} (hne : cs ≠ [])
    (h : ∀ c ∈ cs, 0 < tolerance rtol atol c ∧ |c.res - c.pred| ≤ tolerance rtol atol c ∧ |c.weight| ≤ 1) :
    ∃ e, partErr rtol atol cs = some e ∧ 0 ≤ e ∧ e ≤ 1 := by
  have key : ∀ cs : List Cell,
      (∀ c ∈ cs, 0 < tolerance rtol atol c ∧ |c.res - c.pred| ≤ tolerance rtol atol c ∧ |c.weight| ≤ 1) →
      ∃ e, truncErr rtol atol cs = some e ∧ 0 ≤ e ∧ e ≤ cs.length := by
    intro cs
    induction cs with
    | nil => intro _; exact ⟨0, rfl, le_refl _, by simp⟩
    | cons c cs ih =>
      intro h
      obtain ⟨e, he, h0, h1⟩ := ih fun c' hc' => h c' (List.mem_cons_of_mem _ hc')
      obtain ⟨t0, t1, t2⟩ := h c (List.mem_cons_self ..)
      refine ⟨((c.res - c.pred) * c.weight / tolerance rtol atol c) ^ 2 + e, ?_, by positivity, ?_⟩
      · simp only [truncErr, cellErr, if_neg t0.ne', he, Option.bind_eq_bind, Option.bind_some]
      · have : |(c.res - c.pred) * c.weight / tolerance rtol atol c| ≤ 1 := by
          rw [abs_div, abs_mul, abs_of_pos t0, div_le_one t0]
          calc |c.res - c.pred| * |c.weight| ≤ tolerance rtol atol c * 1 :=
                mul_le_mul t1 t2 (abs_nonneg _) t0.le
            _ = tolerance rtol atol c := mul_one _
        have h2 := (sq_le_one_iff_abs_le_one _).2 this
        push_cast [List.length_cons]
        linarith
  obtain ⟨e, he, h0, h1⟩ := key cs h
  have hl : (0 : ℝ) < cs.length := by
    have := List.length_pos_iff.2 hne
    exact_mod_cast this
  refine ⟨(e / cs.length) ^ (0.5 : ℝ), by simp [partErr, he], by positivity, ?_⟩
  exact Real.rpow_le_one (div_nonneg h0 hl.le) ((div_le_one hl).2 h1) (by norm_num)

example : ∃ e, truncErr 0.001 0.000001 [⟨20, 20.5, 20.4, 1⟩, ⟨60, 60, 60, 1⟩] = some e ∧ 0 < e := by
  obtain ⟨-, e, he, h0, hz⟩ := C57_well_scaled_partial (rtol := 0.001) (atol := 0.000001) (by norm_num)
    (cs := [⟨20, 20.5, 20.4, 1⟩, ⟨60, 60, 60, 1⟩]) (by
      intro c hc
      simp only [List.mem_cons, List.not_mem_nil, or_false] at hc
      rcases hc with rfl | rfl
      · exact lt_of_lt_of_le (by norm_num) (le_max_left _ _)
      · exact lt_of_lt_of_le (by norm_num) (le_max_left _ _))
  refine ⟨e, he, lt_of_le_of_ne h0 fun h => ?_⟩
  have := hz.1 h.symm _ (List.mem_cons_self ..)
  norm_num at this

/-- C57 fails for water just below 0 degC: with the default tolerances and a cell at -0.001 degC the scale is zero. -/
theorem C57_fails_below_zero : ¬ C57_statement := by
  intro h
  obtain ⟨e, he, -⟩ := h 0.001 0.000001 [⟨-0.001, -0.001, 0, 1⟩] (by norm_num) (by norm_num) (by norm_num) (by norm_num)
  have ht : tolerance 0.001 0.000001 ⟨-0.001, -0.001, 0, 1⟩ = 0 := by norm_num [tolerance]
  simp [truncErr, cellErr, ht] at he

/-- C57 fails in kind below that: the tolerance is negative for every colder cell, and a deviation is accepted that
grows with the cold: at -20 degC the error of a cell counts as small as at +20 degC. -/
theorem C57_fails_negative_tolerance {rtol atol : ℝ} (hr : 0 < rtol) {c : Cell} (h : max c.prev c.res < -atol / rtol) :
    tolerance rtol atol c < 0 := by
  have := (lt_div_iff₀ hr).1 h
  unfold tolerance
  linarith

end Corrector

end Verif.Stats
