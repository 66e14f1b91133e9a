import Verif.Model.ValPlot
import Mathlib.Tactic.Linarith
import Mathlib.Tactic.FieldSimp
import Mathlib.Tactic.Ring
import Mathlib.Tactic.NormNum
import Mathlib.Algebra.BigOperators.Fin
import Mathlib.Algebra.Order.BigOperators.Ring.Finset

/-!
# C183: validation plots show the errors of the prediction
-/

namespace Verif.ValPlot

open Finset

/-- Specification: the errors of the predicted values `yh` of the measured values `y`.  `v` is the value of the measure. -/
def Error {n : ℕ} (y yh : Fin n → ℝ) (v : ℝ) : Measure → Prop
  | .r2 => ∃ m tot, m * n = ∑ i, y i ∧ tot = ∑ i, (y i - m) ^ 2 ∧ tot ≠ 0 ∧ (1 - v) * tot = ∑ i, (y i - yh i) ^ 2
  | .mse => v * n = ∑ i, (yh i - y i) ^ 2
  | .cv => ∃ m, m * n = ∑ i, y i ∧ m ≠ 0 ∧ 0 ≤ v * m ∧ (v * m) ^ 2 * n = ∑ i, (yh i - y i) ^ 2
  | .nmbe => ∃ m, m * n = ∑ i, y i ∧ m ≠ 0 ∧ v * m * n = ∑ i, (yh i - y i)

theorem mean_mul {n : ℕ} (y : Fin (n + 1) → ℝ) : Stats.mean y * (n + 1 : ℕ) = ∑ i, y i := by
  unfold Stats.mean
  rw [div_mul_cancel₀]
  positivity

theorem rSquared_iff {n : ℕ} {y yh : Fin n → ℝ} {v : ℝ} :
    Stats.rSquared y yh = some v ↔ Stats.ssTot y ≠ 0 ∧ 1 - (∑ i, (y i - yh i) ^ 2) / Stats.ssTot y = v := by
  unfold Stats.rSquared
  split_ifs with h <;> simp [h]

theorem normalized_iff {n : ℕ} {e : NormErr.Err} {d : NormErr.Norm} {y yh : Fin n → ℝ} {v : ℝ} :
    NormErr.normalized e d y yh = some v ↔ d.eval y ≠ 0 ∧ e.eval y yh / d.eval y = v := by
  unfold NormErr.normalized
  split_ifs with h <;> simp [h]

/-- What is computed for a name is the error of that name. -/
theorem compute_iff {n : ℕ} (y yh : Fin (n + 1) → ℝ) (m : Measure) (v : ℝ) : compute y yh m = some v ↔ Error y yh v m := by
  have hn : ((n + 1 : ℕ) : ℝ) ≠ 0 := by positivity
  have um : ∀ {m : ℝ}, m * (n + 1 : ℕ) = ∑ i, y i → m = Stats.mean y := fun h => mul_right_cancel₀ hn (h.trans (mean_mul y).symm)
  have sq : ∑ i, (y i - yh i) ^ 2 = ∑ i, (yh i - y i) ^ 2 := by
    apply Finset.sum_congr rfl
    intros; ring
  have hmse : Stats.mse y yh * (n + 1 : ℕ) = ∑ i, (yh i - y i) ^ 2 := by
    rw [← sq]; exact mean_mul _
  cases m with
  | r2 =>
    simp only [compute, Error]
    rw [rSquared_iff]
    unfold Stats.ssTot
    constructor
    · rintro ⟨h0, rfl⟩
      refine ⟨_, _, mean_mul y, rfl, h0, ?_⟩
      rw [sub_sub_cancel, div_mul_cancel₀ _ h0]
    · rintro ⟨m, tot, h1, rfl, h2, h3⟩
      obtain rfl := um h1
      refine ⟨h2, ?_⟩
      rw [← h3, mul_div_cancel_right₀ _ h2]
      ring
  | mse =>
    simp only [compute, Error, Option.some.injEq]
    exact ⟨fun h => h ▸ hmse, fun h => mul_right_cancel₀ hn (hmse.trans h.symm)⟩
  | cv =>
    have hpos : 0 ≤ Stats.mse y yh := by
      by_contra hneg
      have h1 : 0 ≤ ∑ i, (yh i - y i) ^ 2 := Finset.sum_nonneg fun i _ => sq_nonneg _
      have h2 : Stats.mse y yh * (n + 1 : ℕ) < 0 := mul_neg_of_neg_of_pos (not_le.1 hneg) (by positivity)
      linarith
    simp only [compute, Error]
    rw [normalized_iff]
    simp only [NormErr.Norm.eval, NormErr.Err.eval, Stats.rmse]
    constructor
    · rintro ⟨h0, rfl⟩
      refine ⟨_, mean_mul y, h0, ?_, ?_⟩
      · rw [div_mul_cancel₀ _ h0]; exact Real.sqrt_nonneg _
      · rw [div_mul_cancel₀ _ h0, Real.sq_sqrt hpos]; exact hmse
    · rintro ⟨m, h1, h2, h3, h4⟩
      obtain rfl := um h1
      refine ⟨h2, ?_⟩
      rw [div_eq_iff h2, mul_right_cancel₀ hn (hmse.trans h4.symm), Real.sqrt_sq h3]
  | nmbe =>
    simp only [compute, Error]
    rw [normalized_iff]
    simp only [NormErr.Norm.eval, NormErr.Err.eval, Stats.msd]
    have hm := mean_mul fun i => yh i - y i
    constructor
    · rintro ⟨h0, rfl⟩
      refine ⟨_, mean_mul y, h0, ?_⟩
      rw [div_mul_cancel₀ _ h0]; exact hm
    · rintro ⟨m, h1, h2, h3⟩
      obtain rfl := um h1
      refine ⟨h2, ?_⟩
      rw [div_eq_iff h2]
      exact mul_right_cancel₀ hn (hm.trans h3.symm)

theorem mem_annotate {n : ℕ} {errors : List Measure} {given : Measure → Option ℝ} {y yh : Fin n → ℝ} {m : Measure} {v : Option ℝ} :
    (m, v) ∈ annotate errors given y yh ↔ m ∈ errors ∧ v = match given m with
      | some v => some v
      | none => compute y yh m := by
  unfold annotate
  rw [List.mem_map]
  constructor
  · rintro ⟨m', h1, h2⟩
    obtain ⟨rfl, rfl⟩ := Prod.mk.inj h2
    exact ⟨by simpa using (List.mem_filter.1 h1).2, rfl⟩
  · rintro ⟨h1, rfl⟩
    exact ⟨m, List.mem_filter.2 ⟨by cases m <;> simp, by simpa using h1⟩, rfl⟩

/-- **C183** (scatter plot): every measure that is asked for and not given is shown, and the number shown is the error of the prediction. -/
theorem C183_scatter {n : ℕ} (errors : List Measure) (given : Measure → Option ℝ) (every : ℕ) (y yh : Fin (n + 1) → ℝ) {m : Measure}
    (hm : m ∈ errors) (hg : given m = none) (v : ℝ) : (m, some v) ∈ (scatter errors given every y yh).text ↔ Error y yh v m := by
  rw [← compute_iff]
  simp only [scatter, mem_annotate, hg]
  exact ⟨fun h => h.2.symm, fun h => ⟨hm, h.symm⟩⟩

/-- **C183** (scatter plot): given values are shown as they are, measures that are not asked for are not shown. -/
theorem C183_given {n : ℕ} (errors : List Measure) (given : Measure → Option ℝ) (every : ℕ) (y yh : Fin (n + 1) → ℝ) {m : Measure}
    {v : Option ℝ} (h : (m, v) ∈ (scatter errors given every y yh).text) : m ∈ errors ∧ ∀ u, given m = some u → v = some u := by
  obtain ⟨h1, rfl⟩ := mem_annotate.1 h
  exact ⟨h1, fun u hu => by simp [hu]⟩

/-- **C183** (scatter plot): all points lie in the plot, and not on its border if there are two different values. -/
theorem C183_inside {n : ℕ} (errors : List Measure) (given : Measure → Option ℝ) (every : ℕ) (y yh : Fin (n + 1) → ℝ) {p : ℝ × ℝ}
    (hp : p ∈ (scatter errors given every y yh).points) :
    let s := scatter errors given every y yh
    (s.lo ≤ p.1 ∧ p.1 ≤ s.hi ∧ s.lo ≤ p.2 ∧ p.2 ≤ s.hi) ∧
      ((∃ i j, y i ≠ y j ∨ y i ≠ yh j ∨ yh i ≠ yh j) → s.lo < p.1 ∧ p.1 < s.hi ∧ s.lo < p.2 ∧ p.2 < s.hi) := by
  have lo1 : ∀ i, min (univ.inf' ⟨0, mem_univ _⟩ y) (univ.inf' ⟨0, mem_univ _⟩ yh) ≤ y i := fun i => min_le_of_left_le (inf'_le _ (mem_univ i))
  have lo2 : ∀ i, min (univ.inf' ⟨0, mem_univ _⟩ y) (univ.inf' ⟨0, mem_univ _⟩ yh) ≤ yh i := fun i => min_le_of_right_le (inf'_le _ (mem_univ i))
  have hi1 : ∀ i, y i ≤ max (univ.sup' ⟨0, mem_univ _⟩ y) (univ.sup' ⟨0, mem_univ _⟩ yh) := fun i => le_max_of_le_left (le_sup' _ (mem_univ i))
  have hi2 : ∀ i, yh i ≤ max (univ.sup' ⟨0, mem_univ _⟩ y) (univ.sup' ⟨0, mem_univ _⟩ yh) := fun i => le_max_of_le_right (le_sup' _ (mem_univ i))
  simp only [scatter, List.mem_map] at hp
  obtain ⟨i, -, rfl⟩ := hp
  simp only [scatter]
  generalize min (univ.inf' ⟨0, mem_univ _⟩ y) (univ.inf' ⟨0, mem_univ _⟩ yh) = a at *
  generalize max (univ.sup' ⟨0, mem_univ _⟩ y) (univ.sup' ⟨0, mem_univ _⟩ yh) = b at *
  have := lo1 i
  have := lo2 i
  have := hi1 i
  have := hi2 i
  refine ⟨⟨?_, ?_, ?_, ?_⟩, ?_⟩
  all_goals try (norm_num; linarith)
  rintro ⟨k, l, h⟩
  have hab : a < b := by
    by_contra hn
    have e : ∀ c, a ≤ c → c ≤ b → c = a := fun c h1 h2 => le_antisymm (by linarith) h1
    have e1 := e _ (lo1 k) (hi1 k)
    have e2 := e _ (lo1 l) (hi1 l)
    have e3 := e _ (lo2 k) (hi2 k)
    have e4 := e _ (lo2 l) (hi2 l)
    simp [e1, e2, e3, e4] at h
  refine ⟨?_, ?_, ?_, ?_⟩
  all_goals norm_num; linarith

/-- **C183** (scatter plot): with `plot_every = 1` every pair of values is a point. -/
theorem C183_points {n : ℕ} (errors : List Measure) (given : Measure → Option ℝ) (y yh : Fin (n + 1) → ℝ) :
    (scatter errors given 1 y yh).points = List.ofFn fun i => (y i, yh i) := by
  unfold scatter
  rw [List.ofFn_eq_map]
  simp only [Nat.mod_one, decide_true, List.filter_true]

/-- **C183** (density plot), partial: the mean squared error is that of the prediction. -/
theorem C183_density_partial {n : ℕ} (errors : List Measure) (y yh : Fin (n + 1) → ℝ) (hm : .mse ∈ errors) (v : ℝ) :
    (.mse, some v) ∈ kde errors y yh ↔ Error y yh v .mse := by
  unfold kde
  rw [mem_annotate]
  simp only [hm, true_and]
  rw [eq_comm, compute_iff]
  simp only [Error]
  rw [show ∑ i, (y i - yh i) ^ 2 = ∑ i, (yh i - y i) ^ 2 from Finset.sum_congr rfl fun _ _ => by ring]

theorem mem_kde {n : ℕ} {errors : List Measure} {y yh : Fin (n + 1) → ℝ} {m : Measure} {v : ℝ}
    (h : (m, some v) ∈ kde errors y yh) : Error yh y v m := (compute_iff _ _ _ _).1 (mem_annotate.1 h).2.symm

/-- **C183 is false of the code for the density plot**: the normalised mean bias has always the wrong sign, if measured and predicted values
have means of the same sign; a prediction that is too high is shown as too low. -/
theorem C183_fails_bias {n : ℕ} {errors : List Measure} {y yh : Fin (n + 1) → ℝ} {v w : ℝ} (h : (.nmbe, some v) ∈ kde errors y yh)
    (hw : Error y yh w .nmbe) (hs : 0 < (∑ i, y i) * ∑ i, yh i) : v * w ≤ 0 ∧ (w ≠ 0 → v ≠ w) := by
  obtain ⟨a, ha, -, h1⟩ := mem_kde h
  obtain ⟨b, hb, -, h2⟩ := hw
  rw [← ha, ← hb] at hs
  have e : v * (a * (n + 1 : ℕ)) = -(w * (b * (n + 1 : ℕ))) := by
    rw [← mul_assoc, h1, ← mul_assoc, h2, ← Finset.sum_neg_distrib]
    exact Finset.sum_congr rfl fun _ _ => by ring
  generalize a * ((n + 1 : ℕ) : ℝ) = A at *
  generalize b * ((n + 1 : ℕ) : ℝ) = B at *
  have key : v * w ≤ 0 := by
    have hB : 0 < A ^ 2 := by
      have : A ≠ 0 := by rintro rfl; simp at hs
      positivity
    have : v * w * A ^ 2 = -(w ^ 2 * (B * A)) := by
      linear_combination w * A * e
    have h3 : 0 ≤ w ^ 2 * (B * A) := by positivity
    by_contra hn
    have := mul_pos (not_le.1 hn) hB
    linarith
  refine ⟨key, fun h0 h => ?_⟩
  subst h
  have : 0 < v * v := mul_self_pos.2 h0
  linarith

/-- **C183 is false of the code for the density plot**: the coefficient of variation that is shown is right only if the values are all equal or
have the same mean. -/
theorem C183_fails_variation {n : ℕ} {errors : List Measure} {y yh : Fin (n + 1) → ℝ} {v : ℝ} (h : (.cv, some v) ∈ kde errors y yh)
    (hw : Error y yh v .cv) : y = yh ∨ ∑ i, y i = ∑ i, yh i := by
  obtain ⟨a, ha, -, h1, h2⟩ := mem_kde h
  obtain ⟨b, hb, -, h3, h4⟩ := hw
  have hn : ((n + 1 : ℕ) : ℝ) ≠ 0 := by positivity
  rw [show ∑ i, (y i - yh i) ^ 2 = ∑ i, (yh i - y i) ^ 2 from Finset.sum_congr rfl fun _ _ => by ring, ← h4] at h2
  have e := (sq_eq_sq₀ h1 h3).1 (mul_right_cancel₀ hn h2)
  by_cases hv : v = 0
  · left
    rw [hv] at h4
    have h5 : ∑ i, (yh i - y i) ^ 2 = 0 := by rw [← h4]; ring
    funext i
    have := (Finset.sum_eq_zero_iff_of_nonneg fun i _ => sq_nonneg _).1 h5 i (mem_univ i)
    have := pow_eq_zero_iff (two_ne_zero) |>.1 this
    linarith
  · right
    rw [← ha, ← hb, mul_left_cancel₀ hv e]

/-- **C183 is false of the code for the density plot**: the coefficient of determination that is shown is right only if the values are all
equal or vary equally. -/
theorem C183_fails_determination {n : ℕ} {errors : List Measure} {y yh : Fin (n + 1) → ℝ} {v : ℝ} (h : (.r2, some v) ∈ kde errors y yh)
    (hw : Error y yh v .r2) : y = yh ∨ ∃ a b, a * (n + 1 : ℕ) = ∑ i, y i ∧ b * (n + 1 : ℕ) = ∑ i, yh i ∧
      ∑ i, (y i - a) ^ 2 = ∑ i, (yh i - b) ^ 2 := by
  obtain ⟨b, t, hb, rfl, -, h1⟩ := mem_kde h
  obtain ⟨a, u, ha, rfl, -, h2⟩ := hw
  rw [show ∑ i, (yh i - y i) ^ 2 = ∑ i, (y i - yh i) ^ 2 from Finset.sum_congr rfl fun _ _ => by ring] at h1
  by_cases hv : 1 - v = 0
  · left
    rw [hv, zero_mul] at h2
    funext i
    have := (Finset.sum_eq_zero_iff_of_nonneg fun i _ => sq_nonneg _).1 h2.symm i (mem_univ i)
    have := pow_eq_zero_iff (two_ne_zero) |>.1 this
    linarith
  · exact .inr ⟨a, b, ha, hb, mul_left_cancel₀ hv (h2.trans h1.symm)⟩

/-! ## Witnesses -/

/-- Measured 1, 3, predicted 2, 6: the bias is +1 (the prediction is twice the measurement), shown is −1/2. -/
example : Error ![1, 3] ![2, 6] 1 .nmbe ∧ (.nmbe, some (-1 / 2)) ∈ kde [.nmbe] ![1, 3] ![2, 6] := by
  refine ⟨⟨2, by simp; norm_num, by norm_num, by simp; norm_num⟩, mem_annotate.2 ⟨by simp, ?_⟩⟩
  exact ((compute_iff (n := 1) ![2, 6] ![1, 3] .nmbe (-1 / 2)).2 ⟨4, by simp; norm_num, by norm_num, by simp; norm_num⟩).symm

/-- The coefficient of determination of the same values is −4, shown is −1/4. -/
example : Error ![1, 3] ![2, 6] (-4) .r2 ∧ (.r2, some (-1 / 4)) ∈ kde [.r2] ![1, 3] ![2, 6] := by
  refine ⟨⟨2, 2, by simp; norm_num, by simp; norm_num, by norm_num, by simp; norm_num⟩, mem_annotate.2 ⟨by simp, ?_⟩⟩
  exact ((compute_iff (n := 1) ![2, 6] ![1, 3] .r2 (-1 / 4)).2 ⟨4, 8, by simp; norm_num, by simp; norm_num, by norm_num, by simp; norm_num⟩).symm

/-- A scatter plot shows the right value. -/
example : (.nmbe, some 1) ∈ (scatter [.r2, .nmbe] (fun _ => none) 1 ![1, 3] ![2, 6]).text :=
  (C183_scatter _ _ 1 _ _ (by simp) rfl 1).2 ⟨2, by simp; norm_num, by norm_num, by simp; norm_num⟩

end Verif.ValPlot
