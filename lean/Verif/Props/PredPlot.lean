import Verif.Model.PredPlot
import Verif.Props.ValPlot
import Verif.Props.Perf

/-!
# C184: prediction-realization plots show what is asked for
-/

namespace Verif.PredPlot

open Finset

/-- Measured values of the rows. -/
abbrev meas (rows : List Row) : Fin rows.length → ℝ := fun i => (rows.get i).2.2

/-- Predicted values of the rows. -/
abbrev pred (rows : List Row) : Fin rows.length → ℝ := fun i => (rows.get i).2.1

theorem loc_label (rows : List Row) (n : Name) : ∃ v, loc rows n.label = some v := by
  cases n <;> exact ⟨_, rfl⟩

theorem errVals_some (rows : List Row) (ns : List Name) :
    ∃ vals, errVals rows ns = some vals ∧ ∀ n ∈ ns, vals.lookup n = loc rows n.label := by
  induction ns with
  | nil => exact ⟨[], rfl, by simp⟩
  | cons a ns ih =>
    obtain ⟨vals, h1, h2⟩ := ih
    obtain ⟨v, hv⟩ := loc_label rows a
    refine ⟨(a, v) :: vals, by simp [errVals, hv, h1], fun n hn => ?_⟩
    by_cases e : n = a
    · subst e; simp [hv]
    · rw [List.lookup_cons]
      rcases List.mem_cons.1 hn with rfl | hn
      · exact absurd rfl e
      · have : (n == a) = false := by simpa using e
        simpa [this] using h2 n hn

theorem mem_names (n : Name) : n ∈ names := by cases n <;> decide

/-- The text of the scatter plot: four of the measures, if asked for, with the values of the indicators. -/
theorem scatter_text {errors : Name → Bool} {rows : List Row} {n : Name} {v : Option ℝ} :
    (∃ t, text .scatter errors rows = some t ∧ (n, v) ∈ t) ↔ n.measure.isSome ∧ errors n ∧ loc rows n.label = some v := by
  obtain ⟨vals, h1, h2⟩ := errVals_some rows (names.filter errors)
  simp only [text, h1, Option.map_some, Option.some.injEq, exists_eq_left', List.mem_map, List.mem_filter, Bool.and_eq_true, Prod.mk.injEq]
  constructor
  · rintro ⟨m, ⟨-, h3, h4⟩, rfl, rfl⟩
    refine ⟨h3, h4, ?_⟩
    obtain ⟨w, hw⟩ := loc_label rows m
    rw [h2 m (List.mem_filter.2 ⟨mem_names m, h4⟩), hw]
    rfl
  · rintro ⟨h3, h4, h5⟩
    exact ⟨n, ⟨mem_names n, h3, h4⟩, rfl, by rw [h2 n (List.mem_filter.2 ⟨mem_names n, h4⟩), h5]; rfl⟩

/-- **C184** (scatter plot), partial: mean squared error, coefficient of variation and bias are shown if they are asked for, and are those of
the prediction.  Missing: the coefficient of determination (`C184_fails_determination`), other measures (`C184_fails_other`). -/
theorem C184_scatter_partial {errors : Name → Bool} {rows : List Row} (hne : rows ≠ []) {n : Name} {m : ValPlot.Measure}
    (hn : (n, m) ∈ [(Name.mse, ValPlot.Measure.mse), (.cvrmse, .cv), (.nmbe, .nmbe)]) (he : errors n = true) (v : ℝ) :
    (∃ t, text .scatter errors rows = some t ∧ (n, some v) ∈ t) ↔ ValPlot.Error (meas rows) (pred rows) v m := by
  have hr := (Perf.indicators_rows rows hne).1
  rw [scatter_text]
  obtain ⟨a, l, rfl⟩ := List.exists_cons_of_ne_nil hne
  have hc := ValPlot.compute_iff (n := l.length) (meas (a :: l)) (pred (a :: l)) m v
  rw [← hc]
  simp only [List.mem_cons, Prod.mk.injEq, List.not_mem_nil, or_false] at hn
  rcases hn with ⟨rfl, rfl⟩ | ⟨rfl, rfl⟩ | ⟨rfl, rfl⟩
  · rw [show loc (a :: l) Name.mse.label = some (Perf.indicators ((a :: l).map fun e => (some e.2.1, some e.2.2))).mse from rfl, hr.mse]
    simp only [he, Name.measure, ValPlot.compute, Option.isSome_some, true_and, Option.some.injEq]
  · rw [show loc (a :: l) Name.cvrmse.label = some (Perf.indicators ((a :: l).map fun e => (some e.2.1, some e.2.2))).cvRmse from rfl, hr.cvRmse]
    simp only [he, Name.measure, ValPlot.compute, Option.isSome_some, true_and, Option.some.injEq]
  · rw [show loc (a :: l) Name.nmbe.label = some (Perf.indicators ((a :: l).map fun e => (some e.2.1, some e.2.2))).nmbe from rfl, hr.nmbe]
    simp only [he, Name.measure, ValPlot.compute, Option.isSome_some, true_and, Option.some.injEq]

/-- **C184** (density plot), partial: all four measures are shown if they are asked for, and are those of the prediction.  Missing: other
measures (`C184_fails_other`). -/
theorem C184_density_partial {errors : Name → Bool} {rows : List Row} (hne : rows ≠ []) {n : Name} {m : ValPlot.Measure}
    (hn : (n, m) ∈ [(Name.r2, ValPlot.Measure.r2), (.mse, .mse), (.cvrmse, .cv), (.nmbe, .nmbe)]) (he : errors n = true) (v : ℝ) :
    (∃ t, text .kde errors rows = some t ∧ (n, some v) ∈ t) ↔ ValPlot.Error (meas rows) (pred rows) v m := by
  have hnm : n.measure = some m ∧ ofMeasure m = n := by
    simp only [List.mem_cons, Prod.mk.injEq, List.not_mem_nil, or_false] at hn
    rcases hn with ⟨rfl, rfl⟩ | ⟨rfl, rfl⟩ | ⟨rfl, rfl⟩ | ⟨rfl, rfl⟩ <;> exact ⟨rfl, rfl⟩
  have inj : ∀ a b, ofMeasure a = ofMeasure b → a = b := by
    intro a b; cases a <;> cases b <;> decide
  simp only [text, Option.some.injEq, exists_eq_left', List.mem_map, Prod.mk.injEq, Prod.exists]
  constructor
  · rintro ⟨m', w, h, h1, rfl⟩
    obtain rfl := inj m' m (h1.trans hnm.2.symm)
    obtain ⟨a, l, rfl⟩ := List.exists_cons_of_ne_nil hne
    exact (ValPlot.compute_iff (n := l.length) (meas (a :: l)) (pred (a :: l)) m' v).1 (ValPlot.mem_annotate.1 h).2.symm
  · intro h
    refine ⟨m, some v, ValPlot.mem_annotate.2 ⟨List.mem_filterMap.2 ⟨n, List.mem_filter.2 ⟨mem_names n, he⟩, hnm.1⟩, ?_⟩, hnm.2, rfl⟩
    obtain ⟨a, l, rfl⟩ := List.exists_cons_of_ne_nil hne
    exact ((ValPlot.compute_iff (n := l.length) (meas (a :: l)) (pred (a :: l)) m v).2 h).symm

/-- **C184 is false of the code for other measures**: scatter and density plots leave out, without any message, the mean bias, the absolute
error, the error itself and the errors normalised by range or quartiles, whatever is asked for. -/
theorem C184_fails_other (errors : Name → Bool) (rows : List Row) (kind : Kind) (hk : kind ≠ .hexbin) {n : Name}
    (hn : n ∈ [Name.nrmse, .nrmseIqr, .mbe, .mae, .rmse]) : ∃ t, text kind errors rows = some t ∧ ∀ v, (n, v) ∉ t := by
  have h0 : n.measure = none ∧ ∀ m, ofMeasure m ≠ n := by
    simp only [List.mem_cons, List.not_mem_nil, or_false] at hn
    rcases hn with rfl | rfl | rfl | rfl | rfl <;> exact ⟨rfl, fun m => by cases m <;> decide⟩
  cases kind with
  | hexbin => exact absurd rfl hk
  | kde =>
    refine ⟨_, rfl, fun v hv => ?_⟩
    simp only [List.mem_map, Prod.mk.injEq, Prod.exists] at hv
    obtain ⟨m, w, -, h, -⟩ := hv
    exact h0.2 m h
  | scatter =>
    obtain ⟨vals, h1, -⟩ := errVals_some rows (names.filter errors)
    have ht : ∃ t, text .scatter errors rows = some t := by
      simp only [text, h1, Option.map_some]
      exact ⟨_, rfl⟩
    obtain ⟨t, ht⟩ := ht
    refine ⟨t, ht, fun v hv => ?_⟩
    have := (scatter_text (n := n) (v := v)).1 ⟨t, ht, hv⟩
    rw [h0.1] at this
    simp at this

theorem loc_hexKey (rows : List Row) {n : Name} {k : String} (h : n.hexKey = some k) : loc rows k = none := by
  cases n <;> simp only [Name.hexKey, Option.some.injEq, reduceCtorEq] at h <;> subst h <;> rfl

theorem hexText_eq (rows : List Row) (errors : Name → Bool) (ns : List Name) :
    hexText rows errors ns = if ∃ n ∈ ns, n ≠ .mse ∧ errors n = true then none else some [] := by
  induction ns with
  | nil => simp [hexText]
  | cons a ns ih =>
    unfold hexText
    by_cases ha : a = .mse
    · subst ha
      simp [Name.hexKey, ih]
    · obtain ⟨k, hk⟩ : ∃ k, a.hexKey = some k := by cases a <;> first | exact absurd rfl ha | exact ⟨_, rfl⟩
      simp only [hk]
      by_cases he : errors a = true
      · rw [if_pos he, loc_hexKey rows hk, if_pos ⟨a, .head _, ha, he⟩]
        rfl
      · rw [if_neg he, ih]
        congr 1
        simp [ha, he]

/-- **C184 is false of the code for hexagon plots**: they fail with a `KeyError` whenever one of the measures is asked for, with the exception
of the mean squared error; this one is not shown.  So they never show any measure. -/
theorem C184_fails_hexbin (errors : Name → Bool) (rows : List Row) :
    (text .hexbin errors rows = none ↔ ∃ n, n ≠ .mse ∧ errors n = true) ∧ ∀ t, text .hexbin errors rows = some t → t = [] := by
  simp only [text]
  rw [hexText_eq]
  constructor
  · constructor
    · intro h
      split_ifs at h with h0
      exact ⟨h0.choose, h0.choose_spec.2⟩
    · rintro ⟨n, h1, h2⟩
      exact if_pos ⟨n, mem_names n, h1, h2⟩
  · intro t h
    split_ifs at h
    exact (Option.some.inj h).symm

/-- **C184 is false of the code for the coefficient of determination**: for the same rows, scatter and density plots show different values of
it; that of the scatter plot is too large, unless the prediction is perfect. -/
theorem C184_fails_determination {errors : Name → Bool} {rows : List Row} (h2 : 2 ≤ rows.length) (he : errors .r2 = true) {v : ℝ}
    (hv : ValPlot.Error (meas rows) (pred rows) v .r2) (h1 : v < 1) :
    ∃ w, v < w ∧ ∃ t, text .scatter errors rows = some t ∧ (.r2, some w) ∈ t := by
  have hne : rows ≠ [] := by rintro rfl; simp at h2
  have hr := (Perf.indicators_rows rows hne).2 h2
  have hc : Stats.rSquared (meas rows) (pred rows) = some v := by
    obtain ⟨a, l, rfl⟩ := List.exists_cons_of_ne_nil hne
    exact (ValPlot.compute_iff (n := l.length) (meas (a :: l)) (pred (a :: l)) .r2 v).2 hv
  refine ⟨1 - (1 - v) * ((rows.length : ℝ) - 1) / rows.length, ?_, scatter_text.2 ⟨rfl, he, ?_⟩⟩
  · have h2' : (2 : ℝ) ≤ rows.length := by exact_mod_cast h2
    have : (1 - v) * ((rows.length : ℝ) - 1) / rows.length < 1 - v := by
      rw [div_lt_iff₀ (by linarith)]
      nlinarith
    linarith
  · rw [show loc rows Name.r2.label = some (Perf.indicators (rows.map fun e => (some e.2.1, some e.2.2))).r2 from rfl, hr]
    erw [hc]
    rfl

/-! ## The regression line -/

theorem sum_dev {n : ℕ} (x : Fin n → ℝ) : ∑ i, (x i - Stats.mean x) = 0 := by
  rcases n with - | n
  · simp
  · have := ValPlot.mean_mul x
    rw [Finset.sum_sub_distrib, Finset.sum_const, ← this, Finset.card_univ, Fintype.card_fin, nsmul_eq_mul]
    ring

/-- **C184** (regression): slope and intercept are those of the best line, which has the smallest sum of squares. -/
theorem C184_best {n : ℕ} {x y : Fin n → ℝ} {s c : ℝ} (h : linregress x y = some (s, c)) (a b : ℝ) :
    ∑ i, (y i - (s * x i + c)) ^ 2 ≤ ∑ i, (y i - (a * x i + b)) ^ 2 := by
  unfold linregress at h
  split_ifs at h with h0
  simp only [Option.some.injEq, Prod.mk.injEq] at h
  obtain ⟨hs, hc⟩ := h
  rw [hs] at hc
  have e1 : ∑ i, (x i - Stats.mean x) * (y i - Stats.mean y) = s * ∑ i, (x i - Stats.mean x) ^ 2 := by
    rw [← hs]; exact (div_mul_cancel₀ _ h0).symm
  have dx := sum_dev x
  have dy := sum_dev y
  have key : ∀ a b : ℝ, ∑ i, (y i - (a * x i + b)) ^ 2 = ∑ i, (y i - Stats.mean y) ^ 2 - 2 * a * (s * ∑ i, (x i - Stats.mean x) ^ 2) +
      a ^ 2 * ∑ i, (x i - Stats.mean x) ^ 2 + n * (Stats.mean y - a * Stats.mean x - b) ^ 2 := by
    intro a b
    rw [← e1]
    have : ∀ i, (y i - (a * x i + b)) ^ 2 = (y i - Stats.mean y) ^ 2 - 2 * a * ((x i - Stats.mean x) * (y i - Stats.mean y)) +
        a ^ 2 * (x i - Stats.mean x) ^ 2 + (Stats.mean y - a * Stats.mean x - b) ^ 2 +
        2 * (Stats.mean y - a * Stats.mean x - b) * (y i - Stats.mean y) -
        2 * a * (Stats.mean y - a * Stats.mean x - b) * (x i - Stats.mean x) := fun i => by ring
    rw [Finset.sum_congr rfl fun i _ => this i]
    simp only [Finset.sum_add_distrib, Finset.sum_sub_distrib, ← Finset.mul_sum]
    simp only [← Finset.sum_sub_distrib, dx, dy]
    simp
  rw [key, key, ← hc]
  have p1 : 0 ≤ ∑ i, (x i - Stats.mean x) ^ 2 := Finset.sum_nonneg fun _ _ => sq_nonneg _
  have p2 : 0 ≤ (n : ℝ) * (Stats.mean y - a * Stats.mean x - b) ^ 2 := by positivity
  have p3 := mul_nonneg p1 (sq_nonneg (a - s))
  nlinarith

/-- **C184** (regression): the right end of the line that is drawn lies on the best line.  The left end lies on it only if the slope is one or
the smallest value is zero; otherwise the line drawn is another one. -/
theorem C184_fails_line {n : ℕ} {x y : Fin n → ℝ} {lo hi s c : ℝ} (h : linregress x y = some (s, c)) :
    ∃ p q, line x y lo hi = some (p, q) ∧ p.1 = lo ∧ q.1 = hi ∧ q.2 = s * q.1 + c ∧ (p.2 = s * p.1 + c ↔ s = 1 ∨ lo = 0) := by
  refine ⟨(lo, lo + c), (hi, c + s * hi), by simp [line, h], rfl, rfl, by ring, ?_⟩
  dsimp only
  constructor
  · intro e
    have : (s - 1) * lo = 0 := by linarith
    rcases mul_eq_zero.1 this with h | h
    · exact .inl (by linarith)
    · exact .inr h
  · rintro (rfl | rfl) <;> ring

/-! ## Witnesses -/

/-- Two rows: the scatter plot shows the bias. -/
example : ∃ t, text .scatter (fun _ => true) [(0, 2, 1), (1, 6, 3)] = some t ∧ (.nmbe, some 1) ∈ t :=
  (C184_scatter_partial (m := .nmbe) (by simp) (by simp) rfl 1).2 ⟨2, by simp [meas]; norm_num, by norm_num, by simp [meas, pred]; norm_num⟩

/-- The default choice of measures makes hexagon plots fail. -/
example : text .hexbin (fun n => n ∈ [Name.r2, .mse, .cvrmse, .nmbe]) [(0, 2, 1), (1, 6, 3)] = none :=
  (C184_fails_hexbin _ _).1.2 ⟨.r2, by decide, by decide⟩

/-- Measured 1, 3, predicted 2, 6: the best line is twice the measurement; the line drawn begins at (1, 1). -/
example : linregress (n := 2) ![1, 3] ![2, 6] = some (2, 0) ∧ line (n := 2) ![1, 3] ![2, 6] 1 6 = some ((1, 1), (6, 12)) := by
  have m1 : Stats.mean (n := 2) ![1, 3] = 2 := by simp [Stats.mean]; norm_num
  have m2 : Stats.mean (n := 2) ![2, 6] = 4 := by simp [Stats.mean]; norm_num
  have t : Stats.ssTot (n := 2) ![1, 3] = 2 := by simp [Stats.ssTot, m1]; norm_num
  have h : linregress (n := 2) ![1, 3] ![2, 6] = some (2, 0) := by
    unfold linregress
    rw [if_neg (by rw [t]; norm_num)]
    simp [t, m1, m2]
    norm_num
  refine ⟨h, ?_⟩
  unfold line
  rw [h]
  norm_num

end Verif.PredPlot
