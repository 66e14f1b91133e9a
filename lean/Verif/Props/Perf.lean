import Verif.Props.NormErr
import Verif.Model.Perf
import Verif.Props.Outliers
import Mathlib.Data.List.OfFn
import Mathlib.Logic.Equiv.Fin.Basic

/-!
# C133: performance indicators
-/

namespace Verif.Perf

open Finset

/-- A statement about columns does not depend on whether the column is read from a list. -/
theorem column_map {α : Type*} (l : List α) (f : α → ℝ) :
    (⟨(l.map f).length, (l.map f).get⟩ : Σ n, Fin n → ℝ) = ⟨l.length, fun i => f (l.get i)⟩ := by
  apply List.equivSigmaTuple.symm.injective
  show List.ofFn _ = List.ofFn _
  rw [List.ofFn_get]
  conv_lhs => rw [← List.ofFn_get l]
  rw [List.map_ofFn]
  rfl

theorem sum_map {α : Type*} (l : List α) (f : α → ℝ) : (l.map f).sum = ∑ i : Fin l.length, f (l.get i) := by
  conv_lhs => rw [← List.ofFn_get l]
  rw [List.map_ofFn, List.sum_ofFn]
  rfl

/-- Two series with the same index, row by row. -/
def seriesOf (l : List (ℤ × ℝ × ℝ)) : Series × Series := (l.map fun e => (e.1, e.2.1), l.map fun e => (e.1, e.2.2))

theorem concat_same (l : List (ℤ × ℝ × ℝ)) :
    concat (seriesOf l).1 (seriesOf l).2 = l.map fun e => (some e.2.1, some e.2.2) := by
  unfold concat seriesOf
  rw [if_pos (by simp [List.map_map, Function.comp_def])]
  induction l with
  | nil => rfl
  | cons a l ih => simp [ih]

/-- Specification: what the indicators are supposed to be for `n` observed values `r` and predicted values `p`: the
measures of C56, normalised as in C124. -/
structure Right {n : ℕ} (r p : Fin n → ℝ) (i : Indicators) : Prop where
  n : i.n = n
  mbe : i.mbe = some (Stats.msd r p)
  mae : i.mae = some (Stats.mae r p)
  mse : i.mse = some (Stats.mse r p)
  rmse : i.rmse = some (Stats.rmse r p)
  nmbe : i.nmbe = NormErr.normalized .msd .mean r p
  cvRmse : i.cvRmse = NormErr.normalized .rmse .mean r p
  nrmse : ∀ hi lo, IsGreatest (Set.range r) hi → IsLeast (Set.range r) lo →
    i.nrmse = if hi = lo then none else some (Stats.rmse r p / (hi - lo))
  nrmseIqr : i.nrmseIqr = NormErr.normalized .rmse .iqr r p

/-- Specification: the rows which shall be left out are those with two zeros. -/
noncomputable def wanted (excludeZeros : Bool) (l : List (ℤ × ℝ × ℝ)) : List (ℤ × ℝ × ℝ) :=
  haveI := Classical.dec
  if excludeZeros then l.filter fun e => ¬ (e.2.1 = 0 ∧ e.2.2 = 0) else l

theorem atPos_mono {n : ℕ} (y : Fin n → ℝ) (hn : 0 < n) {a b : ℝ} (h0 : 0 ≤ a) (h : a ≤ b) (hb : b ≤ (n - 1 : ℕ)) :
    NormErr.atPos y a ≤ NormErr.atPos y b := by
  have hfb : ⌊b⌋₊ ≤ n - 1 := by
    have := Nat.floor_le_floor hb
    rwa [Nat.floor_natCast] at this
  have hfa : ⌊a⌋₊ ≤ ⌊b⌋₊ := Nat.floor_le_floor h
  have a0 := Nat.floor_le h0
  have a1 := (Nat.lt_floor_add_one a).le
  have b0 := Nat.floor_le (h0.trans h)
  unfold NormErr.atPos
  have d1 := sub_nonneg.2 (Outliers.sorted_le y (a := ⌊a⌋₊) (b := min (⌊a⌋₊ + 1) (n - 1)) (by omega) (by omega))
  have d2 := sub_nonneg.2 (Outliers.sorted_le y (a := ⌊b⌋₊) (b := min (⌊b⌋₊ + 1) (n - 1)) (by omega) (by omega))
  rcases hfa.eq_or_lt with e | e
  · rw [e] at d1 ⊢
    nlinarith
  · have d3 := Outliers.sorted_le y (a := min (⌊a⌋₊ + 1) (n - 1)) (b := ⌊b⌋₊) (by omega) (by omega)
    nlinarith

theorem iqr_nonneg {n : ℕ} (y : Fin n → ℝ) (hn : 0 < n) : 0 ≤ NormErr.Norm.iqr.eval y := by
  refine sub_nonneg.2 (atPos_mono y hn (by positivity) ?_ ?_)
  · gcongr; norm_num
  · have : (0 : ℝ) ≤ ((n - 1 : ℕ) : ℝ) := Nat.cast_nonneg _
    linarith

theorem indicators_rows (l : List (ℤ × ℝ × ℝ)) (hl : l ≠ []) :
    Right (fun i => (l.get i).2.2) (fun i => (l.get i).2.1) (indicators (l.map fun e => (some e.2.1, some e.2.2))) ∧
      (2 ≤ l.length → (indicators (l.map fun e => (some e.2.1, some e.2.2))).r2 =
        (Stats.rSquared (fun i => (l.get i).2.2) fun i => (l.get i).2.1).map
          fun R => 1 - (1 - R) * ((l.length : ℝ) - 1) / l.length) := by
  have e1 : (l.map fun e => (some e.2.1, some e.2.2)).filterMap residual = l.map fun e => e.2.1 - e.2.2 := by
    rw [List.filterMap_map]
    exact List.filterMap_eq_map' (f := fun e : ℤ × ℝ × ℝ => e.2.1 - e.2.2) ▸ rfl
  have e2 : (l.map fun e => (some e.2.1, some e.2.2)).filterMap (Prod.snd : Option ℝ × Option ℝ → _) =
      l.map fun e => e.2.2 := by
    rw [List.filterMap_map]
    exact List.filterMap_eq_map' (f := fun e : ℤ × ℝ × ℝ => e.2.2) ▸ rfl
  have hn : (l.length : ℝ) ≠ 0 := by
    have := List.length_pos_iff.2 hl
    positivity
  have c : (⟨_, ((l.map fun e => (some e.2.1, some e.2.2)).filterMap (Prod.snd : Option ℝ × Option ℝ → _)).get⟩ :
      Σ n, Fin n → ℝ) = ⟨l.length, fun i => (l.get i).2.2⟩ := by
    rw [e2]; exact column_map l fun e => e.2.2
  have m1 : Stats.mean ((l.map fun e => (some e.2.1, some e.2.2)).filterMap (Prod.snd : Option ℝ × Option ℝ → _)).get =
    Stats.mean fun i => (l.get i).2.2 := congrArg (fun s : Σ n, Fin n → ℝ => Stats.mean s.2) c
  have m2 : NormErr.Norm.range.eval ((l.map fun e => (some e.2.1, some e.2.2)).filterMap
      (Prod.snd : Option ℝ × Option ℝ → _)).get = NormErr.Norm.range.eval fun i => (l.get i).2.2 :=
    congrArg (fun s : Σ n, Fin n → ℝ => NormErr.Norm.range.eval s.2) c
  have m3 : NormErr.Norm.iqr.eval ((l.map fun e => (some e.2.1, some e.2.2)).filterMap
      (Prod.snd : Option ℝ × Option ℝ → _)).get = NormErr.Norm.iqr.eval fun i => (l.get i).2.2 :=
    congrArg (fun s : Σ n, Fin n → ℝ => NormErr.Norm.iqr.eval s.2) c
  have m4 : Outliers.std 1 ((l.map fun e => (some e.2.1, some e.2.2)).filterMap
      (Prod.snd : Option ℝ × Option ℝ → _)).get = Outliers.std 1 fun i => (l.get i).2.2 :=
    congrArg (fun s : Σ n, Fin n → ℝ => Outliers.std 1 s.2) c
  have q : ∀ a : ℝ, quot a l.length = some (a / l.length) := fun a => if_neg hn
  have r1 : quot ((l.map fun e => e.2.1 - e.2.2).sum) l.length = some (Stats.msd (fun i => (l.get i).2.2) fun i => (l.get i).2.1) := by
    rw [q, sum_map]; rfl
  have r2 : quot (((l.map fun e => e.2.1 - e.2.2).map abs).sum) l.length =
      some (Stats.mae (fun i => (l.get i).2.2) fun i => (l.get i).2.1) := by
    rw [q, List.map_map, sum_map]
    simp only [Stats.mae, Stats.mean, Function.comp_def, abs_sub_comm]
  have r3 : quot (((l.map fun e => e.2.1 - e.2.2).map (· ^ 2)).sum) l.length =
      some (Stats.mse (fun i => (l.get i).2.2) fun i => (l.get i).2.1) := by
    rw [q, List.map_map, sum_map]
    simp only [Stats.mse, Stats.mean, Function.comp_def]
    congr 2
    exact sum_congr rfl fun i _ => by ring
  have pos : 0 ≤ Stats.mse (fun i => (l.get i).2.2) fun i => (l.get i).2.1 :=
    div_nonneg (sum_nonneg fun _ _ => sq_nonneg _) (Nat.cast_nonneg _)
  have hpos := List.length_pos_iff.2 hl
  constructor
  · constructor
    all_goals simp only [indicators, List.length_map, e1, e2, r1, r2, r3, Option.map_some, Option.bind_some]
    · rw [Real.sq_sqrt pos]
    · rfl
    · rw [m1]; rfl
    · rw [m1]; rfl
    · intro hi lo g1 g2
      rw [m2, NormErr.range_eq _ g1 g2]
      simp only [quot, sub_eq_zero]
      split_ifs <;> rfl
    · rw [m3, abs_of_nonneg (iqr_nonneg _ hpos)]; rfl
  · intro h2
    have h2' : (2 : ℝ) ≤ l.length := by exact_mod_cast h2
    simp only [indicators, m4, e1, e2, List.length_map]
    rw [Outliers.std, if_neg (by omega)]
    have t0 : 0 ≤ Stats.ssTot fun i : Fin l.length => (l.get i).2.2 := sum_nonneg fun _ _ => sq_nonneg _
    have t1 : (∑ i : Fin l.length, ((l.get i).2.2 - Outliers.mean fun i : Fin l.length => (l.get i).2.2) ^ 2) =
      Stats.ssTot fun i : Fin l.length => (l.get i).2.2 := rfl
    have s1 : (((l.map fun e => e.2.1 - e.2.2).map (· ^ 2)).sum) = ∑ i : Fin l.length, ((l.get i).2.2 - (l.get i).2.1) ^ 2 := by
      rw [List.map_map, sum_map]
      exact sum_congr rfl fun i _ => by simp only [Function.comp_apply]; ring
    rw [t1, s1]
    simp only [Option.map_some, Option.bind_some, Nat.cast_one]
    rw [Real.sq_sqrt (div_nonneg t0 (by linarith))]
    unfold quot Stats.rSquared
    have d1 : (l.length : ℝ) - 1 ≠ 0 := by linarith
    by_cases t : (Stats.ssTot fun i : Fin l.length => (l.get i).2.2) = 0
    · rw [if_pos (by rw [t]; simp), if_pos t]; rfl
    · have tt : (Stats.ssTot fun i : Fin l.length => (l.get i).2.2) / ((l.length : ℝ) - 1) * l.length ≠ 0 :=
        mul_ne_zero (div_ne_zero t d1) hn
      rw [if_neg tt, if_neg t, Option.map_some, Option.map_some]
      congr 1
      field_simp
      ring

/-- **C133**, partial: for two series with the same index the indicators are the measures of C56 and C124 over all rows
except those with two zeros, if no row has exactly one zero (`C133_fails_zeros`).  Missing: R² is not the coefficient of
determination, but larger (`C133_fails_r2`), and series with different index (`C133_fails_index`). -/
theorem C133_measures_partial (excludeZeros : Bool) (l : List (ℤ × ℝ × ℝ))
    (hz : excludeZeros = true → ∀ e ∈ l, (e.2.1 = 0 ↔ e.2.2 = 0)) (hne : wanted excludeZeros l ≠ []) :
    ∃ i, perf excludeZeros (seriesOf l).1 (seriesOf l).2 = some i ∧
      Right (fun k => ((wanted excludeZeros l).get k).2.2) (fun k => ((wanted excludeZeros l).get k).2.1) i := by
  have e : (if excludeZeros then (concat (seriesOf l).1 (seriesOf l).2).filter keep
      else concat (seriesOf l).1 (seriesOf l).2) = (wanted excludeZeros l).map fun e => (some e.2.1, some e.2.2) := by
    rw [concat_same]
    unfold wanted
    cases excludeZeros with
    | false => simp
    | true =>
      simp only [if_true]
      rw [List.filter_map]
      congr 1
      refine List.filter_congr fun a ha => ?_
      have := hz rfl a ha
      simp only [keep, Function.comp_apply, Option.some.injEq, ne_eq, decide_eq_decide]
      tauto
  refine ⟨_, ?_, (indicators_rows _ hne).1⟩
  unfold perf
  rw [if_pos (by simp [seriesOf]), e]

/-- The hypotheses are met by three rows, one of them with two zeros, which is left out. -/
example : ∃ i, perf true [(0, 1), (1, 0), (2, 3)] [(0, 2), (1, 0), (2, 7)] = some i ∧ i.n = 2 ∧ i.mae = some (5 / 2) := by
  have w : wanted true [(0, 1, 2), (1, 0, 0), (2, 3, 7)] = [(0, 1, 2), (2, 3, 7)] := by simp [wanted]
  obtain ⟨i, h, r⟩ := C133_measures_partial true [(0, 1, 2), (1, 0, 0), (2, 3, 7)] (by simp) (by rw [w]; simp)
  rw [w] at r
  refine ⟨i, h, r.n, r.mae.trans ?_⟩
  simp [Stats.mae, Stats.mean, Fin.sum_univ_two]
  norm_num

/-- Specification: the rows in which neither value is zero. -/
noncomputable def nonzero (l : List (ℤ × ℝ × ℝ)) : List (ℤ × ℝ × ℝ) :=
  haveI := Classical.dec
  l.filter fun e => e.2.1 ≠ 0 ∧ e.2.2 ≠ 0

/-- **C133**, partial (rows with one zero): with `exclude_zeros` the indicators of two series with the same index are the
measures over the rows in which neither value is zero, also if there are rows with exactly one zero.  Missing: these rows
should be counted (`C133_fails_zeros`). -/
theorem C133_one_zero_partial (l : List (ℤ × ℝ × ℝ)) (hne : nonzero l ≠ []) :
    ∃ i, perf true (seriesOf l).1 (seriesOf l).2 = some i ∧
      Right (fun k => ((nonzero l).get k).2.2) (fun k => ((nonzero l).get k).2.1) i := by
  have e : (concat (seriesOf l).1 (seriesOf l).2).filter keep = (nonzero l).map fun e => (some e.2.1, some e.2.2) := by
    rw [concat_same]
    unfold nonzero
    rw [List.filter_map]
    congr 1
    refine List.filter_congr fun a _ => ?_
    simp only [keep, Function.comp_apply, Option.some.injEq, ne_eq, decide_eq_decide]
  refine ⟨_, ?_, (indicators_rows _ hne).1⟩
  unfold perf
  rw [if_pos (by simp [seriesOf]), if_pos rfl, e]

/-- Three rows, two of them with one zero. -/
example : ∃ i, perf true [(0, 1), (1, 0), (2, 3)] [(0, 0), (1, 5), (2, 7)] = some i ∧ i.n = 1 ∧ i.mae = some 4 := by
  have w : nonzero [(0, 1, 0), (1, 0, 5), (2, 3, 7)] = [(2, 3, 7)] := by simp [nonzero]
  obtain ⟨i, h, r⟩ := C133_one_zero_partial [(0, 1, 0), (1, 0, 5), (2, 3, 7)] (by rw [w]; simp)
  rw [w] at r
  refine ⟨i, h, r.n, r.mae.trans ?_⟩
  simp [Stats.mae, Stats.mean]
  norm_num

/-- **C133** is false of R²: whenever a prediction is not perfect the R² reported is larger than the coefficient of
determination (the standard deviation of pandas divides by `n - 1`). -/
theorem C133_fails_r2 (l : List (ℤ × ℝ × ℝ)) (h2 : 2 ≤ l.length) {R : ℝ} (hR : R < 1)
    (h : Stats.rSquared (fun i => (l.get i).2.2) (fun i => (l.get i).2.1) = some R) :
    ∃ i R', perf false (seriesOf l).1 (seriesOf l).2 = some i ∧ i.r2 = some R' ∧ R < R' := by
  have hne : l ≠ [] := by rintro rfl; simp at h2
  have h2' : (2 : ℝ) ≤ l.length := by exact_mod_cast h2
  refine ⟨_, _, ?_, ((indicators_rows l hne).2 h2).trans (by rw [h]; rfl), ?_⟩
  · unfold perf
    rw [if_pos (by simp [seriesOf]), concat_same]
    rfl
  · have : (1 - R) * ((l.length : ℝ) - 1) / l.length < 1 - R := by
      rw [div_lt_iff₀ (by linarith)]
      nlinarith
    linarith

/-- The hypotheses are met: a prediction no better than the mean gets a positive R². -/
example : ∃ i R', perf false [(0, 3), (1, 3)] [(0, 2), (1, 4)] = some i ∧ i.r2 = some R' ∧ 0 < R' := by
  refine C133_fails_r2 [(0, 3, 2), (1, 3, 4)] le_rfl (R := 0) (by norm_num) ?_
  have m : (Stats.mean fun i : Fin 2 => (([(0, 3, 2), (1, 3, 4)] : List (ℤ × ℝ × ℝ)).get i).2.2) = 3 := by
    simp [Stats.mean, Fin.sum_univ_two]; norm_num
  have t : (Stats.ssTot fun i : Fin 2 => (([(0, 3, 2), (1, 3, 4)] : List (ℤ × ℝ × ℝ)).get i).2.2) = 2 := by
    rw [Stats.ssTot, m]; simp [Fin.sum_univ_two]; norm_num
  unfold Stats.rSquared
  erw [t]
  simp [Fin.sum_univ_two]
  norm_num

/-- **C133** is false of series where only one value is zero: the prediction misses the first value completely, but the
row is left out and the indicators are those of a perfect prediction. -/
theorem C133_fails_zeros : ∃ i, perf true [(0, 0), (1, 4), (2, 3)] [(0, 50), (1, 4), (2, 3)] = some i ∧ i.n = 2 ∧
    i.mae = some 0 ∧ i.rmse = some 0 ∧ i.r2 = some 1 := by
  have e : (concat [(0, 0), (1, 4), (2, 3)] [(0, 50), (1, 4), (2, 3)]).filter keep =
      ([(1, 4, 4), (2, 3, 3)] : List (ℤ × ℝ × ℝ)).map fun e => (some e.2.1, some e.2.2) := by
    simp [concat, keep]
  obtain ⟨r, r2⟩ := indicators_rows ([(1, 4, 4), (2, 3, 3)] : List (ℤ × ℝ × ℝ)) (by simp)
  refine ⟨_, by unfold perf; rw [if_pos rfl, if_pos (by rfl), e], r.n, ?_, ?_, ?_⟩
  · rw [r.mae]
    simp [Stats.mae, Stats.mean, Fin.sum_univ_two]
  · rw [r.rmse]
    simp [Stats.rmse, Stats.mse, Stats.mean, Fin.sum_univ_two]
  · rw [r2 (by simp)]
    have : (Stats.ssTot fun i : Fin 2 => (([(1, 4, 4), (2, 3, 3)] : List (ℤ × ℝ × ℝ)).get i).2.2) ≠ 0 := by
      simp [Stats.ssTot, Stats.mean, Fin.sum_univ_two]; norm_num
    unfold Stats.rSquared
    erw [if_neg this]
    simp [Fin.sum_univ_two]

/-- **C133** is false of series with different index: the same values, but counted from 0 and from 1, which the
documentation promises to ignore, give four samples instead of three. -/
theorem C133_fails_index : ∃ i, perf true [(0, 5), (1, 4), (2, 3)] [(1, 5), (2, 4), (3, 3)] = some i ∧ i.n = 4 ∧
    i.mae = some (1 / 2) := by
  have e : (concat [(0, 5), (1, 4), (2, 3)] [(1, 5), (2, 4), (3, 3)]).filter keep =
      [(some 5, none), (some 4, some 5), (some 3, some 4), (none, some 3)] := by
    have : ((([(0, 5), (1, 4), (2, 3)] : Series).map Prod.fst ++
        ([(1, 5), (2, 4), (3, 3)] : Series).map Prod.fst).dedup).insertionSort (· ≤ ·) = [0, 1, 2, 3] := by
      simp only [List.map_cons, List.map_nil, List.cons_append, List.nil_append]
      decide
    unfold concat
    rw [if_neg (by simp), this]
    simp [look, keep]
  refine ⟨_, by unfold perf; rw [if_pos rfl, if_pos (by rfl), e], rfl, ?_⟩
  simp [indicators, residual, quot]
  norm_num

/-- **C133**, lengths: exactly series of different length are refused. -/
theorem C133_lengths (excludeZeros : Bool) (pred rlz : Series) :
    perf excludeZeros pred rlz = none ↔ pred.length ≠ rlz.length := by
  unfold perf
  split <;> simp_all

/-- A series with one value and one with two. -/
example : perf false [(0, 1)] [(0, 1), (1, 2)] = none := (C133_lengths _ _ _).2 (by decide)

end Verif.Perf
