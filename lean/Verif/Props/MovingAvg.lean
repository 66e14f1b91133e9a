import Verif.Model.MovingAvg
import Verif.Props.Meters

/-!
# Moving averages (C53)
-/

set_option linter.unusedSectionVars false

namespace Verif.MovingAvg

variable {K : Type*} [Field K] [LinearOrder K] [IsStrictOrderedRing K]

open Meters (cumsum)

/-- The window of `N` values of `x` starting at `i`. -/
def window (x : List K) (N i : ℕ) : List K := (x.drop i).take N

/-- Arithmetic mean. -/
def mean (w : List K) : K := w.sum / (w.length : K)

theorem length_window {x : List K} {N i : ℕ} (h : i + N ≤ x.length) : (window x N i).length = N := by
  simp [window]; omega

theorem sum_take_add (x : List K) (i N : ℕ) : (x.take (i + N)).sum = (x.take i).sum + (window x N i).sum := by
  rw [window, List.take_add, List.sum_append]

theorem cumsum_zero_cons (x : List K) (i : ℕ) (h : i ≤ x.length) : (cumsum (0 :: x))[i]? = some (x.take i).sum := by
  rw [Meters.getElem?_cumsum _ i (by simp; omega)]
  simp

/-- C53: for every window length from 1 to the length of the series, the result has one value for every
position of the window, and each is the arithmetic mean of the values in the window. -/
theorem C53_window_mean {x : List K} {N : ℕ} (h1 : 1 ≤ N) (h2 : N ≤ x.length) :
    ∃ r, movingAvg x N = some r ∧ r.length = x.length + 1 - N ∧
      ∀ i, i + N ≤ x.length → r[i]? = some (mean (window x N i)) := by
  have hN : N ≠ 0 := by omega
  refine ⟨_, if_neg hN, ?_, ?_⟩
  · simp [Meters.length_cumsum]
  · intro i hi
    rw [List.getElem?_zipWith, List.getElem?_drop, List.getElem?_take, Meters.length_cumsum, if_pos (by simp; omega),
      cumsum_zero_cons x i (by omega), cumsum_zero_cons x (N + i) (by omega)]
    simp only [mean, length_window hi, Option.some.injEq]
    rw [add_comm N i, sum_take_add]
    ring

/-- A mean lies between bounds of its values. -/
theorem mean_between {w : List K} (hw : w ≠ []) {lo hi : K} (h : ∀ v ∈ w, lo ≤ v ∧ v ≤ hi) :
    lo ≤ mean w ∧ mean w ≤ hi := by
  have hpos : (0 : K) < w.length := by
    have := List.length_pos_iff.2 hw
    exact_mod_cast this
  unfold mean
  rw [le_div_iff₀ hpos, div_le_iff₀ hpos]
  constructor
  · have := List.card_nsmul_le_sum w lo (fun v hv => (h v hv).1)
    rw [nsmul_eq_mul] at this
    linarith
  · have := List.sum_le_card_nsmul w hi (fun v hv => (h v hv).2)
    rw [nsmul_eq_mul] at this
    linarith

theorem window_ne_nil {x : List K} {N i : ℕ} (h1 : 1 ≤ N) (h : i + N ≤ x.length) : window x N i ≠ [] := by
  intro he
  have := length_window h
  rw [he] at this
  simp at this
  omega

theorem mem_of_mem_window {x : List K} {N i : ℕ} {v : K} (h : v ∈ window x N i) : v ∈ x :=
  List.mem_of_mem_drop (List.mem_of_mem_take h)

/-- C53: the results stay within the range of their window; a constant series is unchanged. -/
theorem C53_range {x : List K} {N : ℕ} (h1 : 1 ≤ N) (h2 : N ≤ x.length) {r : List K} (hr : movingAvg x N = some r)
    {i : ℕ} (hi : i + N ≤ x.length) {lo hi' : K} (hb : ∀ v ∈ window x N i, lo ≤ v ∧ v ≤ hi') :
    ∃ v, r[i]? = some v ∧ lo ≤ v ∧ v ≤ hi' := by
  obtain ⟨r', hr', -, hm⟩ := C53_window_mean h1 h2
  rw [hr] at hr'
  cases hr'
  exact ⟨_, hm i hi, mean_between (window_ne_nil h1 hi) hb⟩

theorem C53_constant {N n : ℕ} (c : K) (h1 : 1 ≤ N) (h2 : N ≤ n) :
    movingAvg (List.replicate n c) N = some (List.replicate (n + 1 - N) c) := by
  have hl : (List.replicate n c).length = n := List.length_replicate
  obtain ⟨r, hr, hlen, hm⟩ := C53_window_mean (x := List.replicate n c) h1 (by rw [hl]; exact h2)
  rw [hr, Option.some.injEq]
  apply List.ext_getElem?
  intro i
  by_cases hi : i + N ≤ n
  · obtain ⟨v, hv, h3, h4⟩ := C53_range (x := List.replicate n c) h1 (by rw [hl]; exact h2) hr (i := i)
      (by rw [hl]; exact hi) (lo := c) (hi' := c) (fun v hv => by
        have := List.eq_of_mem_replicate (mem_of_mem_window hv)
        rw [this]; exact ⟨le_refl _, le_refl _⟩)
    rw [hv, le_antisymm h4 h3, List.getElem?_replicate, if_pos (by omega)]
  · rw [List.getElem?_eq_none (by rw [hlen, hl]; omega), List.getElem?_eq_none (by simp; omega)]

example : movingAvg [(1 : ℚ), 2, 6, 4] 2 = some [3 / 2, 4, 5] := by
  norm_num [movingAvg, cumsum, Meters.cumsumFrom]

/-- C53 with filled edges: the result is as long as the series; the value at every position that is not filled
is the mean of a window which contains that position and is centred on it up to one place; filled positions
repeat the first or last mean. -/
theorem C53_filled {x : List K} {N : ℕ} (h1 : 1 ≤ N) (h2 : N ≤ x.length) :
    ∃ r, movingAvgFillEdges x N = some r ∧ r.length = x.length ∧
      ∀ i, i < x.length → ∃ j, j + N ≤ x.length ∧ r[i]? = some (mean (window x N j)) ∧
        (startOf (N - 1) ≤ i ∧ i < startOf (N - 1) + (x.length + 1 - N) →
          j ≤ i ∧ i < j + N ∧ (2 * i = 2 * j + (N - 1) ∨ 2 * i = 2 * j + N)) ∧
        (i < startOf (N - 1) → j = 0) ∧
        (startOf (N - 1) + (x.length + 1 - N) ≤ i → j = x.length - N) := by
  obtain ⟨m, hm, hlen, hw⟩ := C53_window_mean h1 h2
  have hres : x.length - m.length = N - 1 := by rw [hlen]; omega
  have hhead : m.head? = some (mean (window x N 0)) := by
    rw [List.head?_eq_getElem?]; exact hw 0 (by omega)
  have hlast : m.getLast? = some (mean (window x N (x.length - N))) := by
    rw [List.getLast?_eq_getElem?, hlen]
    have : x.length + 1 - N - 1 = x.length - N := by omega
    rw [this]
    exact hw _ (by omega)
  have hs : startOf (N - 1) ≤ N - 1 := by unfold startOf; omega
  have hs2 : 2 * startOf (N - 1) = N - 1 ∨ 2 * startOf (N - 1) = N := by unfold startOf; omega
  have hle : ¬ x.length < m.length := by rw [hlen]; omega
  refine ⟨List.replicate (startOf (N - 1)) (mean (window x N 0)) ++ m ++
      List.replicate (N - 1 - startOf (N - 1)) (mean (window x N (x.length - N))), ?_, ?_, ?_⟩
  · simp only [movingAvgFillEdges, hm, Option.bind_eq_bind, Option.bind_some, fillEdges, if_neg hle, hhead, hlast,
      hres]
  · simp [hlen]; omega
  · intro i hi
    by_cases c1 : i < startOf (N - 1)
    · refine ⟨0, by omega, ?_, ?_, fun _ => rfl, ?_⟩
      · rw [List.append_assoc, List.getElem?_append_left (by simpa using c1), List.getElem?_replicate, if_pos c1]
      · intro h; omega
      · intro h; omega
    · by_cases c2 : i < startOf (N - 1) + (x.length + 1 - N)
      · refine ⟨i - startOf (N - 1), by omega, ?_, ?_, ?_, ?_⟩
        · rw [List.getElem?_append_left (by simp [hlen]; omega), List.getElem?_append_right (by simp; omega)]
          simp only [List.length_replicate]
          exact hw _ (by omega)
        · intro _; omega
        · intro h; omega
        · intro h; omega
      · refine ⟨x.length - N, by omega, ?_, ?_, ?_, fun _ => rfl⟩
        · rw [List.getElem?_append_right (by simp [hlen]; omega), List.getElem?_replicate, if_pos]
          simp only [List.length_append, List.length_replicate, hlen]
          omega
        · intro h; omega
        · intro h; omega

example : movingAvgFillEdges [(1 : ℚ), 2, 6, 4] 2 = some [3 / 2, 3 / 2, 4, 5] := by
  norm_num [movingAvgFillEdges, movingAvg, fillEdges, startOf, cumsum, Meters.cumsumFrom]

/-- C53: the weighted moving average with equal weights `1/N` is the moving average. -/
theorem C53_equal_weights {x : List K} {N : ℕ} (h1 : 1 ≤ N) (h2 : N ≤ x.length) :
    weightedMovingAvg x (List.replicate N (1 / (N : K))) = movingAvg x N := by
  obtain ⟨r, hr, hlen, hw⟩ := C53_window_mean h1 h2
  rw [hr, weightedMovingAvg, if_neg (by simp; omega), Option.some.injEq]
  apply List.ext_getElem?
  intro i
  rw [List.length_replicate]
  by_cases hi : i + N ≤ x.length
  · rw [hw i hi, List.getElem?_map, List.getElem?_range (by omega), Option.map_some, Option.some.injEq]
    unfold windowSum mean
    rw [List.length_replicate, length_window hi]
    have : ∀ (w : List K) (c : K), (List.zipWith (· * ·) w (List.replicate w.length c)).sum = w.sum * c := by
      intro w c
      induction w with
      | nil => simp
      | cons v w ih => rw [List.length_cons, List.replicate_succ, List.zipWith_cons_cons, List.sum_cons, ih,
          List.sum_cons, add_mul]
    have h := this (window x N i) (1 / (N : K))
    rw [length_window hi] at h
    have e : List.take N (List.drop i x) = window x N i := rfl
    rw [e, h, mul_one_div]
  · rw [List.getElem?_eq_none (by simp; omega), List.getElem?_eq_none (by rw [hlen]; omega)]

/-- C53, weights: the value at a place is the sum of the values of the window from there on, each times its
weight. -/
theorem C53_weighted {x w : List K} (h2 : w.length ≤ x.length) :
    ∃ r, weightedMovingAvg x w = some r ∧ r.length = x.length + 1 - w.length ∧
      ∀ i, i + w.length ≤ x.length → r[i]? = some (∑ k ∈ Finset.range w.length, x.getD (i + k) 0 * w.getD k 0) := by
  refine ⟨_, by rw [weightedMovingAvg, if_neg (by omega)], by simp, fun i hi => ?_⟩
  rw [List.getElem?_map, List.getElem?_range (by omega), Option.map_some, Option.some.injEq]
  unfold windowSum
  have key : ∀ (v u : List K), v.length = u.length → (List.zipWith (· * ·) v u).sum =
      ∑ k ∈ Finset.range u.length, v.getD k 0 * u.getD k 0 := by
    intro v
    induction v with
    | nil => intro u h; simp at h; simp [List.length_eq_zero_iff.1 h.symm]
    | cons a v ih =>
      intro u h
      cases u with
      | nil => simp at h
      | cons b u =>
        rw [List.zipWith_cons_cons, List.sum_cons, ih u (by simpa using h), List.length_cons,
          Finset.sum_range_succ']
        simp [add_comm]
  rw [key _ _ (by simp; omega)]
  refine Finset.sum_congr rfl fun k hk => ?_
  rw [Finset.mem_range] at hk
  congr 1
  simp [List.getD_eq_getElem?_getD, hk, List.getElem?_drop]

/-- C53, weights with filled edges: the result is as long as the series; at a place that is not filled it is the
weighted sum of a window which contains this place and is centred on it up to one place; filled places repeat the
first or the last weighted sum. -/
theorem C53_weighted_filled {x w : List K} (h1 : 1 ≤ w.length) (h2 : w.length ≤ x.length) :
    ∃ r, weightedMovingAvgFilled x w = some r ∧ r.length = x.length ∧
      ∀ i, i < x.length → ∃ j, j + w.length ≤ x.length ∧
        r[i]? = some (∑ k ∈ Finset.range w.length, x.getD (j + k) 0 * w.getD k 0) ∧
        (j ≤ i ∧ i < j + w.length ∧ (2 * i = 2 * j + (w.length - 1) ∨ 2 * i = 2 * j + w.length) ∨
          j = 0 ∧ 2 * i < w.length ∨ j = x.length - w.length ∧ 2 * (x.length - i) < w.length + 1) := by
  obtain ⟨m, hm, hlen, hw⟩ := C53_weighted h2
  have hres : x.length - m.length = w.length - 1 := by rw [hlen]; omega
  have hhead := hw 0 (by omega)
  rw [← List.head?_eq_getElem?] at hhead
  have hlast := hw (x.length - w.length) (by omega)
  have e : x.length - w.length = m.length - 1 := by omega
  rw [e, ← List.getLast?_eq_getElem?, ← e] at hlast
  have hs : startOf (w.length - 1) ≤ w.length - 1 := by unfold startOf; omega
  have hs2 : 2 * startOf (w.length - 1) = w.length - 1 ∨ 2 * startOf (w.length - 1) = w.length := by
    unfold startOf; omega
  have hle : ¬ x.length < m.length := by rw [hlen]; omega
  refine ⟨List.replicate (startOf (w.length - 1)) (∑ k ∈ Finset.range w.length, x.getD (0 + k) 0 * w.getD k 0) ++ m ++
      List.replicate (w.length - 1 - startOf (w.length - 1))
        (∑ k ∈ Finset.range w.length, x.getD (x.length - w.length + k) 0 * w.getD k 0),
    by simp only [weightedMovingAvgFilled, hm, Option.bind_eq_bind, Option.bind_some, fillEdges, if_neg hle,
    hhead, hlast, hres], by simp [hlen]; omega, ?_⟩
  intro i hi
  by_cases c1 : i < startOf (w.length - 1)
  · refine ⟨0, by omega, ?_, .inr (.inl ⟨rfl, by omega⟩)⟩
    rw [List.append_assoc, List.getElem?_append_left (by simpa using c1), List.getElem?_replicate, if_pos c1]
  · by_cases c2 : i < startOf (w.length - 1) + (x.length + 1 - w.length)
    · refine ⟨i - startOf (w.length - 1), by omega, ?_, .inl (by omega)⟩
      rw [List.getElem?_append_left (by simp [hlen]; omega), List.getElem?_append_right (by simp; omega)]
      simp only [List.length_replicate]
      exact hw _ (by omega)
    · refine ⟨x.length - w.length, by omega, ?_, .inr (.inr ⟨rfl, by omega⟩)⟩
      rw [List.getElem?_append_right (by simp [hlen]; omega), List.getElem?_replicate, if_pos]
      simp only [List.length_append, List.length_replicate, hlen]
      omega

example : weightedMovingAvgFilled [(1 : ℚ), 2, 6, 4, 8] [1 / 4, 1 / 2, 1 / 4] = some [11 / 4, 11 / 4, 9 / 2, 11 / 2, 11 / 2] := by
  decide +kernel

/-- C53 does not extend to arbitrary weights: they are not normalised, so a constant series changes. -/
theorem C53_fails_weights_not_normalised : weightedMovingAvg [(3 : ℚ), 3, 3] [1, 1] = some [6, 6] := by
  decide +kernel

/-- C53 fails for a window of length 0 (an error) and is empty-handed for windows longer than the series: there
is no value with which the edges could be filled. -/
theorem C53_fails_outside_domain :
    movingAvg [(1 : ℚ), 2] 0 = none ∧ movingAvg [(1 : ℚ), 2] 3 = some [] ∧ movingAvgFillEdges [(1 : ℚ), 2] 3 = none := by
  refine ⟨rfl, ?_, ?_⟩
  · norm_num [movingAvg, cumsum, Meters.cumsumFrom]
  · norm_num [movingAvgFillEdges, movingAvg, fillEdges, cumsum, Meters.cumsumFrom]

end Verif.MovingAvg
