import Verif.Model.DynBC
import Verif.Props.TimeLoop
import Mathlib.Data.Rat.Floor
import Mathlib.Tactic.Linarith
import Mathlib.Tactic.Ring
import Mathlib.Tactic.NormNum
import Mathlib.Tactic.FieldSimp
import Mathlib.Tactic.Positivity

/-!
# C27, C28: time series as boundary conditions
-/

set_option linter.unusedSectionVars false

namespace Verif.DynBC

open Verif.TimeLoop

variable {K : Type*} [Field K] [LinearOrder K] [IsStrictOrderedRing K] [FloorSemiring K]

theorem floor_le_pyRound (x : K) : ⌊x⌋₊ ≤ pyRound x := by
  unfold pyRound
  split_ifs <;> omega

theorem le_pyRound (x : K) : x - 1 / 2 ≤ pyRound x := by
  have h := Nat.lt_floor_add_one x
  unfold pyRound
  split_ifs <;> (push_cast; linarith)

theorem pyRound_le {x : K} : pyRound x ≤ ⌊x⌋₊ + 1 := by
  unfold pyRound
  split_ifs <;> omega

theorem mean_mem {l : List K} (hl : l ≠ []) {m M : K} (h : ∀ x ∈ l, m ≤ x ∧ x ≤ M) :
    m ≤ mean l ∧ mean l ≤ M := by
  have hlen : (0 : K) < l.length := by
    have := List.length_pos_iff.2 hl
    exact_mod_cast this
  unfold mean
  rw [le_div_iff₀ hlen, div_le_iff₀ hlen]
  clear hl hlen
  induction l with
  | nil => simp
  | cons a l ih =>
    have h1 := h a List.mem_cons_self
    have h2 := ih fun x hx => h x (List.mem_cons_of_mem _ hx)
    simp only [List.sum_cons, List.length_cons, Nat.cast_add, Nat.cast_one, mul_add, mul_one]
    constructor <;> linarith [h1.1, h1.2, h2.1, h2.2]

theorem mem_slice {v : List K} {a b : ℕ} {x : K} (h : x ∈ slice v a b) :
    ∃ j, a ≤ j ∧ j < b ∧ v[j]? = some x := by
  unfold slice at h
  obtain ⟨i, hi⟩ := List.mem_iff_getElem?.1 h
  rw [List.getElem?_drop, List.getElem?_take] at hi
  split_ifs at hi with hb
  exact ⟨a + i, by omega, hb, hi⟩

theorem convex2 {a b w m M : K} (h0 : 0 ≤ w) (h1 : w ≤ 1) (ha : m ≤ a ∧ a ≤ M) (hb : m ≤ b ∧ b ≤ M) :
    m ≤ a * (1 - w) + b * w ∧ a * (1 - w) + b * w ≤ M := by
  have h1' := sub_nonneg.2 h1
  have p1 := mul_le_mul_of_nonneg_right ha.1 h1'
  have p2 := mul_le_mul_of_nonneg_right ha.2 h1'
  have p3 := mul_le_mul_of_nonneg_right hb.1 h0
  have p4 := mul_le_mul_of_nonneg_right hb.2 h0
  constructor <;> linarith

theorem value_some {v : List K} {Δ last h x : K} (hx : value v Δ last h = some x) :
    ∃ a b, v[⌊last + h / Δ⌋₊]? = some a ∧ v[⌊last + h / Δ⌋₊ + 1]? = some b ∧
      x = if h / Δ ≤ 1 then
          a * (1 - (last + h / Δ - ⌊last + h / Δ⌋₊)) + b * (last + h / Δ - ⌊last + h / Δ⌋₊)
        else (mean (slice v (pyRound last) (⌊last + h / Δ⌋₊ + 1)) *
            (h / Δ - (last + h / Δ - ⌊last + h / Δ⌋₊)) +
          (a * (1 - (last + h / Δ - ⌊last + h / Δ⌋₊)) + b * (last + h / Δ - ⌊last + h / Δ⌋₊)) *
            (last + h / Δ - ⌊last + h / Δ⌋₊)) / (h / Δ) := by
  unfold value at hx
  simp only at hx
  cases ha : v[⌊last + h / Δ⌋₊]? with
  | none => rw [ha] at hx; cases hx
  | some a =>
    cases hb : v[⌊last + h / Δ⌋₊ + 1]? with
    | none => rw [ha, hb] at hx; cases hx
    | some b =>
      rw [ha, hb] at hx
      exact ⟨a, b, rfl, rfl, (Option.some.inj hx).symm⟩

/-- **C27** (range): the value written after a step lies between any bounds of the samples from the one
nearest to the start of the step to the one after its end, and the two samples around the end, for every series, sampling
interval and step. -/
theorem C27_within_touched_samples {v : List K} {Δ last h x m M : K} (hΔ : 0 < Δ) (hl : 0 ≤ last)
    (hh : 0 < h) (hx : value v Δ last h = some x)
    (hb : ∀ (j : ℕ) y, v[j]? = some y → (last - 1 / 2 ≤ j ∨ last + h / Δ < j + 1) → (j : K) ≤ last + h / Δ + 1 → m ≤ y ∧ y ≤ M) :
    m ≤ x ∧ x ≤ M := by
  obtain ⟨a, b, ha, hb', rfl⟩ := value_some hx
  have hc : 0 < h / Δ := div_pos hh hΔ
  set c := h / Δ with hcdef
  have hn : 0 ≤ last + c := by linarith
  have f1 := Nat.floor_le hn
  have f2 := Nat.lt_floor_add_one (last + c)
  set f := ⌊last + c⌋₊ with hf
  have hA := hb f a ha (Or.inr f2) (by linarith)
  have hB := hb (f + 1) b hb' (Or.inr (by push_cast; linarith)) (by push_cast; linarith)
  have hlev : m ≤ a * (1 - (last + c - f)) + b * (last + c - f) ∧
      a * (1 - (last + c - f)) + b * (last + c - f) ≤ M :=
    convex2 (by linarith) (by linarith) hA hB
  split_ifs with h1
  · exact hlev
  · have h1' := not_le.1 h1
    have hlast := Nat.floor_le hl
    have hround : pyRound last < f + 1 := by
      have p1 := pyRound_le (x := last)
      have : ⌊last⌋₊ + 1 ≤ f := by
        rw [hf]
        refine Nat.le_floor ?_
        push_cast
        linarith
      omega
    have hlen : f < v.length := by
      rw [List.getElem?_eq_some_iff] at ha
      exact ha.1
    have hne : slice v (pyRound last) (f + 1) ≠ [] := by
      unfold slice
      intro he
      rw [List.drop_eq_nil_iff, List.length_take] at he
      omega
    have hmean := mean_mem hne (m := m) (M := M) (by
      intro y hy
      obtain ⟨j, j1, j2, hj⟩ := mem_slice hy
      refine hb j y hj ?_ ?_
      · have h3 := le_pyRound last
        have h4 : ((pyRound last : ℕ) : K) ≤ j := by exact_mod_cast j1
        exact Or.inl (by linarith)
      · have : (j : K) ≤ f := by exact_mod_cast Nat.lt_succ_iff.1 j2
        linarith)
    have hw : last + c - f ≤ c := by linarith
    have q1 : 0 ≤ c - (last + c - f) := by linarith
    have q2 : 0 ≤ last + c - f := by linarith
    have p1 := mul_le_mul_of_nonneg_right hmean.1 q1
    have p2 := mul_le_mul_of_nonneg_right hmean.2 q1
    have p3 := mul_le_mul_of_nonneg_right hlev.1 q2
    have p4 := mul_le_mul_of_nonneg_right hlev.2 q2
    rw [le_div_iff₀ hc, div_le_iff₀ hc]
    constructor <;> linarith

/-- **C27** (interpolation): after a step of at most one sample the value is the linear interpolation of the
series at the new time; in particular at a sample time it is the sample. -/
theorem C27_interpolates {v : List K} {Δ last h x : K} (hΔ : 0 < Δ) (hl : 0 ≤ last) (hh : 0 < h)
    (h1 : h ≤ Δ) (hx : value v Δ last h = some x) :
    ∃ (j : ℕ) (a b w : K), v[j]? = some a ∧ v[j + 1]? = some b ∧ 0 ≤ w ∧ w < 1 ∧
      last + h / Δ = j + w ∧ x = a + w * (b - a) ∧ (w = 0 → x = a) := by
  obtain ⟨a, b, ha, hb', rfl⟩ := value_some hx
  have hc : 0 < h / Δ := div_pos hh hΔ
  have f1 := Nat.floor_le (show 0 ≤ last + h / Δ by linarith)
  have f2 := Nat.lt_floor_add_one (last + h / Δ)
  rw [if_pos ((div_le_one hΔ).2 h1)]
  refine ⟨_, a, b, last + h / Δ - ⌊last + h / Δ⌋₊, ha, hb', by linarith, by linarith, by ring, by ring,
    fun h0 => by rw [h0]; ring⟩

/-- Linear interpolation of the samples at position `p` (in samples). -/
def IsInterp (v : List K) (p x : K) : Prop :=
  ∃ (j : ℕ) (a b w : K), v[j]? = some a ∧ v[j + 1]? = some b ∧ 0 ≤ w ∧ w < 1 ∧ p = j + w ∧ x = a + w * (b - a)

/-- **C27** (run): in a run with steps of at most one sample the value after every step is the series at the time
the run has reached. -/
theorem C27_run {v : List K} {Δ : K} (hΔ : 0 < Δ) {hs : List K} : ∀ {last : K} {xs : List K}, 0 ≤ last →
    (∀ h ∈ hs, 0 < h ∧ h ≤ Δ) → updates v Δ last hs = some xs →
    xs.length = hs.length ∧ ∀ i < hs.length, ∃ x, xs[i]? = some x ∧
      IsInterp v (last + (hs.take (i + 1)).sum / Δ) x := by
  induction hs with
  | nil =>
    intro last xs _ _ he
    simp only [updates, Option.some.injEq] at he
    subst he
    simp
  | cons h hs ih =>
    intro last xs hl hpos he
    have hh := hpos h List.mem_cons_self
    unfold updates at he
    cases hx : value v Δ last h with
    | none => rw [hx] at he; cases he
    | some x =>
      rw [hx] at he
      simp only [Option.map_eq_some_iff] at he
      obtain ⟨ys, hys, rfl⟩ := he
      have hc : 0 < h / Δ := div_pos hh.1 hΔ
      obtain ⟨i1, i2⟩ := ih (last := last + h / Δ) (by linarith) (fun y hy => hpos y (List.mem_cons_of_mem _ hy)) hys
      refine ⟨by simp [i1], ?_⟩
      intro i hi
      cases i with
      | zero =>
        obtain ⟨j, a, b, w, h1, h2, h3, h4, h5, h6, -⟩ := C27_interpolates hΔ hl hh.1 hh.2 hx
        refine ⟨x, by simp, j, a, b, w, h1, h2, h3, h4, ?_, h6⟩
        simpa using h5
      | succ i =>
        obtain ⟨y, hy, hI⟩ := i2 i (by simpa using hi)
        refine ⟨y, by simpa using hy, ?_⟩
        have e : last + h / Δ + (hs.take (i + 1)).sum / Δ = last + ((h :: hs).take (i + 1 + 1)).sum / Δ := by
          rw [List.take_succ_cons, List.sum_cons, add_div]; ring
        rwa [e] at hI

/-- A constant series stays constant whatever the steps are. -/
theorem C27_constant_series {v : List K} {Δ last h x y : K} (hΔ : 0 < Δ) (hl : 0 ≤ last) (hh : 0 < h)
    (hv : ∀ z ∈ v, z = y) (hx : value v Δ last h = some x) : x = y := by
  have := C27_within_touched_samples (m := y) (M := y) hΔ hl hh hx (by
    intro j z hj _ _
    have := hv z (List.mem_of_getElem? hj)
    exact ⟨this.ge, this.le⟩)
  exact le_antisymm this.2 this.1

theorem floor_eq' {x : ℚ} {n : ℕ} (h1 : (n : ℚ) ≤ x) (h2 : x < n + 1) : ⌊x⌋₊ = n :=
  (Nat.floor_eq_iff (le_trans (Nat.cast_nonneg n) h1)).2 ⟨h1, h2⟩

/-- Half a minute into the series, one minute further; and two and a half minutes in one step. -/
example : value [10, 20, 40, 40] (60 : ℚ) (1 / 2) 60 = some 30 ∧
    value [10, 20, 40, 40] (60 : ℚ) 0 150 = some (80 / 3) := by
  have f1 : ⌊(1 / 2 + 60 / 60 : ℚ)⌋₊ = 1 := floor_eq' (by norm_num) (by norm_num)
  have f2 : ⌊(0 + 150 / 60 : ℚ)⌋₊ = 2 := floor_eq' (by norm_num) (by norm_num)
  have f3 : pyRound (0 : ℚ) = 0 := by norm_num [pyRound]
  constructor
  · unfold value
    simp only [f1]
    norm_num
  · unfold value
    simp only [f2, f3]
    norm_num [mean, slice]

/-! ## C28 -/

/-- When an update fails. -/
theorem value_isSome_iff {v : List K} {Δ last h : K} (hΔ : 0 < Δ) (hl : 0 ≤ last) (hh : 0 < h) :
    (value v Δ last h).isSome ↔ last + h / Δ + 1 < v.length := by
  have hc : 0 < h / Δ := div_pos hh hΔ
  have hn : 0 ≤ last + h / Δ := by linarith
  have key : last + h / Δ + 1 < v.length ↔ ⌊last + h / Δ⌋₊ + 1 < v.length := by
    constructor
    · intro hlt
      have f1 := Nat.floor_le hn
      have : ((⌊last + h / Δ⌋₊ + 1 : ℕ) : K) < v.length := by push_cast; linarith
      exact_mod_cast this
    · intro hlt
      have f2 := Nat.lt_floor_add_one (last + h / Δ)
      have : ((⌊last + h / Δ⌋₊ + 1 + 1 : ℕ) : K) ≤ v.length := by exact_mod_cast hlt
      push_cast at this
      linarith
  rw [key]
  unfold value
  simp only
  constructor
  · intro hs
    by_contra hlt
    have : v[⌊last + h / Δ⌋₊ + 1]? = none := List.getElem?_eq_none (not_lt.1 hlt)
    rw [this] at hs
    cases hv : v[⌊last + h / Δ⌋₊]? <;> rw [hv] at hs <;> simp at hs
  · intro hlt
    rw [List.getElem?_eq_getElem hlt, List.getElem?_eq_getElem (by omega)]
    simp

theorem updates_isSome_iff {v : List K} {Δ : K} (hΔ : 0 < Δ) (hs : List K) :
    ∀ last : K, 0 ≤ last → (∀ h ∈ hs, 0 < h) → hs ≠ [] →
      ((updates v Δ last hs).isSome ↔ last + hs.sum / Δ + 1 < v.length) := by
  induction hs with
  | nil => intro _ _ _ h; exact absurd rfl h
  | cons h hs ih =>
    intro last hl hpos _
    have hh := hpos h List.mem_cons_self
    have hpos' : ∀ x ∈ hs, 0 < x := fun x hx => hpos x (List.mem_cons_of_mem _ hx)
    have hc : 0 < h / Δ := div_pos hh hΔ
    have hsum : 0 ≤ hs.sum / Δ := by
      refine div_nonneg (List.sum_nonneg fun x hx => (hpos' x hx).le) hΔ.le
    have hv := value_isSome_iff (v := v) hΔ hl hh
    simp only [updates, List.sum_cons, add_div]
    cases hval : value v Δ last h with
    | none =>
      rw [hval] at hv
      simp only [Option.isSome_none, Bool.false_eq_true, false_iff, not_lt] at hv ⊢
      linarith
    | some x =>
      rw [hval] at hv
      have hv' := hv.1 rfl
      simp only [Option.isSome_map]
      by_cases hne : hs = []
      · subst hne
        simp only [updates, Option.isSome_some, List.sum_nil, zero_div, true_iff]
        linarith
      · rw [ih (last + h / Δ) (by linarith) hpos' hne]
        constructor <;> intro <;> linarith

/-- **C28**, partial (exact condition): a complete simulation runs through if and only if it ends before the
time of the last sample. -/
theorem C28_survives_iff {v : List K} {Δ tf t : K} {hs : List K} (hΔ : 0 < Δ) (htf : 0 < tf)
    (hr : Runs tf 0 hs t) (hpos : ∀ h ∈ hs, 0 < h) :
    (updates v Δ 0 hs).isSome ↔ t < Δ * (v.length - 1) := by
  have hsum := (C07_ends_at_timeframe hr).1
  have hne : hs ≠ [] := by
    rintro rfl
    cases hr with
    | stop h => exact h htf
  rw [updates_isSome_iff hΔ hs 0 le_rfl hpos hne, hsum, zero_add]
  have : hs.sum / Δ + 1 < v.length ↔ hs.sum / Δ < v.length - 1 := by
    constructor <;> intro <;> linarith
  rw [this, div_lt_iff₀ hΔ, mul_comm]

/-- **C28**, partial: a series that is longer than the time frame plus the longest step plus one sample is
never run past.  Missing: the check of the code demands only that the number of samples times the sampling
interval exceeds the time frame (`C28_fails_accepted`). -/
theorem C28_long_series_partial {v : List K} {Δ tf t hmax : K} {hs : List K} (hΔ : 0 < Δ) (htf : 0 < tf)
    (hr : Runs tf 0 hs t) (hpos : ∀ h ∈ hs, 0 < h) (hmx : ∀ h ∈ hs, h ≤ hmax)
    (hv : tf + hmax + Δ ≤ Δ * v.length) : (updates v Δ 0 hs).isSome := by
  obtain ⟨h1, -, -, h4⟩ := C07_ends_at_timeframe hr
  rw [C28_survives_iff hΔ htf hr hpos]
  have hne : hs ≠ [] := by
    rintro rfl
    cases hr with
    | stop h => exact h htf
  have h5 := h4 hs.dropLast (hs.getLast hne) (List.dropLast_append_getLast hne).symm
  have h6 := hmx _ (List.getLast_mem hne)
  linarith

/-- One hour in steps of a quarter of an hour, samples every half hour, four samples. -/
example : Runs (3600 : ℚ) 0 [900, 900, 900, 900] 3600 ∧
    (3600 : ℚ) + 900 + 1800 ≤ 1800 * ([1, 2, 3, 4] : List ℚ).length := by
  refine ⟨?_, by norm_num⟩
  refine .step (by norm_num) (.step (by norm_num) (.step (by norm_num) (.step (by norm_num) ?_)))
  have : (0 + 900 + 900 + 900 + 900 : ℚ) = 3600 := by norm_num
  rw [this]
  exact .stop (by norm_num)

/-- **C28**, partial: what the check lacks.  An accepted series is never run past by steps of at most one sample if
two more samples are appended to it. -/
theorem C28_two_more_samples_partial {v : List K} {Δ tf t : K} {hs : List K} (hΔ : 0 < Δ) (htf : 0 < tf)
    (hr : Runs tf 0 hs t) (hpos : ∀ h ∈ hs, 0 < h ∧ h ≤ Δ) (ha : accepts v Δ tf) (x y : K) :
    (updates (v ++ [x, y]) Δ 0 hs).isSome := by
  refine C28_long_series_partial hΔ htf hr (fun h hh => (hpos h hh).1) (hmax := Δ) (fun h hh => (hpos h hh).2) ?_
  unfold accepts at ha
  simp only [List.length_append, List.length_cons, List.length_nil]
  push_cast
  linarith

/-- **C28**, partial: no series is refused without need; every complete simulation with a series that is not
accepted fails. -/
theorem C28_refused_would_fail {v : List K} {Δ tf t : K} {hs : List K} (hΔ : 0 < Δ) (htf : 0 < tf)
    (hr : Runs tf 0 hs t) (hpos : ∀ h ∈ hs, 0 < h) (ha : ¬ accepts v Δ tf) : updates v Δ 0 hs = none := by
  rw [← Option.not_isSome_iff_eq_none, C28_survives_iff hΔ htf hr hpos]
  have := (C07_ends_at_timeframe hr).2.1
  unfold accepts at ha
  rw [not_lt] at ha
  rw [not_lt]
  linarith

example : accepts [1, 2, 3] (1800 : ℚ) 3600 ∧ ¬ accepts [1, 2] (1800 : ℚ) 3600 := by
  constructor <;> norm_num [accepts]

/-- **C28** is false of the code, even if the simulation ends exactly at the time frame: two hourly samples
are accepted for a time frame of one and a half hours, and the update after the last step fails. -/
theorem C28_fails_accepted :
    ∃ (v : List ℚ) (Δ tf t : ℚ) (hs : List ℚ), 0 < Δ ∧ 0 < tf ∧ accepts v Δ tf ∧ Runs tf 0 hs t ∧
      (∀ h ∈ hs, 0 < h) ∧ t = tf ∧ updates v Δ 0 hs = none := by
  have hr : Runs (5400 : ℚ) 0 [1800, 1800, 1800] 5400 := by
    refine .step (by norm_num) (.step (by norm_num) (.step (by norm_num) ?_))
    have : (0 + 1800 + 1800 + 1800 : ℚ) = 5400 := by norm_num
    rw [this]
    exact .stop (by norm_num)
  have hpos : ∀ h ∈ ([1800, 1800, 1800] : List ℚ), 0 < h := by simp
  refine ⟨[1, 2], 3600, 5400, 5400, [1800, 1800, 1800], by norm_num, by norm_num,
    by norm_num [accepts], hr, hpos, rfl, ?_⟩
  have := C28_survives_iff (v := [1, 2]) (Δ := (3600 : ℚ)) (by norm_num) (by norm_num) hr hpos
  rw [← Option.not_isSome_iff_eq_none, this]
  norm_num

end Verif.DynBC
