import Verif.Model.BcSeries
import Mathlib.Tactic.Linarith
import Mathlib.Tactic.FieldSimp
import Mathlib.Tactic.Ring
import Mathlib.Data.Nat.Cast.Order.Field

/-!
# C180: time series from arrays of boundary conditions
-/

namespace Verif.BcSeries

variable {V : Type}

/-- Specification: the values of an array which is used again from the beginning when it ends, at the times 0, `step`, 2 `step`, … up to
`dur` (included). -/
structure Repeats (xs : List V) (step dur : ℕ) (s : Series V) : Prop where
  count : s.length = dur / step + 1
  value : ∀ i (h : i < s.length), ∃ hn : i % xs.length < xs.length, s[i] = (i * step, xs[i % xs.length])

theorem stack_succ (xs : List V) (k : ℕ) : stack xs (k + 1) = stack xs k ++ xs := by
  unfold stack
  rw [List.range_succ, List.foldl_append]
  rfl

theorem stack_length (xs : List V) (k : ℕ) : (stack xs k).length = (k + 1) * xs.length := by
  induction k with
  | zero => simp [stack]
  | succ k ih => rw [stack_succ, List.length_append, ih]; ring

theorem stack_getElem (xs : List V) (hx : 0 < xs.length) (k : ℕ) : ∀ i (h : i < (stack xs k).length),
    (stack xs k)[i] = xs[i % xs.length]'(Nat.mod_lt _ hx) := by
  induction k with
  | zero =>
    intro i h
    have h' : i < xs.length := by simpa [stack] using h
    simp [stack, Nat.mod_eq_of_lt h']
  | succ k ih =>
    intro i h
    simp only [stack_succ]
    by_cases hi : i < (stack xs k).length
    · rw [List.getElem_append_left hi, ih i hi]
    · rw [List.getElem_append_right (by omega)]
      congr 1
      have hl := stack_length xs k
      rw [stack_length] at h
      have : i - (stack xs k).length < xs.length := by rw [hl]; rw [Nat.add_mul _ 1, one_mul] at h; omega
      rw [← Nat.mod_eq_of_lt this, hl]
      have hge : (k + 1) * xs.length ≤ i := by omega
      conv_rhs => rw [← Nat.sub_add_cancel hge]
      rw [Nat.add_mul_mod_self_right]

theorem series_length (step : ℕ) (xs : List V) : (series step xs).length = xs.length := by simp [series]

theorem series_getElem (step : ℕ) (xs : List V) (i : ℕ) (h : i < (series step xs).length) :
    (series step xs)[i] = (i * step, xs[i]'(by rwa [series_length] at h)) := by
  simp [series]

/-- The slice of a series is its beginning. -/
theorem cut_series {step : ℕ} (hs : 0 < step) (xs : List V) (dur : ℕ) :
    cut dur (series step xs) = (series step xs).take (dur / step + 1) := by
  have key : ∀ (l : Series V) (m : ℕ), (∀ i (h : i < l.length), l[i].1 = (m + i) * step) →
      cut dur l = l.take (dur / step + 1 - m) := by
    intro l
    induction l with
    | nil => intro m _; simp [cut]
    | cons q l ih =>
      intro m h
      have h0 : q.1 = m * step := (h 0 (by simp)).trans (by simp)
      have ih' := ih (m + 1) (fun i hi => by
        have := h (i + 1) (by simpa using hi)
        simp only [List.getElem_cons_succ] at this
        rw [this]; ring)
      unfold cut at ih' ⊢
      rw [List.filter_cons]
      have hle : q.1 ≤ dur ↔ m ≤ dur / step := by rw [h0, Nat.le_div_iff_mul_le hs]
      by_cases hq : q.1 ≤ dur
      · rw [if_pos (by simpa using hq), ih', show dur / step + 1 - m = (dur / step + 1 - (m + 1)) + 1 by have := hle.1 hq; omega,
          List.take_succ_cons]
      · rw [if_neg (by simpa using hq), ih']
        have : ¬ m ≤ dur / step := fun c => hq (hle.2 c)
        rw [show dur / step + 1 - (m + 1) = 0 by omega, show dur / step + 1 - m = 0 by omega]
        simp
  have := key (series step xs) 0 (fun i h => by rw [series_getElem]; simp)
  simpa using this

/-- **C180**, partial: whenever a series is returned, it is the resampled series of the values of the array, at its frequency, from the
start to the end of the wanted duration; the array is used again from the beginning if it is too short, and only if this was asked for. -/
theorem C180_returned_partial {hasHow : Bool} {resample : Bool → ℕ → Series V → Series V} {a : Args V} {r : Series V}
    (h : make hasHow resample a = .ok r) (hx : 0 < a.array.length) (hp : 0 < period a.bcFreq) :
    ∃ s, Repeats a.array (period a.bcFreq) a.dur s ∧ r = resample (a.tsFreq ≤ a.bcFreq) (period a.tsFreq) s ∧
      (a.stack = false → a.dur < (a.array.length - 1) * period a.bcFreq) := by
  unfold make at h
  dsimp only at h
  split at h
  · cases h
  rename_i hne
  have rep : ∀ ys : List V, (∀ i (hi : i < ys.length), ys[i] = a.array[i % a.array.length]'(Nat.mod_lt _ hx)) →
      a.dur / period a.bcFreq < ys.length → Repeats a.array (period a.bcFreq) a.dur (cut a.dur (series (period a.bcFreq) ys)) := by
    intro ys hy hlen
    rw [cut_series hp]
    constructor
    · rw [List.length_take, series_length]; omega
    · intro i hi
      refine ⟨Nat.mod_lt _ hx, ?_⟩
      rw [List.length_take, series_length] at hi
      rw [List.getElem_take, series_getElem, hy]
  have res : ∀ s, resampled hasHow resample a s = .ok r → r = resample (a.tsFreq ≤ a.bcFreq) (period a.tsFreq) s := by
    intro s hs
    unfold resampled at hs
    split at hs
    · exact (Except.ok.inj hs).symm
    · cases hs
  split at h
  · rename_i hlt
    refine ⟨_, rep a.array (fun i hi => by simp [Nat.mod_eq_of_lt hi]) ?_, res _ h, fun _ => hlt⟩
    have := Nat.div_lt_of_lt_mul (show a.dur < period a.bcFreq * (a.array.length - 1) by rw [Nat.mul_comm]; exact hlt)
    omega
  · rename_i hle
    split at h
    · cases h
    rename_i hst
    split at h
    · cases h
    rename_i h0
    refine ⟨_, rep _ (stack_getElem a.array hx _) ?_, res _ h, fun c => absurd c hst⟩
    set own := (a.array.length - 1) * period a.bcFreq with hown
    set k := (a.dur + own - 1) / own with hk
    have hk' : a.dur ≤ k * own := by
      have h1 := Nat.lt_div_mul_add (a := a.dur + own - 1) (Nat.pos_of_ne_zero h0)
      rw [← hk] at h1
      omega
    rw [stack_length]
    apply Nat.div_lt_of_lt_mul
    calc a.dur ≤ k * own := hk'
      _ ≤ k * (a.array.length * period a.bcFreq) := by
        apply Nat.mul_le_mul_left
        rw [hown]
        exact Nat.mul_le_mul_right _ (Nat.sub_le _ _)
      _ < (k + 1) * (a.array.length * period a.bcFreq) := by
        apply Nat.mul_lt_mul_of_pos_right (Nat.lt_succ_self k) (Nat.mul_pos hx hp)
      _ = period a.bcFreq * ((k + 1) * a.array.length) := by ring

/-- **C180** fails for arrays that fit: an array which covers exactly the wanted duration always raises an error. -/
theorem C180_fails_fitting (hasHow : Bool) (resample : Bool → ℕ → Series V → Series V) (a : Args V)
    (h : (a.array.length - 1) * period a.bcFreq = a.dur) : make hasHow resample a = .error .unbound := if_pos h

/-- **C180** fails for single values: they cannot be repeated. -/
theorem C180_fails_single (hasHow : Bool) (resample : Bool → ℕ → Series V → Series V) (a : Args V) (h : a.array.length = 1)
    (hs : a.stack = true) (hd : 0 < a.dur) : make hasHow resample a = .error .division := by
  unfold make
  simp [h, hs]
  omega

/-- **C180** fails with pandas from version 1.0 on: no series is returned whatever the arguments are. -/
theorem C180_fails_pandas (resample : Bool → ℕ → Series V → Series V) (a : Args V) : ∃ e, make false resample a = .error e := by
  have hr : ∀ s, resampled false resample a s = .error .how := fun s => rfl
  unfold make
  dsimp only
  simp only [hr]
  split_ifs <;> exact ⟨_, rfl⟩

/-- Otherwise (and for versions which know `how`) a series is returned. -/
theorem C180_accepted (resample : Bool → ℕ → Series V → Series V) (a : Args V) (h2 : 2 ≤ a.array.length) (hp : 0 < period a.bcFreq)
    (hne : (a.array.length - 1) * period a.bcFreq ≠ a.dur) (hs : a.stack = true ∨ a.dur < (a.array.length - 1) * period a.bcFreq) :
    ∃ r, make true resample a = .ok r := by
  have h0 : (a.array.length - 1) * period a.bcFreq ≠ 0 := Nat.mul_ne_zero (by omega) (by omega)
  unfold make resampled
  dsimp only
  rw [if_neg hne]
  split
  · exact ⟨_, rfl⟩
  · rename_i hlt
    rcases hs with hs | hs
    · simp [hs, h0]
    · exact absurd hs hlt

/-- **C180**, partial: the time of each value is at most as many nanoseconds too early as values precede it; periods of whole nanoseconds
are exact. -/
theorem C180_times_partial (freq : ℚ) (hf : 0 < freq) (i : ℕ) :
    (i * period freq : ℕ) ≤ (i : ℚ) / freq * 10 ^ 9 ∧ (i : ℚ) / freq * 10 ^ 9 - i ≤ (i * period freq : ℕ) ∧
    (∀ n : ℕ, 1 / freq * 10 ^ 9 = n → (i * period freq : ℕ) = (i : ℚ) / freq * 10 ^ 9) := by
  have h0 : 0 ≤ 1 / freq * 10 ^ 9 := by positivity
  have h1 : (period freq : ℚ) ≤ 1 / freq * 10 ^ 9 := Nat.floor_le h0
  have h2 : 1 / freq * 10 ^ 9 < period freq + 1 := Nat.lt_floor_add_one _
  have e : (i : ℚ) / freq * 10 ^ 9 = i * (1 / freq * 10 ^ 9) := by ring
  have hi : (0 : ℚ) ≤ i := Nat.cast_nonneg i
  rw [e]
  push_cast
  refine ⟨mul_le_mul_of_nonneg_left h1 hi, by nlinarith, ?_⟩
  intro n hn
  have : period freq = n := by unfold period; rw [hn]; exact Nat.floor_natCast n
  rw [this, hn]

/-- **C180** fails for periods which are no whole nanoseconds: values given three times a second come half a second too early after sixteen
years (and `3 * 5 * 10^8` values), whatever they are. -/
theorem C180_fails_drift : (3 * (5 * 10 ^ 8) * period 3 : ℕ) + 5 * 10 ^ 8 = 5 * 10 ^ 8 * 10 ^ 9 := by decide +kernel

/-! ## Witnesses -/

/-- Three hourly values for seven hours. -/
example : make true (fun _ _ s => s) (⟨[1, 2, 3], 1 / 3600, 1 / 3600, 7 * 3600 * 10 ^ 9, true⟩ : Args ℕ) =
    .ok [(0, 1), (3600000000000, 2), (7200000000000, 3), (10800000000000, 1), (14400000000000, 2), (18000000000000, 3), (21600000000000, 1),
      (25200000000000, 2)] := by decide +kernel

example : make true (fun _ _ s => s) (⟨[1, 2, 3], 1 / 3600, 1 / 3600, 2 * 3600 * 10 ^ 9, true⟩ : Args ℕ) = .error .unbound :=
  C180_fails_fitting _ _ _ (by decide +kernel)

example : make true (fun _ _ s => s) (⟨[1, 2, 3], 1 / 3600, 1 / 3600, 3600 * 10 ^ 9, false⟩ : Args ℕ) = .ok [(0, 1), (3600000000000, 2)] := by
  decide +kernel

example : make true (fun _ _ s => s) (⟨[1], 1, 1, 5 * 10 ^ 9, true⟩ : Args ℕ) = .error .division :=
  C180_fails_single _ _ _ rfl rfl (by norm_num)

/-- The hypotheses of `C180_accepted` can be met. -/
example : ∃ r, make true (fun _ _ s => s) (⟨[1, 2], 1, 1, 5 * 10 ^ 9, true⟩ : Args ℕ) = .ok r :=
  C180_accepted _ _ le_rfl (by decide +kernel) (by decide +kernel) (Or.inl rfl)

end Verif.BcSeries
