import Verif.Model.Plan
import Verif.Model.Resample
import Mathlib.Tactic.Linarith
import Mathlib.Tactic.Positivity
import Mathlib.Tactic.NormNum
import Mathlib.Tactic.Ring
import Mathlib.Tactic.FieldSimp

/-!
# C137: the predictive controller plans in time
-/

set_option linter.unusedSectionVars false

namespace Verif.Plan

variable {K : Type*} [Field K] [LinearOrder K] [IsStrictOrderedRing K] [FloorRing K]

/-- Specification: the calls of a simulation of length `tf`: the first is made in the first planning interval, times
grow by at most `d` per step and stay below `tf`. -/
def Steps (tf d : K) : K → List K → Prop
  | _, [] => True
  | t, t' :: ts => t ≤ t' ∧ t' ≤ t + d ∧ t' < tf ∧ Steps tf d t' ts

/-- Specification: the number of the planning interval which contains time `t`. -/
def interval (oe t : K) : ℕ := ⌊t / oe⌋₊

theorem interval_spec {oe t : K} (ho : 0 < oe) (ht : 0 ≤ t) :
    (interval oe t : K) * oe ≤ t ∧ t < ((interval oe t : K) + 1) * oe := by
  unfold interval
  constructor
  · have := Nat.floor_le (div_nonneg ht ho.le)
    rwa [le_div_iff₀ ho] at this
  · have := Nat.lt_floor_add_one (t / oe)
    rwa [div_lt_iff₀ ho] at this

/-- The remaining planning times after `k` of them. -/
def after (tf oe : K) (k : ℕ) : St K :=
  ⟨((List.range' k (⌈tf / oe⌉₊ - k)).map fun k : ℕ => (k : K) * oe) ++ [tf], k⟩

theorem init_eq (tf oe : K) : St.init tf oe = after tf oe 0 := by
  simp [St.init, after, List.range_eq_range']

theorem ceil_gt {tf oe : K} (ho : 0 < oe) {k : ℕ} (h : (k : K) * oe < tf) : k < ⌈tf / oe⌉₊ := by
  rw [Nat.lt_ceil, lt_div_iff₀ ho]
  exact h

theorem call_plan {tf oe t : K} {k : ℕ} (h : (k : K) * oe ≤ t) (hk : k < ⌈tf / oe⌉₊) :
    call t (after tf oe k) = some (after tf oe (k + 1), some k) := by
  unfold call after
  obtain ⟨m, hm⟩ : ∃ m, ⌈tf / oe⌉₊ - k = m + 1 := ⟨⌈tf / oe⌉₊ - k - 1, by omega⟩
  have hm' : ⌈tf / oe⌉₊ - (k + 1) = m := by omega
  rw [hm, hm', List.range'_succ]
  simp [h]

theorem call_wait {tf oe t : K} {k : ℕ} (h : t < (k : K) * oe) (htf : t < tf) :
    call t (after tf oe k) = some (after tf oe k, none) := by
  unfold call after
  by_cases hk : k < ⌈tf / oe⌉₊
  · obtain ⟨m, hm⟩ : ∃ m, ⌈tf / oe⌉₊ - k = m + 1 := ⟨⌈tf / oe⌉₊ - k - 1, by omega⟩
    rw [hm, List.range'_succ]
    simp [h.not_ge]
  · have : ⌈tf / oe⌉₊ - k = 0 := by omega
    rw [this]
    simp [htf.not_ge]

/-- Specification: the planning intervals in which each of the calls at `ts` plans, if it does: a call plans if no call
before it was in its interval. -/
def wanted (oe : K) : K → List K → List (Option ℕ)
  | _, [] => []
  | t, t' :: ts => (if interval oe t < interval oe t' then some (interval oe t') else none) :: wanted oe t' ts

theorem calls_from {tf oe : K} (ho : 0 < oe) : ∀ (ts : List K) (t : K), 0 ≤ t → t < tf → Steps tf oe t ts →
    ∃ s, calls (after tf oe (interval oe t + 1)) ts = some (s, wanted oe t ts) := by
  intro ts
  induction ts with
  | nil => intro t _ _ _; exact ⟨_, rfl⟩
  | cons t' ts ih =>
    rintro t h0 htf ⟨h1, h2, h3, h4⟩
    obtain ⟨a1, a2⟩ := interval_spec ho h0
    obtain ⟨b1, b2⟩ := interval_spec ho (h0.trans h1)
    obtain ⟨s, hs⟩ := ih t' (h0.trans h1) h3 h4
    have hmono : interval oe t ≤ interval oe t' := Nat.floor_le_floor (div_le_div_of_nonneg_right h1 ho.le)
    by_cases hp : interval oe t < interval oe t'
    · have hle : interval oe t' ≤ interval oe t + 1 := by
        have : (interval oe t' : K) * oe < ((interval oe t : K) + 1 + 1) * oe := by linarith
        have := lt_of_mul_lt_mul_right this ho.le
        have : interval oe t' < interval oe t + 1 + 1 := by exact_mod_cast this
        omega
      have he : interval oe t' = interval oe t + 1 := by omega
      have hc := call_plan (tf := tf) (oe := oe) (t := t') (k := interval oe t + 1) (by rw [← he]; exact b1)
        (by rw [← he]; exact ceil_gt ho (b1.trans_lt h3))
      rw [calls, hc]
      rw [he] at hs
      simp only [Option.bind_eq_bind, Option.bind_some, hs]
      exact ⟨s, by rw [wanted, if_pos hp, he]⟩
    · have he : interval oe t' = interval oe t := by omega
      have hc := call_wait (tf := tf) (oe := oe) (t := t') (k := interval oe t + 1) (by
        rw [← he]; push_cast; exact b2) h3
      rw [calls, hc]
      rw [he] at hs
      simp only [Option.bind_eq_bind, Option.bind_some, hs]
      exact ⟨s, by rw [wanted, if_neg hp]⟩

/-- **C137** (part).  If no step is longer than `opt_every`, the schedule never runs out, the first call plans with row 0
of the profiles, and later a call plans exactly if it is the first one in its planning interval, with the row of this
interval.  Missing: longer steps, see `C137_fails_long_steps`. -/
theorem C137_schedule_partial {tf oe t : K} (ho : 0 < oe) (h0 : 0 ≤ t) (h1 : t < oe) (htf : t < tf) (ts : List K)
    (hs : Steps tf oe t ts) : ∃ s, calls (St.init tf oe) (t :: ts) = some (s, some 0 :: wanted oe t ts) := by
  have hi : interval oe t = 0 := by
    rw [interval, Nat.floor_eq_zero, div_lt_one ho]
    exact h1
  obtain ⟨s, he⟩ := calls_from ho ts t h0 htf hs
  rw [hi] at he
  have hc := call_plan (tf := tf) (oe := oe) (t := t) (k := 0) (by simpa using h0) (ceil_gt ho (by
    push_cast; rw [zero_mul]; exact h0.trans_lt htf))
  rw [init_eq, calls, hc]
  simp only [Option.bind_eq_bind, Option.bind_some, he]
  exact ⟨s, rfl⟩

/-- A simulation of 50 minutes with steps of 10, 4, 15 and 14 minutes, planning every 15 minutes. -/
example : Steps (50 : ℚ) 15 0 [10, 14, 29, 43] ∧ wanted (15 : ℚ) 0 [10, 14, 29, 43] = [none, none, some 1, some 2] := by
  refine ⟨?_, by decide +kernel⟩
  norm_num [Steps]

/-- **C137**.  With profiles which pass the checks, each plan has at least one row, and every short-term optimisation
finds the row of the current second (within half a second). -/
theorem C137_rows {tf oe t : K} {n m nc : ℕ} (ho : 0 < oe) (h0 : 0 ≤ t) (htf : t < tf) (hm : 0 < m)
    (hn : longEnough n oe tf) (hc : longEnough nc (1 : K) tf) :
    0 < planLength n m (interval oe t) ∧ (interval oe t + m ≤ n → planLength n m (interval oe t) = m) ∧ 0 ≤ row t ∧
      row t < nc ∧ |t - row t| ≤ 1 / 2 := by
  obtain ⟨a1, -⟩ := interval_spec ho h0
  have hlt : interval oe t < n - 1 := by
    have : (interval oe t : K) * oe < ((n - 1 : ℕ) : K) * oe := a1.trans_lt (htf.trans_le hn)
    exact_mod_cast lt_of_mul_lt_mul_right this ho.le
  have f0 : 0 ≤ ⌊t⌋ := Int.floor_nonneg.2 h0
  have f1 := Int.floor_le t
  have f2 := Int.lt_floor_add_one t
  have hr : ⌊t⌋ < ((nc - 1 : ℕ) : ℤ) := by
    have : t < ((nc - 1 : ℕ) : K) := by
      have := htf.trans_le hc
      rwa [mul_one] at this
    rw [Int.floor_lt]
    exact_mod_cast this
  refine ⟨?_, ?_, ?_, ?_, ?_⟩
  · unfold planLength; omega
  · intro h; unfold planLength; omega
  · unfold row
    split_ifs <;> omega
  · unfold row
    split_ifs <;> omega
  · unfold row
    rw [abs_le]
    split_ifs with c1 c2 c3
    · constructor <;> linarith
    · push_cast
      constructor <;> linarith
    · constructor <;> linarith
    · push_cast
      constructor <;> linarith

example : longEnough 9 (900 : ℚ) 7200 ∧ longEnough 7201 (1 : ℚ) 7200 ∧ row (1799.5 : ℚ) = 1800 ∧ row (1800.5 : ℚ) = 1800 := by
  refine ⟨by norm_num [longEnough], by norm_num [longEnough], by decide +kernel, by decide +kernel⟩

/-- **C137** is false for longer steps, which no check excludes: with steps of `m` planning intervals the call number `j`,
made in interval `j * m`, plans with the profiles of interval `j`. -/
theorem C137_fails_long_steps {tf oe : K} (ho : 0 < oe) {m j : ℕ} (hm : 2 ≤ m) (hj : 0 < j)
    (htf : ((j * m : ℕ) : K) * oe < tf) :
    ∃ s ks, calls (St.init tf oe) ((List.range (j + 1)).map fun i : ℕ => ((i * m : ℕ) : K) * oe) = some (s, ks ++ [some j]) ∧
      interval oe (((j * m : ℕ) : K) * oe) = j * m ∧ j < j * m := by
  have key : ∀ n a, (∀ i < a + n, ((i * m : ℕ) : K) * oe < tf) →
      calls (after tf oe a) ((List.range' a n).map fun i : ℕ => ((i * m : ℕ) : K) * oe) =
        some (after tf oe (a + n), (List.range' a n).map some) := by
    intro n
    induction n with
    | zero => intro a _; rfl
    | succ n ih =>
      intro a hlt
      have h1 := hlt a (by omega)
      have h2 : (a : K) * oe ≤ ((a * m : ℕ) : K) * oe := by
        refine mul_le_mul_of_nonneg_right ?_ ho.le
        exact_mod_cast Nat.le_mul_of_pos_right a (by omega)
      rw [List.range'_succ, List.map_cons, calls, call_plan h2 (ceil_gt ho (h2.trans_lt h1))]
      simp only [Option.bind_eq_bind, Option.bind_some, ih (a + 1) fun i hi => hlt i (by omega)]
      rw [show a + 1 + n = a + (n + 1) by omega]
      rfl
  have hk := key (j + 1) 0 (by
    intro i hi
    refine lt_of_le_of_lt (mul_le_mul_of_nonneg_right ?_ ho.le) htf
    exact_mod_cast Nat.mul_le_mul_right m (by omega : i ≤ j))
  refine ⟨after tf oe (j + 1), (List.range' 0 j).map some, ?_, ?_, ?_⟩
  · rw [init_eq, List.range_eq_range', hk]
    rw [List.range'_concat]
    simp
  · rw [interval, mul_div_assoc, div_self ho.ne', mul_one, Nat.floor_natCast]
  · exact lt_mul_of_one_lt_right hj (by omega)

/-- Planning every 15 minutes with steps of 30 minutes: after 90 minutes the plan is made for the demand after 45. -/
example : (((3 * 2 : ℕ) : ℕ) : ℚ) * 15 < 100 := by norm_num

/-- **C137** is false after a reset: `_reset_to_init_cond` (`controllers.py:1582-1589`) does not touch the schedule, so in
the next simulation no call plans. -/
theorem C137_fails_reset {tf oe : K} {first second : List K} {s : St K} {ks : List (Option ℕ)}
    (_hrun : calls (St.init tf oe) first = some (s, ks)) (hend : s.steps = [tf]) (hts : ∀ t ∈ second, t < tf) :
    calls s second = some (s, second.map fun _ => none) := by
  induction second with
  | nil => rfl
  | cons t ts ih =>
    have hc : call t s = some (s, none) := by
      unfold call
      rw [hend]
      simp [(hts t List.mem_cons_self).not_ge]
    rw [calls, hc]
    simp only [Option.bind_eq_bind, Option.bind_some, ih fun t' ht' => hts t' (List.mem_cons_of_mem _ ht')]
    rfl

/-- After a simulation of 20 with calls at every 5, planning every 10, the schedule is in this state. -/
example : (calls (St.init (20 : ℚ) 10) [0, 5, 10, 15]).map (fun r => (r.1.steps, r.2)) =
    some ([20], [some 0, none, some 1, none]) := by
  decide +kernel

end Verif.Plan

namespace Verif.Resample

variable {K : Type*} [Field K]

/-- **C137**.  If the profiles begin at a multiple of `opt_every` after midnight, row `k` of the resampled profiles is the
mean of the values of planning interval `k`: those with stamps from `k` to `k + 1` times `opt_every` after the begin. -/
theorem C137_profile_partial {f o : ℕ} (hf : 0 < f) (ho : f ∣ o) (l : List (ℕ × K)) (hl : (l.head?.map Prod.fst) = some o)
    {k : ℕ} (hk : first f l + k ≤ last f l) :
    at? (means f l) k = mean ((l.filter fun p => o + k * f ≤ p.1 ∧ p.1 < o + (k + 1) * f).map Prod.snd) := by
  obtain ⟨c, rfl⟩ := ho
  have hfi : first f l = c := by
    rw [first, hl, Option.getD_some, Nat.mul_div_cancel_left c hf]
  rw [hfi] at hk
  have hb : bin f l (c + k) = (l.filter fun p => f * c + k * f ≤ p.1 ∧ p.1 < f * c + (k + 1) * f).map Prod.snd := by
    unfold bin
    congr 1
    refine List.filter_congr fun p _ => ?_
    simp only [decide_eq_decide]
    rw [Nat.div_eq_iff hf]
    constructor
    · rintro ⟨h1, h2⟩
      have e : (c + k) * f + f = f * c + (k + 1) * f := by ring
      have e' : (c + k) * f = f * c + k * f := by ring
      omega
    · rintro ⟨h1, h2⟩
      have e : (c + k) * f + f = f * c + (k + 1) * f := by ring
      have e' : (c + k) * f = f * c + k * f := by ring
      omega
  rw [← hb]
  unfold at? means
  rw [hfi]
  simp [List.getD_eq_getElem?_getD, show k < last f l + 1 - c by omega]

/-- Profiles beginning at 30 after midnight, every 5, averaged over 15: row 1 has the values at 45, 50 and 55. -/
example : at? (means 15 [(30, (1 : ℚ)), (35, 2), (40, 3), (45, 4), (50, 5), (55, 9), (60, 7)]) 1 = some 6 := by
  decide +kernel

/-- **C137** is false for profiles which begin at another time: the end of planning interval `k` counts for row `k + 1`. -/
theorem C137_fails_begin {f o s : ℕ} (hf : 0 < f) (h1 : f - o % f ≤ s) (h2 : s < f) (l : List (ℕ × K))
    (hl : (l.head?.map Prod.fst) = some o) (k : ℕ) : (o + k * f + s) / f = first f l + (k + 1) := by
  rw [first, hl, Option.getD_some]
  have h := Nat.div_add_mod o f
  have hm := Nat.mod_lt o hf
  have e : (o / f + (k + 1)) * f = f * (o / f) + k * f + f := by ring
  rw [Nat.div_eq_iff hf, e]
  omega

/-- Profiles beginning at 5 after midnight, averaged over 15: the value at 15 belongs to the first planning interval (5 to
20 after midnight), but counts for the second row. -/
example : at? (means 15 [(5, (1 : ℚ)), (10, 1), (15, 100), (20, 2)]) 0 = some 1 ∧
    at? (means 15 [(5, (1 : ℚ)), (10, 1), (15, 100), (20, 2)]) 1 = some 51 := by
  decide +kernel

end Verif.Resample
