import Verif.Model.Deadtime
import Mathlib.Tactic.Linarith
import Mathlib.Tactic.Positivity
import Mathlib.Tactic.FieldSimp
import Mathlib.Tactic.NormNum
import Mathlib.Tactic.Ring
import Mathlib.Data.List.Induction
import Mathlib.Data.Rat.Floor

/-!
# C40: dead time of controllers
-/

set_option linter.unusedSectionVars false

namespace Verif.Deadtime

variable {K : Type*} [Field K] [LinearOrder K] [IsStrictOrderedRing K]

theorem first_some {τ : K} {dt : ℕ → K} {len i : ℕ} (h : first τ dt len = some i) :
    i < len ∧ τ ≤ dt i ∧ ∀ j < i, dt j < τ := by
  unfold first at h
  rw [List.find?_range_eq_some] at h
  simp only [decide_eq_true_eq, List.mem_range, Bool.not_eq_eq_eq_not, Bool.not_true, decide_eq_false_iff_not,
    not_le] at h
  exact ⟨h.2.1, h.1, h.2.2⟩

theorem first_none {τ : K} {dt : ℕ → K} {len : ℕ} (h : first τ dt len = none) : ∀ i < len, dt i < τ := by
  unfold first at h
  rw [List.find?_range_eq_none] at h
  simpa using h

theorem first_eq {τ : K} {dt : ℕ → K} {len i : ℕ} (h1 : i < len) (h2 : τ ≤ dt i) (h3 : ∀ j < i, dt j < τ) :
    first τ dt len = some i := by
  unfold first
  rw [List.find?_range_eq_some]
  simp only [decide_eq_true_eq, List.mem_range, Bool.not_eq_eq_eq_not, Bool.not_true, decide_eq_false_iff_not,
    not_le]
  exact ⟨h2, h1, h3⟩

theorem first_eq_none {τ : K} {dt : ℕ → K} {len : ℕ} (h : ∀ i < len, dt i < τ) : first τ dt len = none := by
  unfold first
  rw [List.find?_range_eq_none]
  simpa using h

theorem calls_append (τ : K) (s : St K) (l : List (K × K)) (x : K × K) :
    calls τ s (l ++ [x]) = (calls τ s l).bind fun s => call τ s x := by
  unfold calls
  rw [List.foldlM_append]
  cases h : l.foldlM (call τ) s with
  | none => rfl
  | some t => simp

theorem convex {a b w m M : K} (h0 : 0 ≤ w) (h1 : w ≤ 1) (ha : m ≤ a ∧ a ≤ M) (hb : m ≤ b ∧ b ≤ M) :
    m ≤ a + w * (b - a) ∧ a + w * (b - a) ≤ M := by
  obtain ⟨ha1, ha2⟩ := ha
  obtain ⟨hb1, hb2⟩ := hb
  constructor
  · nlinarith [mul_le_mul_of_nonneg_left hb1 h0, mul_le_mul_of_nonneg_left ha1 (sub_nonneg.2 h1)]
  · nlinarith [mul_le_mul_of_nonneg_left hb2 h0, mul_le_mul_of_nonneg_left ha2 (sub_nonneg.2 h1)]

/-- What is kept between calls: the newest entry is fresh and all values are in the range. -/
def Inv (m M : K) (s : St K) : Prop := s.dt 0 = 0 ∧ (∀ i, m ≤ s.pv i ∧ s.pv i ≤ M) ∧ m ≤ s.delayed ∧ s.delayed ≤ M

theorem call_inv {τ m M : K} (hτ : 0 < τ) {s s' : St K} {hx : K × K} (h0 : 0 < hx.1) (hle : hx.1 ≤ τ)
    (hm : m ≤ hx.2 ∧ hx.2 ≤ M) (hI : Inv m M s) (hc : call τ s hx = some s') : Inv m M s' := by
  obtain ⟨i0, ipv, id⟩ := hI
  unfold call at hc
  dsimp only at hc
  generalize hidx : first τ (fun i => s.dt i + hx.1) s.len = idx at hc
  generalize nextLast s = last at hc
  cases hd : delayedPv τ hx.1 (fun i => s.dt i + hx.1) s.pv s.len idx last s.delayed with
  | none => rw [hd] at hc; simp at hc
  | some d =>
    rw [hd] at hc
    simp only [Option.some.injEq] at hc
    subst hc
    refine ⟨by simp, ?_, ?_⟩
    · intro i
      dsimp only
      split_ifs
      · exact hm
      · exact ipv _
    · dsimp only
      unfold delayedPv at hd
      split at hd
      · obtain ⟨-, h2, -⟩ := first_some hidx
        dsimp only at h2 hd
        rw [i0, zero_add] at h2 hd
        have e : hx.1 = τ := le_antisymm hle h2
        simp only [Option.some.injEq] at hd
        subst hd
        rw [e, div_mul_cancel₀ _ hτ.ne']
        have := ipv 0
        constructor <;> linarith [this.1, this.2]
      · rename_i i
        obtain ⟨-, h2, h3⟩ := first_some hidx
        have h3 := h3 i (by omega)
        simp only [Option.some.injEq] at hd
        subst hd
        split_ifs with he
        · exact ipv _
        · try dsimp only at h2 h3 ⊢
          have hpos : 0 < s.dt (i + 1) + hx.1 - (s.dt i + hx.1) := by linarith
          have e : (s.pv (i + 1) - s.pv i) / (s.dt (i + 1) + hx.1 - (s.dt i + hx.1)) * (τ - (s.dt i + hx.1)) =
              (τ - (s.dt i + hx.1)) / (s.dt (i + 1) + hx.1 - (s.dt i + hx.1)) * (s.pv (i + 1) - s.pv i) := by
            ring
          rw [e]
          refine convex (div_nonneg (by linarith) hpos.le) ?_ (ipv i) (ipv (i + 1))
          rw [div_le_one hpos]
          linarith
      · split_ifs at hd with hlast
        simp only [Option.some.injEq] at hd
        subst hd
        have h3 := first_none hidx last hlast
        try dsimp only at h3 ⊢
        have hpos : 0 < τ - (s.dt last + hx.1 - hx.1) := by linarith
        have e : (s.pv last - s.delayed) / (τ - (s.dt last + hx.1 - hx.1)) * hx.1 =
            hx.1 / (τ - (s.dt last + hx.1 - hx.1)) * (s.pv last - s.delayed) := by ring
        rw [e]
        refine convex (div_nonneg h0.le hpos.le) ?_ id (ipv last)
        rw [div_le_one hpos]
        linarith

/-- **C40**, partial (range): as long as no step is longer than the dead time, the process value that the
controller sees is within the range of the recorded values and the initial value 25, for every sequence of
steps.  Missing: longer steps, for which it is false (`C40_fails_long_step`). -/
theorem C40_range_partial {τ m M : K} (hτ : 0 < τ) (len : ℕ) (l : List (K × K))
    (hl : ∀ x ∈ l, 0 < x.1 ∧ x.1 ≤ τ ∧ m ≤ x.2 ∧ x.2 ≤ M) (h25 : m ≤ 25 ∧ 25 ≤ M) {s : St K}
    (hs : calls τ (init len) l = some s) : m ≤ s.delayed ∧ s.delayed ≤ M := by
  suffices h : Inv m M s from h.2.2
  induction l using List.reverseRecOn generalizing s with
  | nil =>
    simp only [calls, List.foldlM_nil, Option.pure_def, Option.some.injEq] at hs
    subst hs
    exact ⟨rfl, fun _ => h25, h25⟩
  | append_singleton l x ih =>
    rw [calls_append] at hs
    cases hc : calls τ (init len) l with
    | none => rw [hc] at hs; simp at hs
    | some t =>
      rw [hc] at hs
      obtain ⟨h0, hle, hm⟩ := hl x (by simp)
      exact call_inv hτ h0 hle hm (ih (fun y hy => hl y (by simp [hy])) hc) hs

/-- Recorded values 60 and 70, unequal steps, dead time 1 s: the delayed value is between 25 and 70. -/
example : ((calls 1 (init 100) [(3 / 5, 60), (1 / 2, 70), (4 / 5, 70)] : Option (St ℚ)).map St.delayed) =
    some 66 := by decide +kernel

/-! ## Constant steps -/

/-- `k` calls with the constant step `h`; the `j`-th of them has the process value `p j`. -/
def constSteps (h : K) (p : ℕ → K) (k : ℕ) : List (K × K) := (List.range k).map fun j => (h, p (j + 1))

/-- What holds after `k` calls with dead time `n * h`. -/
structure Const (h : K) (p : ℕ → K) (n len k : ℕ) (s : St K) : Prop where
  len_eq : s.len = len
  pv : ∀ i, s.pv i = if i < k then p (k - i) else 25
  dt : ∀ i < len, (k < n ∨ i < n) → s.dt i = (min i k : ℕ) * h
  idx0 : k < n → k = 0 → s.idx = some 0
  idx : k < n → 0 < k → s.idx = none ∧ s.last = k - 1
  delayed : s.delayed = if n < k then p (k - n) else 25

theorem const_step {h : K} (hh : 0 < h) {p : ℕ → K} {n len k : ℕ} (hn : 0 < n) (hlen : n ≤ len) {s : St K}
    (hs : Const h p n len k s) : ∃ s', call (n * h) s (h, p (k + 1)) = some s' ∧ Const h p n len (k + 1) s' := by
  have hpv' : ∀ i, (if i = 0 then p (k + 1) else s.pv (i - 1)) = if i < k + 1 then p (k + 1 - i) else 25 := by
    intro i
    rcases i with _ | i
    · simp
    · simp only [Nat.add_eq_zero_iff, one_ne_zero, and_false, if_false, Nat.add_sub_cancel, hs.pv,
        Nat.add_lt_add_iff_right, Nat.add_sub_add_right]
  by_cases hk : k + 1 < n
  · -- the dead time has not been reached
    have hnone : first (n * h) (fun i => s.dt i + h) s.len = none := by
      refine first_eq_none fun i hi => ?_
      rw [hs.len_eq] at hi
      rw [hs.dt i hi (.inl (by omega))]
      have h1 : ((min i k : ℕ) : K) + 1 ≤ (k + 1 : ℕ) := by
        have : min i k + 1 ≤ k + 1 := by omega
        exact_mod_cast this
      have h2 : ((k + 1 : ℕ) : K) < n := by exact_mod_cast hk
      nlinarith
    have hlast : nextLast s = k := by
      unfold nextLast
      rcases Nat.eq_zero_or_pos k with h0 | h0
      · rw [hs.idx0 (by omega) h0, h0]
      · obtain ⟨a, b⟩ := hs.idx (by omega) h0
        rw [a, b]
        show k - 1 + 1 = k
        omega
    have hd : s.delayed = 25 := by rw [hs.delayed, if_neg (by omega)]
    have hpk : s.pv k = 25 := by rw [hs.pv, if_neg (lt_irrefl k)]
    have hc : call (n * h) s (h, p (k + 1)) = some
        { s with
          dt := fun i => if i = 0 then 0 else (if s.len - 1 ≤ i - 1 then 0 else s.dt (i - 1) + h)
          pv := fun i => if i = 0 then p (k + 1) else s.pv (i - 1)
          idx := none
          last := k
          delayed := 25 } := by
      unfold call
      dsimp only
      rw [hnone, hlast]
      simp only [delayedPv, hs.len_eq, show k < len by omega, if_true, hd, hpk, sub_self, zero_div, zero_mul, add_zero,
        Option.getD_none]
    refine ⟨_, hc, hs.len_eq, hpv', ?_, ?_, ?_, ?_⟩
    · intro i hi _
      dsimp only
      rcases i with _ | i
      · simp
      · rw [if_neg (by omega), if_neg (by rw [hs.len_eq]; omega), Nat.add_sub_cancel,
          hs.dt i (by omega) (.inl (by omega))]
        have : min (i + 1) (k + 1) = min i k + 1 := by omega
        rw [this]
        push_cast
        ring
    · intro _ h0; omega
    · intro _ _; exact ⟨rfl, rfl⟩
    · rw [if_neg (by omega)]
  · -- the entry that is `n` steps old is found
    have hfirst : first (n * h) (fun i => s.dt i + h) s.len = some (n - 1) := by
      refine first_eq (by rw [hs.len_eq]; omega) ?_ ?_
      · try dsimp only
        rw [hs.dt (n - 1) (by omega) (.inr (by omega))]
        have : min (n - 1) k = n - 1 := by omega
        rw [this, Nat.cast_sub (by omega)]
        push_cast
        linarith
      · intro j hj
        rw [hs.dt j (by omega) (.inr (by omega))]
        have h1 : ((min j k : ℕ) : K) + 1 + 1 ≤ n := by
          have : min j k + 1 + 1 ≤ n := by omega
          exact_mod_cast this
        nlinarith
    have hdt : s.dt (n - 1) + h = n * h := by
      rw [hs.dt (n - 1) (by omega) (.inr (by omega))]
      have : min (n - 1) k = n - 1 := by omega
      rw [this, Nat.cast_sub (by omega)]
      push_cast
      ring
    have hval : delayedPv (n * h) h (fun i => s.dt i + h) s.pv s.len (some (n - 1))
        (nextLast s) s.delayed = some (s.pv (n - 1)) := by
      unfold delayedPv
      rcases n with _ | n
      · omega
      · rcases n with _ | n
        · simp only [Nat.sub_self, Nat.zero_add] at hdt ⊢
          have h0 : s.dt 0 = 0 := by
            have := hs.dt 0 (by omega) (.inr (by omega))
            simpa using this
          simp only [Nat.cast_one, one_mul, h0, zero_add, Option.some.injEq]
          field_simp
          ring
        · simp only [Nat.add_sub_cancel] at hdt ⊢
          rw [if_pos hdt]
    have hc : call (n * h) s (h, p (k + 1)) = some
        { s with
          dt := fun i => if i = 0 then 0 else (if n - 1 ≤ i - 1 then 0 else s.dt (i - 1) + h)
          pv := fun i => if i = 0 then p (k + 1) else s.pv (i - 1)
          idx := some (n - 1)
          last := nextLast s
          delayed := s.pv (n - 1) } := by
      unfold call
      dsimp only
      rw [hfirst, hval]
      rfl
    refine ⟨_, hc, hs.len_eq, hpv', ?_, ?_, ?_, ?_⟩
    · intro i hi hor
      have hi' : i < n := by omega
      dsimp only
      rcases i with _ | i
      · simp
      · rw [if_neg (by omega), if_neg (by omega), Nat.add_sub_cancel, hs.dt i (by omega) (.inr (by omega))]
        have : min (i + 1) (k + 1) = min i k + 1 := by omega
        rw [this]
        push_cast
        ring
    · intro h0; omega
    · intro h0; omega
    · dsimp only
      rw [hs.pv]
      by_cases hkn : n < k + 1
      · rw [if_pos (by omega), if_pos hkn]
        congr 1
        omega
      · rw [if_neg (by omega), if_neg hkn]

/-- **C40** (delay): with a constant step that divides the dead time, the value that the controller sees in call
`k` is the process value of the call exactly one dead time before, and the initial value 25 as long as there is
no such call.  The arrays are long enough if the step is at least 0.01 s (`C40_enough_space`). -/
theorem C40_exact_delay {h : K} (hh : 0 < h) (p : ℕ → K) {n len : ℕ} (hn : 0 < n) (hlen : n ≤ len) (k : ℕ) :
    ∃ s, calls (n * h) (init len) (constSteps h p k) = some s ∧
      s.delayed = if n < k then p (k - n) else 25 := by
  suffices H : ∃ s, calls (n * h) (init len) (constSteps h p k) = some s ∧ Const h p n len k s by
    obtain ⟨s, a, b⟩ := H
    exact ⟨s, a, b.delayed⟩
  induction k with
  | zero =>
    refine ⟨init len, rfl, rfl, ?_, ?_, ?_, ?_, ?_⟩
    · intro i; simp [init]
    · intro i _ _; simp [init]
    · intro _ _; rfl
    · intro _ h0; omega
    · simp [init]
  | succ k ih =>
    obtain ⟨s, hs, hc⟩ := ih
    obtain ⟨s', h1, h2⟩ := const_step hh hn hlen hc
    refine ⟨s', ?_, h2⟩
    have : constSteps h p (k + 1) = constSteps h p k ++ [(h, p (k + 1))] := by
      unfold constSteps
      rw [List.range_succ, List.map_append, List.map_singleton]
    rw [this, calls_append, hs]
    exact h1

/-- A controller with dead time in a simulation: one call after the other. -/
def ctlRun (τ : K) (c : Controls.Cfg K) (l : Controls.Law K) (s : Ctl K) (is : List (Controls.Inp K)) : Option (Ctl K) :=
  is.foldlM (fun s i => s.ctrl τ c l i) s

/-- **C40** (controller): with a constant step that divides the dead time, a controller with dead time does in every
call what a controller without dead time would do whose error is formed with the process value of one dead time
before, and with 25 degrees as long as there is none. -/
theorem C40_controller {h : K} (hh : 0 < h) (c : Controls.Cfg K) (l : Controls.Law K) (act : K) (i : ℕ → Controls.Inp K)
    (hi : ∀ j, (i j).dt = h) {n len : ℕ} (hn : 0 < n) (hlen : n ≤ len) (k : ℕ) :
    ∃ s, ctlRun (n * h) c l ⟨.init act, init len⟩ ((List.range k).map fun j => i (j + 1)) = some s ∧
      s.st = Controls.calls c (l.run c) (.init act) ((List.range k).map fun j =>
        { i (j + 1) with error := (i (j + 1)).sp - if n < j + 1 then (i (j + 1 - n)).pv else 25 }) := by
  suffices H : ∃ s, ctlRun (n * h) c l ⟨.init act, init len⟩ ((List.range k).map fun j => i (j + 1)) = some s ∧
      s.st = Controls.calls c (l.run c) (.init act) ((List.range k).map fun j =>
        { i (j + 1) with error := (i (j + 1)).sp - if n < j + 1 then (i (j + 1 - n)).pv else 25 }) ∧
      calls (n * h) (init len) (constSteps h (fun j => (i j).pv) k) = some s.dead by
    obtain ⟨s, a, b, -⟩ := H
    exact ⟨s, a, b⟩
  induction k with
  | zero => exact ⟨_, rfl, rfl, rfl⟩
  | succ k ih =>
    obtain ⟨s, h1, h2, h3⟩ := ih
    obtain ⟨d, h4, h5⟩ := C40_exact_delay hh (fun j => (i j).pv) hn hlen (k + 1)
    have hc : constSteps h (fun j => (i j).pv) (k + 1) =
        constSteps h (fun j => (i j).pv) k ++ [(h, (i (k + 1)).pv)] := by
      unfold constSteps
      rw [List.range_succ, List.map_append, List.map_singleton]
    have h6 : call (n * h) s.dead ((i (k + 1)).dt, (i (k + 1)).pv) = some d := by
      rw [hc, calls_append, h3] at h4
      rw [hi]
      exact h4
    refine ⟨⟨Controls.ctrl c (l.run c) { i (k + 1) with error := (i (k + 1)).sp - d.delayed } s.st, d⟩, ?_, ?_, h4⟩
    · unfold ctlRun at h1 ⊢
      rw [List.range_succ, List.map_append, List.map_singleton, List.foldlM_append, h1]
      simp [Ctl.ctrl, h6]
    · rw [List.range_succ, List.map_append, List.map_singleton, h5, h2]
      simp [Controls.calls]

/-- **C40** (space): the arrays that the constructor makes hold a dead time of `n` steps if the steps are not
shorter than 0.01 s. -/
theorem C40_enough_space [FloorSemiring K] {h : K} {n : ℕ} (hh : 1 / 100 ≤ h) : n ≤ arrLen (n * h) := by
  unfold arrLen
  have : (n : K) ≤ n * h * 100 := by
    have h1 : (0 : K) ≤ n := Nat.cast_nonneg n
    nlinarith
  exact_mod_cast this.trans (Nat.le_ceil _)

/-- Dead time 3 s, steps of 1 s: call 5 sees the value of call 2. -/
example : ((calls (3 * 1) (init 300) [(1, 40), (1, 50), (1, 60), (1, 70), (1, 80)] : Option (St ℚ)).map St.delayed) =
    some 50 := by decide +kernel

/-- **C40** is false of the code for a step longer than the dead time: it extrapolates.  With a dead time of 1 s, a
step of 10 s and a process value that has been 60 degrees throughout, the controller sees 375 degrees. -/
theorem C40_fails_long_step :
    ((calls 1 (init 100) [(1, 60), (10, 60)] : Option (St ℚ)).map St.delayed) = some 375 := by
  decide +kernel

/-- **C40** is false of the code for many short steps: with a dead time of 0.1 s and steps of 0.005 s the code reads
beyond the end of its arrays in call 11. -/
theorem C40_fails_short_steps :
    arrLen (1 / 10 : ℚ) = 10 ∧
    (calls (1 / 10) (init 10) (List.replicate 10 (1 / 200, 60)) : Option (St ℚ)).isSome = true ∧
    (calls (1 / 10) (init 10) (List.replicate 11 (1 / 200, 60)) : Option (St ℚ)).isSome = false := by
  refine ⟨?_, by decide +kernel, by decide +kernel⟩
  unfold arrLen
  norm_num

/-- **C40** is false of the code for bang-bang and two-sensor controllers: they compare the current process value;
the error formed with the delayed one has no influence on them. -/
theorem C40_fails_switching (l : Controls.Law K) (hl : ∀ p, l ≠ .pid p) (c : Controls.Cfg K) (i : Controls.Inp K)
    (e : K) (s : Controls.St K) :
    (Controls.ctrl c (l.run c) { i with error := e } s).cv = (Controls.ctrl c (l.run c) i s).cv ∧
    (Controls.ctrl c (l.run c) { i with error := e } s).act = (Controls.ctrl c (l.run c) i s).act := by
  have hs : ∃ x : K, Controls.shift c { i with error := e } s = { Controls.shift c i s with error := x } := ⟨e, rfl⟩
  obtain ⟨x, hs⟩ := hs
  have hr : ∃ y : K, l.run c { i with error := e } (Controls.shift c { i with error := e } s) =
      { l.run c i (Controls.shift c i s) with error := y } := by
    rw [hs]
    cases l with
    | pid p => exact absurd rfl (hl p)
    | bang h =>
      have ho : Controls.offByMaster c { i with error := e } = Controls.offByMaster c i := rfl
      simp only [Controls.Law.run, Controls.bangBang, Controls.bangBangLaw, Controls.subCheck, ho]
      by_cases hm : Controls.offByMaster c i = true
      · rw [if_pos hm, if_pos hm]; exact ⟨_, rfl⟩
      · rw [if_neg hm, if_neg hm]; exact ⟨_, rfl⟩
    | two t =>
      have ho : Controls.offByMaster c { i with error := e } = Controls.offByMaster c i := rfl
      simp only [Controls.Law.run, Controls.Two.run, Controls.Two.law, Controls.subCheck, ho]
      by_cases hm : Controls.offByMaster c i = true
      · rw [if_pos hm, if_pos hm]; exact ⟨_, rfl⟩
      · rw [if_neg hm, if_neg hm]; exact ⟨_, rfl⟩
  obtain ⟨y, hr⟩ := hr
  unfold Controls.ctrl
  rw [hr]
  unfold Controls.slopeLimit Controls.processDirect
  cases c.slope <;> exact ⟨rfl, rfl⟩

/-- **C42** is false of the code for controllers with a dead time: the recorded values survive the reset.  A
proportional controller with a dead time of 1 s that saw 60 degrees before the reset first reacts to those 60
degrees, a new one to the initial value 25. -/
theorem C42_fails_deadtime :
    let c : Controls.Cfg ℚ := ⟨-100, 100, -100, 100, 0, none, false, none, true, false⟩
    let l : Controls.Law ℚ := .pid ⟨1, 0, 0, none, none⟩
    let i : Controls.Inp ℚ := ⟨1, 50, 60, 0, 0, false⟩
    let new : Ctl ℚ := ⟨.init 0, init 100⟩
    ((new.ctrl 1 c l i).map (·.st.cv)) = some 25 ∧
    (((new.ctrl 1 c l i).bind fun s => (s.reset).ctrl 1 c l i).map (·.st.cv)) = some (-10) := by
  decide +kernel

end Verif.Deadtime
