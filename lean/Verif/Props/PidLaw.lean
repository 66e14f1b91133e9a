import Verif.Model.Controls
import Mathlib.Tactic.Ring
import Mathlib.Tactic.Linarith
import Mathlib.Tactic.FieldSimp
import Mathlib.Data.Rat.Floor
import Mathlib.Data.List.Induction

/-!
# C89: a PID controller computes the PID law

The law is stated for the whole history of calls: the error of the last call, the sum of step times error of all
calls, and the difference of the last two errors.
-/

set_option linter.unusedSectionVars false

namespace Verif.Controls

variable {K : Type*} [Field K] [LinearOrder K] [IsStrictOrderedRing K]

/-- Integral of the error over the calls. -/
def errorSum (is : List (Inp K)) : K := (is.map fun i => i.dt * i.error).sum

/-- Error of the last call, 0 before the first call. -/
def lastError (is : List (Inp K)) : K := (is.getLast?.map (·.error)).getD 0

/-- PID law after the calls `is` and the call `i`. -/
def pidLaw (p : Pid K) (is : List (Inp K)) (i : Inp K) : K :=
  p.kp * i.error + p.ki * errorSum (is ++ [i]) + p.kd * ((i.error - lastError is) / i.dt)

/-- A number within the limits of the anti-windup. -/
def WithinAw (aw : Option K) (x : K) : Prop := ∀ a, aw = some a → -a ≤ x ∧ x ≤ a

theorem clipAw_within {aw : Option K} {x : K} (h : WithinAw aw x) : clipAw aw x = x := by
  unfold clipAw
  cases aw with
  | none => rfl
  | some a =>
    have := h a rfl
    simp [not_lt.2 this.1, not_lt.2 this.2]

theorem clipSat_within {c : Cfg K} {x : K} (h : c.satMin ≤ x ∧ x ≤ c.satMax) : clipSat c x = x := by
  simp [clipSat, not_lt.2 h.1, not_lt.2 h.2]

theorem lastError_concat (is : List (Inp K)) (i : Inp K) : lastError (is ++ [i]) = i.error := by
  simp [lastError]

theorem errorSum_concat (is : List (Inp K)) (i : Inp K) : errorSum (is ++ [i]) = errorSum is + i.dt * i.error := by
  simp [errorSum]

/-- A controller which is neither limited in slope nor controlled by a master, and keeps a history. -/
structure Plain (c : Cfg K) : Prop where
  slope : c.slope = none
  sub : c.sub = none
  steady : c.steady = false

/-- One call. -/
theorem ctrl_plain {c : Cfg K} (hc : Plain c) (p : Pid K) (i : Inp K) (s : St K) :
    ctrl c (p.run c) i s = processDirect c (p.law c i (shift c i s)) := by
  unfold ctrl Pid.run subCheck slopeLimit offByMaster
  rw [hc.slope, hc.sub]
  simp

/-- **C89** (continuous time): after every history of calls the control value is the PID law of the history, limited
to the saturation, as long as the integral stays within the anti-windup. -/
theorem C89_continuous {c : Cfg K} (hc : Plain c) (hd : c.discrete = false) {p : Pid K} (hrc : p.rc = none) (act : K)
    {is : List (Inp K)} {i : Inp K} (haw : ∀ l, l <+: is ++ [i] → WithinAw p.aw (errorSum l)) :
    (calls c (p.run c) (St.init act) (is ++ [i])).cv = clipSat c (pidLaw p is i * inv c) := by
  have key : ∀ is : List (Inp K), (∀ l, l <+: is → WithinAw p.aw (errorSum l)) →
      (calls c (p.run c) (St.init act) is).error = lastError is ∧
      (calls c (p.run c) (St.init act) is).iTerm = errorSum is := by
    intro is
    induction is using List.reverseRecOn with
    | nil => intro _; simp [calls, St.init, lastError, errorSum]
    | append_singleton is i ih =>
      intro h
      obtain ⟨-, h2⟩ := ih fun l hl => h l (hl.trans (List.prefix_append _ _))
      have e : calls c (p.run c) (St.init act) (is ++ [i]) =
          ctrl c (p.run c) i (calls c (p.run c) (St.init act) is) := by simp [calls]
      rw [e, ctrl_plain hc]
      simp only [processDirect, Pid.law, hd, shift, hc.steady, h2, lastError_concat]
      refine ⟨by simp, ?_⟩
      have := clipAw_within (h _ List.prefix_rfl)
      rw [errorSum_concat] at this ⊢
      simpa [add_comm] using this
  obtain ⟨k1, k2⟩ := key is fun l hl => haw l (hl.trans (List.prefix_append _ _))
  have e : calls c (p.run c) (St.init act) (is ++ [i]) =
      ctrl c (p.run c) i (calls c (p.run c) (St.init act) is) := by simp [calls]
  rw [e, ctrl_plain hc]
  have h3 := clipAw_within (haw _ List.prefix_rfl)
  rw [errorSum_concat, add_comm] at h3
  simp only [processDirect, Pid.law, hd, shift, hc.steady, k1, k2, Pid.filter, hrc, pidLaw, errorSum_concat]
  simp [h3, add_comm]

example : Plain (⟨0, 100, 0, 100, 0, none, false, none, false, false⟩ : Cfg ℚ) := ⟨rfl, rfl, rfl⟩

example : (calls (⟨0, 100, 0, 100, 0, none, false, none, false, false⟩ : Cfg ℚ)
    ((⟨2, 1, 4, some 50, none⟩ : Pid ℚ).run ⟨0, 100, 0, 100, 0, none, false, none, false, false⟩) (St.init 0)
    [⟨1, 0, 0, 3, 0, false⟩, ⟨2, 0, 0, 5, 0, false⟩]).cv = 2 * 5 + 1 * (1 * 3 + 2 * 5) + 4 * ((5 - 3) / 2) := by
  decide +kernel

/-- **C89** (`_partial`: discrete time, steps of equal length): the velocity algorithm of the discrete time controller
also gives the PID law, as long as no limit is reached.  Missing: steps of different length, for which it is false
(`C89_fails_variable_steps`). -/
theorem C89_discrete_partial {c : Cfg K} (hc : Plain c) (hd : c.discrete = true) {p : Pid K} (hrc : p.rc = none)
    (hki : p.ki ≠ 0) (act : K) {h : K} (hh : h ≠ 0) {is : List (Inp K)} {i : Inp K} (hdt : ∀ x ∈ is ++ [i], x.dt = h)
    (hlim : ∀ l x, l ++ [x] <+: is ++ [i] →
      (c.satMin ≤ pidLaw p l x ∧ pidLaw p l x ≤ c.satMax) ∧ WithinAw p.aw (pidLaw p l x))
    (haw0 : WithinAw p.aw 0) :
    (calls c (p.run c) (St.init act) (is ++ [i])).cv = pidLaw p is i := by
  have key : ∀ is : List (Inp K), (∀ x ∈ is, x.dt = h) →
      (∀ l x, l ++ [x] <+: is →
        (c.satMin ≤ pidLaw p l x ∧ pidLaw p l x ≤ c.satMax) ∧ WithinAw p.aw (pidLaw p l x)) →
      (calls c (p.run c) (St.init act) is).error = lastError is ∧
      (calls c (p.run c) (St.init act) is).prevError = lastError is.dropLast ∧
      (calls c (p.run c) (St.init act) is).cv =
        p.kp * lastError is + p.ki * errorSum is + p.kd * ((lastError is - lastError is.dropLast) / h) ∧
      WithinAw p.aw (calls c (p.run c) (St.init act) is).cv := by
    intro is
    induction is using List.reverseRecOn with
    | nil => intro _ _; simpa [calls, St.init, lastError, errorSum] using haw0
    | append_singleton is i ih =>
      intro h1 h2
      obtain ⟨a1, a2, a3, a4⟩ := ih (fun x hx => h1 x (List.mem_append_left _ hx))
        fun l x hl => h2 l x (hl.trans (List.prefix_append _ _))
      have e : calls c (p.run c) (St.init act) (is ++ [i]) =
          ctrl c (p.run c) i (calls c (p.run c) (St.init act) is) := by simp [calls]
      have hi : i.dt = h := h1 i (by simp)
      obtain ⟨b1, b2⟩ := h2 is i List.prefix_rfl
      have val : clipAw p.aw (calls c (p.run c) (St.init act) is).cv + p.kp * (i.error - lastError is)
          + p.ki * h * i.error + p.kd / h * (i.error - 2 * lastError is + lastError is.dropLast) = pidLaw p is i := by
        rw [clipAw_within a4, a3, pidLaw, errorSum_concat, hi]
        field_simp
        ring
      have cv : (calls c (p.run c) (St.init act) (is ++ [i])).cv = pidLaw p is i := by
        rw [e, ctrl_plain hc]
        simp only [processDirect, Pid.law, hd, shift, hc.steady, Pid.filter, hrc, if_true, a1, a2, hi, ne_eq,
          Bool.false_eq_true, if_false]
        rw [if_pos hki]
        simp only [val, clipSat_within b1]
      refine ⟨?_, ?_, ?_, by rw [cv]; exact b2⟩
      · rw [e, ctrl_plain hc]
        simp [processDirect, Pid.law, hd, shift, hc.steady, hki, lastError_concat]
      · rw [e, ctrl_plain hc]
        simp [processDirect, Pid.law, hd, shift, hc.steady, hki, a1]
      · rw [cv, pidLaw, lastError_concat, List.dropLast_concat, hi]
  have := (key (is ++ [i]) hdt hlim).2.2.1
  rw [this, pidLaw, lastError_concat, List.dropLast_concat, hdt i (by simp)]

example : (calls (⟨0, 100, 0, 100, 0, none, false, none, true, false⟩ : Cfg ℚ)
    ((⟨2, 1, 4, some 50, none⟩ : Pid ℚ).run ⟨0, 100, 0, 100, 0, none, false, none, true, false⟩) (St.init 0)
    [⟨2, 0, 0, 3, 0, false⟩, ⟨2, 0, 0, 5, 0, false⟩]).cv = 2 * 5 + 1 * (2 * 3 + 2 * 5) + 4 * ((5 - 3) / 2) := by
  decide +kernel

/-- **C89** fails for steps of different length, as every adaptive simulation has: the error is constant during a
step of 1 s and one of 2 s, so that the derivative is zero at the end, but half of the first kick of the derivative
part stays in the control value for good. -/
theorem C89_fails_variable_steps :
    let c : Cfg ℚ := ⟨0, 100, 0, 100, 0, none, false, none, true, false⟩
    let p : Pid ℚ := ⟨1, 1, 8, none, none⟩
    let is : List (Inp ℚ) := [⟨1, 0, 0, 2, 0, false⟩]
    let i : Inp ℚ := ⟨2, 0, 0, 2, 0, false⟩
    pidLaw p is i = 8 ∧ (calls c (p.run c) (St.init 0) (is ++ [i])).cv = 16 := by
  decide +kernel

/-! ## The filter of the derivative -/

/-- Specification: `y` is what a low pass of first order with the time constant `r` makes of the derivative of the error
in steps of length `h` (backward differences): `r y' + y` is the derivative of the error.  `y l` belongs to the end of
the calls `l`. -/
def LowPass (r h : K) (y : List (Inp K) → K) : Prop :=
  y [] = 0 ∧ ∀ l x, r * ((y (l ++ [x]) - y l) / h) + y (l ++ [x]) = (x.error - lastError l) / h

/-- There is such a low pass. -/
theorem exists_lowPass {r h : K} (hr : 0 ≤ r) (hh : 0 < h) : ∃ y : List (Inp K) → K, LowPass r h y := by
  have hs : r + h ≠ 0 := (add_pos_of_nonneg_of_pos hr hh).ne'
  refine ⟨fun l => (l.foldl (fun q x => (((x.error - q.2) + r * q.1) / (r + h), x.error)) (0, 0)).1, rfl, fun l x => ?_⟩
  have h2 : (l.foldl (fun q (x : Inp K) => (((x.error - q.2) + r * q.1) / (r + h), x.error)) ((0 : K), (0 : K))).2 =
      lastError l := by
    rcases List.eq_nil_or_concat l with rfl | ⟨l, z, rfl⟩
    · rfl
    · simp [lastError]
  simp only [List.foldl_append, List.foldl_cons, List.foldl_nil, h2]
  field_simp
  ring

theorem filter_eq {p : Pid K} {i : Inp K} {s : St K} {d h z : K} (hr : 0 ≤ p.rc.getD 0) (hh : 0 < h) (hi : i.dt = h)
    (hz : p.rc.getD 0 * (z - s.deriv) + h * z = h * d) : p.filter i s d = z := by
  have hs : p.rc.getD 0 + h ≠ 0 := (add_pos_of_nonneg_of_pos hr hh).ne'
  unfold Pid.filter
  cases hrc : p.rc with
  | none =>
    rw [hrc] at hz
    simp only [Option.getD_none, zero_mul, zero_add] at hz
    exact (mul_left_cancel₀ hh.ne' hz).symm
  | some r =>
    rw [hrc] at hz hs
    simp only [Option.getD_some] at hz hs
    simp only [hi]
    field_simp
    linarith

theorem LowPass.step {r h : K} {y : List (Inp K) → K} (hy : LowPass r h y) (hh : 0 < h) (l : List (Inp K)) (x : Inp K) :
    r * (y (l ++ [x]) - y l) + h * y (l ++ [x]) = x.error - lastError l := by
  have h1 := hy.2 l x
  field_simp at h1
  linarith

/-- **C89** (`_partial`: continuous time, steps of equal length): with a filter the derivative part is the derivative of
the error after a low pass of first order with the time constant of the filter.  Missing: steps of different length
(`C89_fails_filter_steps`). -/
theorem C89_filtered_partial {c : Cfg K} (hc : Plain c) (hd : c.discrete = false) {p : Pid K} (hr : 0 ≤ p.rc.getD 0)
    (act : K) {h : K} (hh : 0 < h) {is : List (Inp K)} {i : Inp K} (hdt : ∀ x ∈ is ++ [i], x.dt = h)
    (haw : ∀ l, l <+: is ++ [i] → WithinAw p.aw (errorSum l)) {y : List (Inp K) → K} (hy : LowPass (p.rc.getD 0) h y) :
    (calls c (p.run c) (St.init act) (is ++ [i])).cv =
      clipSat c ((p.kp * i.error + p.ki * errorSum (is ++ [i]) + p.kd * y (is ++ [i])) * inv c) := by
  have filt : ∀ (l : List (Inp K)) (x : Inp K) (s : St K), x.dt = h → s.deriv = h * y l →
      p.filter x s (x.error - lastError l) = h * y (l ++ [x]) := by
    intro l x s hx hs
    apply filter_eq hr hh hx
    rw [hs, ← hy.step hh l x]
    ring
  have key : ∀ is : List (Inp K), (∀ x ∈ is, x.dt = h) → (∀ l, l <+: is → WithinAw p.aw (errorSum l)) →
      (calls c (p.run c) (St.init act) is).error = lastError is ∧
      (calls c (p.run c) (St.init act) is).iTerm = errorSum is ∧
      (calls c (p.run c) (St.init act) is).deriv = h * y is := by
    intro is
    induction is using List.reverseRecOn with
    | nil => intro _ _; simp [calls, St.init, lastError, errorSum, hy.1]
    | append_singleton is i ih =>
      intro h1 h2
      obtain ⟨a1, a2, a3⟩ := ih (fun x hx => h1 x (List.mem_append_left _ hx))
        fun l hl => h2 l (hl.trans (List.prefix_append _ _))
      have e : calls c (p.run c) (St.init act) (is ++ [i]) =
          ctrl c (p.run c) i (calls c (p.run c) (St.init act) is) := by simp [calls]
      rw [e, ctrl_plain hc]
      simp only [processDirect, Pid.law, hd, shift, hc.steady, a1, a2, lastError_concat, Bool.false_eq_true, if_false]
      refine ⟨trivial, ?_, ?_⟩
      · have := clipAw_within (h2 _ List.prefix_rfl)
        rw [errorSum_concat] at this ⊢
        simpa [add_comm] using this
      · exact filt is i _ (h1 i (by simp)) a3
  obtain ⟨k1, k2, k3⟩ := key is (fun x hx => hdt x (List.mem_append_left _ hx))
    fun l hl => haw l (hl.trans (List.prefix_append _ _))
  have e : calls c (p.run c) (St.init act) (is ++ [i]) =
      ctrl c (p.run c) i (calls c (p.run c) (St.init act) is) := by simp [calls]
  rw [e, ctrl_plain hc]
  have h3 := clipAw_within (haw _ List.prefix_rfl)
  rw [errorSum_concat, add_comm] at h3
  have hi := hdt i (by simp)
  simp only [processDirect, Pid.law, hd, shift, hc.steady, k1, k2, Bool.false_eq_true, if_false]
  rw [filt is i _ hi, hi, mul_div_cancel_left₀ _ hh.ne', errorSum_concat]
  · rw [hi] at h3
    rw [h3, hi, add_comm (errorSum is)]
  · exact k3

/-- **C89** (`_partial`: discrete time without integral part, steps of equal length). -/
theorem C89_discrete_pd_partial {c : Cfg K} (hc : Plain c) (hd : c.discrete = true) {p : Pid K}
    (hr : 0 ≤ p.rc.getD 0) (hki : p.ki = 0) (act : K) {h : K} (hh : 0 < h) {is : List (Inp K)} {i : Inp K}
    (hdt : ∀ x ∈ is ++ [i], x.dt = h) {y : List (Inp K) → K} (hy : LowPass (p.rc.getD 0) h y) :
    (calls c (p.run c) (St.init act) (is ++ [i])).cv = clipSat c (p.kp * i.error + p.kd * y (is ++ [i])) := by
  have filt : ∀ (l : List (Inp K)) (x : Inp K) (s : St K), x.dt = h → s.deriv = h * y l →
      p.filter x s (x.error - lastError l) = h * y (l ++ [x]) := by
    intro l x s hx hs
    apply filter_eq hr hh hx
    rw [hs, ← hy.step hh l x]
    ring
  have key : ∀ is : List (Inp K), (∀ x ∈ is, x.dt = h) →
      (calls c (p.run c) (St.init act) is).error = lastError is ∧
      (calls c (p.run c) (St.init act) is).deriv = h * y is := by
    intro is
    induction is using List.reverseRecOn with
    | nil => intro _; simp [calls, St.init, lastError, hy.1]
    | append_singleton is i ih =>
      intro h1
      obtain ⟨a1, a3⟩ := ih fun x hx => h1 x (List.mem_append_left _ hx)
      have e : calls c (p.run c) (St.init act) (is ++ [i]) =
          ctrl c (p.run c) i (calls c (p.run c) (St.init act) is) := by simp [calls]
      rw [e, ctrl_plain hc]
      simp only [processDirect, Pid.law, hd, shift, hc.steady, a1, lastError_concat, Bool.false_eq_true, if_false,
        if_true, hki, ne_eq, not_true_eq_false]
      exact ⟨trivial, filt is i _ (h1 i (by simp)) a3⟩
  obtain ⟨k1, k3⟩ := key is fun x hx => hdt x (List.mem_append_left _ hx)
  have e : calls c (p.run c) (St.init act) (is ++ [i]) =
      ctrl c (p.run c) i (calls c (p.run c) (St.init act) is) := by simp [calls]
  rw [e, ctrl_plain hc]
  have hi := hdt i (by simp)
  simp only [processDirect, Pid.law, hd, shift, hc.steady, k1, Bool.false_eq_true, if_false, if_true, hki, ne_eq,
    not_true_eq_false]
  rw [filt is i _ hi, hi]
  · congr 2
    field_simp
  · exact k3

/-- **C89** (`_partial`: discrete time with filter, steps of equal length): the velocity algorithm with a filter gives
the law with the filtered derivative, as long as no limit is reached. -/
theorem C89_discrete_filtered_partial {c : Cfg K} (hc : Plain c) (hd : c.discrete = true) {p : Pid K}
    (hr : 0 ≤ p.rc.getD 0) (hki : p.ki ≠ 0) (act : K) {h : K} (hh : 0 < h) {y : List (Inp K) → K}
    (hy : LowPass (p.rc.getD 0) h y) (haw0 : WithinAw p.aw 0) {is : List (Inp K)} (hdt : ∀ x ∈ is, x.dt = h)
    (hlim : ∀ l, l ≠ [] → l <+: is →
      (c.satMin ≤ p.kp * lastError l + p.ki * errorSum l + p.kd * y l ∧
        p.kp * lastError l + p.ki * errorSum l + p.kd * y l ≤ c.satMax) ∧
      WithinAw p.aw (p.kp * lastError l + p.ki * errorSum l + p.kd * y l)) :
    (calls c (p.run c) (St.init act) is).cv = p.kp * lastError is + p.ki * errorSum is + p.kd * y is := by
  have key : ∀ is : List (Inp K), (∀ x ∈ is, x.dt = h) → (∀ l, l ≠ [] → l <+: is →
      (c.satMin ≤ p.kp * lastError l + p.ki * errorSum l + p.kd * y l ∧
        p.kp * lastError l + p.ki * errorSum l + p.kd * y l ≤ c.satMax) ∧
      WithinAw p.aw (p.kp * lastError l + p.ki * errorSum l + p.kd * y l)) →
      (calls c (p.run c) (St.init act) is).error = lastError is ∧
      (calls c (p.run c) (St.init act) is).prevError = lastError is.dropLast ∧
      (calls c (p.run c) (St.init act) is).deriv = h * (y is - y is.dropLast) ∧
      (calls c (p.run c) (St.init act) is).cv = p.kp * lastError is + p.ki * errorSum is + p.kd * y is ∧
      WithinAw p.aw (calls c (p.run c) (St.init act) is).cv := by
    intro is
    induction is using List.reverseRecOn with
    | nil => intro _ _; simpa [calls, St.init, lastError, errorSum, hy.1] using haw0
    | append_singleton is i ih =>
      intro h1 h2
      obtain ⟨a1, a2, a3, a4, a5⟩ := ih (fun x hx => h1 x (List.mem_append_left _ hx))
        fun l hl0 hl => h2 l hl0 (hl.trans (List.prefix_append _ _))
      have e : calls c (p.run c) (St.init act) (is ++ [i]) =
          ctrl c (p.run c) i (calls c (p.run c) (St.init act) is) := by simp [calls]
      have hi : i.dt = h := h1 i (by simp)
      obtain ⟨b1, b2⟩ := h2 (is ++ [i]) (by simp) List.prefix_rfl
      have hprev : p.rc.getD 0 * (y is - y is.dropLast) + h * (y is) = lastError is - lastError is.dropLast := by
        rcases List.eq_nil_or_concat is with rfl | ⟨l, z, rfl⟩
        · simp [hy.1, lastError]
        · rw [List.concat_eq_append, List.dropLast_concat, lastError_concat]
          exact hy.step hh l z
      have filt : ∀ s : St K, s.deriv = h * (y is - y is.dropLast) →
          p.filter i s (i.error - 2 * lastError is + lastError is.dropLast) = h * (y (is ++ [i]) - y is) := by
        intro s hs
        apply filter_eq hr hh hi
        have := hy.step hh is i
        rw [hs]
        have e1 : i.error - 2 * lastError is + lastError is.dropLast =
            (p.rc.getD 0 * (y (is ++ [i]) - y is) + h * y (is ++ [i])) -
              (p.rc.getD 0 * (y is - y is.dropLast) + h * (y is)) := by
          rw [this, hprev]; ring
        rw [e1]
        ring
      have val : clipAw p.aw (calls c (p.run c) (St.init act) is).cv + p.kp * (i.error - lastError is)
          + p.ki * h * i.error + p.kd / h * (h * (y (is ++ [i]) - y is)) =
          p.kp * lastError (is ++ [i]) + p.ki * errorSum (is ++ [i]) + p.kd * y (is ++ [i]) := by
        rw [clipAw_within a5, a4, errorSum_concat, lastError_concat, hi]
        field_simp
        ring
      have cv : (calls c (p.run c) (St.init act) (is ++ [i])).cv =
          p.kp * lastError (is ++ [i]) + p.ki * errorSum (is ++ [i]) + p.kd * y (is ++ [i]) := by
        rw [e, ctrl_plain hc]
        simp only [processDirect, Pid.law, hd, shift, hc.steady, if_true, a1, a2, hi, ne_eq, Bool.false_eq_true, if_false]
        rw [if_pos hki]
        dsimp only
        rw [filt, val, clipSat_within b1]
        exact a3
      refine ⟨?_, ?_, ?_, cv, by rw [cv]; exact b2⟩
      · rw [e, ctrl_plain hc]
        simp [processDirect, Pid.law, hd, shift, hc.steady, hki, lastError_concat]
      · rw [e, ctrl_plain hc]
        simp [processDirect, Pid.law, hd, shift, hc.steady, hki, a1]
      · rw [e, ctrl_plain hc, List.dropLast_concat]
        simp only [processDirect, Pid.law, hd, shift, hc.steady, if_true, a1, a2, ne_eq, Bool.false_eq_true, if_false]
        rw [if_pos hki]
        exact filt _ a3
  exact (key is hdt hlim).2.2.2.1

/-- A filter with the time constant 3 s, steps of 1 s. -/
example : (calls (⟨-100, 100, -100, 100, 0, none, false, none, false, false⟩ : Cfg ℚ)
    ((⟨0, 0, 4, none, some 3⟩ : Pid ℚ).run ⟨-100, 100, -100, 100, 0, none, false, none, false, false⟩) (St.init 0)
    [⟨1, 0, 0, 4, 0, false⟩, ⟨1, 0, 0, 4, 0, false⟩]).cv = 3 := by
  decide +kernel

/-- **C89** fails for a filtered derivative and steps of different length: the filter smooths the differences of the
error, not its slope.  The error of a ramp of slope 1 is sampled after 1 s and 3 s; a low pass of 1 s gives 1/2 and
then 5/6, the controller uses 3/4. -/
theorem C89_fails_filter_steps :
    let c : Cfg ℚ := ⟨-100, 100, -100, 100, 0, none, false, none, false, false⟩
    let p : Pid ℚ := ⟨0, 0, 1, none, some 1⟩
    let is : List (Inp ℚ) := [⟨1, 0, 0, 1, 0, false⟩, ⟨2, 0, 0, 3, 0, false⟩]
    (1 : ℚ) * ((5 / 6 - 1 / 2) / 2) + 5 / 6 = (3 - 1) / 2 ∧ (calls c (p.run c) (St.init 0) is).cv = 3 / 4 := by
  decide +kernel

end Verif.Controls
