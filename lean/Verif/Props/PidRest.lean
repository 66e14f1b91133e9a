import Verif.Props.PidLaw
import Mathlib.Algebra.Order.Archimedean.Basic
import Mathlib.Tactic.NormNum
import Mathlib.Tactic.Positivity

/-!
# C160: a controller with an integral term leaves no steady deviation

The full claim reads: as long as the process value deviates from the setpoint to one side, a controller
with an integral term goes on moving its control value until the saturation is reached; a plant at rest
with an unsaturated control value has no deviation.

The inputs are arbitrary sequences of calls: nothing is assumed about the plant that answers the
control value.
-/

set_option linter.unusedSectionVars false

namespace Verif.Controls

variable {K : Type*} [Field K] [LinearOrder K] [IsStrictOrderedRing K]

/-- A control value inside the saturation. -/
def Inside (c : Cfg K) (x : K) : Prop := c.satMin < x ∧ x < c.satMax

theorem clipSat_inside {c : Cfg K} {x : K} (h : Inside c (clipSat c x)) : clipSat c x = x := by
  have h1 := h.1
  have h2 := h.2
  unfold clipSat at h1 h2 ⊢
  by_cases h3 : x < c.satMin
  · rw [if_pos h3] at h1
    exact absurd h1 (lt_irrefl _)
  · rw [if_neg h3] at h1 h2 ⊢
    by_cases h4 : c.satMax < x
    · rw [if_pos h4] at h2
      exact absurd h2 (lt_irrefl _)
    · rw [if_neg h4]

theorem clipSat_above {c : Cfg K} (hc : c.satMin < c.satMax) {x : K} (h : c.satMax ≤ x) :
    clipSat c x = c.satMax := by
  unfold clipSat
  rw [if_neg (not_lt.2 (hc.le.trans h))]
  split_ifs with h1
  · rfl
  · exact le_antisymm (not_lt.1 h1) h

theorem clipSat_below {c : Cfg K} (hc : c.satMin < c.satMax) {x : K} (h : x ≤ c.satMin) :
    clipSat c x = c.satMin := by
  unfold clipSat
  split_ifs with h1 h2
  · rfl
  · exact absurd (h2.trans_le h) hc.not_gt
  · exact le_antisymm h (not_lt.1 h1)

theorem le_clipSat {c : Cfg K} (hc : c.satMin < c.satMax) {x m : K} (h : m ≤ x) :
    min c.satMax m ≤ clipSat c x := by
  unfold clipSat
  split_ifs with h1 h2
  · exact (min_le_right _ _).trans (h.trans h1.le)
  · exact min_le_left _ _
  · exact (min_le_right _ _).trans h

theorem inv_cases (c : Cfg K) : inv c = 1 ∨ inv c = -1 := by
  unfold inv; split_ifs <;> simp

theorem le_clipAw {aw : Option K} (ha : ∀ a, aw = some a → 0 < a) {u : K} (hu : u = 1 ∨ u = -1) {x m : K}
    (h : m ≤ u * x) : (∃ a, aw = some a ∧ a ≤ u * clipAw aw x) ∨ m ≤ u * clipAw aw x := by
  cases aw with
  | none => exact .inr h
  | some a =>
    have h0 := ha a rfl
    unfold clipAw
    rcases hu with rfl | rfl
    · dsimp only
      split_ifs with h1 h2
      · right; linarith
      · left; exact ⟨a, rfl, by linarith⟩
      · right; exact h
    · dsimp only
      split_ifs with h1 h2
      · left; exact ⟨a, rfl, by linarith⟩
      · right; linarith
      · right; exact h

theorem calls_concat (c : Cfg K) (run : Inp K → St K → St K) (s : St K) (is : List (Inp K)) (i : Inp K) :
    calls c run s (is ++ [i]) = ctrl c run i (calls c run s is) := by
  simp [calls]

/-- One call of a continuous controller. -/
theorem ctrl_cont {c : Cfg K} (hc : Plain c) (hd : c.discrete = false) (p : Pid K) (i : Inp K) (s : St K) :
    (ctrl c (p.run c) i s).error = i.error ∧
      (ctrl c (p.run c) i s).iTerm = clipAw p.aw (i.dt * i.error + s.iTerm) ∧
      (ctrl c (p.run c) i s).cv = clipSat c ((p.kp * i.error +
        p.ki * clipAw p.aw (i.dt * i.error + s.iTerm) +
          p.kd * (p.filter i s (i.error - s.error) / i.dt)) * inv c) := by
  rw [ctrl_plain hc]
  refine ⟨?_, ?_, ?_⟩ <;>
    simp [processDirect, Pid.law, shift, hd, hc.steady, Pid.filter]

/-- One call of a discrete controller with integral term. -/
theorem ctrl_disc {c : Cfg K} (hc : Plain c) (hd : c.discrete = true) {p : Pid K} (hk : p.ki ≠ 0) (i : Inp K) (s : St K) :
    (ctrl c (p.run c) i s).error = i.error ∧ (ctrl c (p.run c) i s).prevError = s.error ∧
      (ctrl c (p.run c) i s).cv = clipSat c (clipAw p.aw s.cv + p.kp * (i.error - s.error) + p.ki * i.dt * i.error
        + p.kd / i.dt * p.filter i s (i.error - 2 * s.error + s.prevError)) := by
  rw [ctrl_plain hc]
  refine ⟨?_, ?_, ?_⟩ <;>
    simp [processDirect, Pid.law, shift, hd, hc.steady, Pid.filter, hk]

/-! ## Rest -/

/-- **C160, rest, continuous time.** Two calls with the same error after which the control value is the
same, inside the saturation and with the integral term inside the anti-windup: there is no deviation.
Here `s` is the state after a call with the same error.  Partial: see `C160_fails_windup`. -/
theorem C160_rest_continuous_partial {c : Cfg K} (hc : Plain c) (hd : c.discrete = false) {p : Pid K}
    (hki : p.ki ≠ 0) (hrc : p.rc = none) (s : St K) {i j : Inp K} (hi : i.error = s.error)
    (hj : j.error = s.error) (hdt : 0 < j.dt)
    (hin : Inside c (calls c (p.run c) s [i]).cv)
    (hrest : (calls c (p.run c) s [i, j]).cv = (calls c (p.run c) s [i]).cv)
    (hs : WithinAw p.aw (i.dt * s.error + s.iTerm))
    (haw : WithinAw p.aw (j.dt * s.error + (i.dt * s.error + s.iTerm))) : s.error = 0 := by
  obtain ⟨h1, h2, h3⟩ := ctrl_cont hc hd p i s
  obtain ⟨h4, h5, h6⟩ := ctrl_cont hc hd p j (ctrl c (p.run c) i s)
  simp only [calls, List.foldl_cons, List.foldl_nil] at hin hrest
  have hin2 := hin
  rw [← hrest] at hin2
  rw [h1, h2] at h6
  rw [hi, clipAw_within hs] at h3 h6
  rw [hj, clipAw_within haw] at h6
  simp only [Pid.filter, hrc, sub_self, zero_div, mul_zero, add_zero] at h3 h6
  rw [h3] at hin
  rw [h6] at hin2
  rw [h6, h3, clipSat_inside hin, clipSat_inside hin2] at hrest
  have h7 : p.ki * (j.dt * s.error) = 0 := by
    rcases inv_cases c with h | h <;> rw [h] at hrest <;> linarith
  rcases mul_eq_zero.1 h7 with h | h
  · exact absurd h hki
  · rcases mul_eq_zero.1 h with h | h
    · exact absurd h hdt.ne'
    · exact h

/-- **C160, rest, discrete time.** A call with the same error as the last two, which leaves the control value
unchanged, inside the saturation and inside the anti-windup: there is no deviation.  Partial: see
`C160_fails_discrete`. -/
theorem C160_rest_discrete_partial {c : Cfg K} (hc : Plain c) (hd : c.discrete = true) {p : Pid K}
    (hki : p.ki ≠ 0) (hrc : p.rc = none) (s : St K) (hs : s.prevError = s.error) {i : Inp K}
    (hi : i.error = s.error) (hdt : 0 < i.dt) (hin : Inside c s.cv)
    (hrest : (calls c (p.run c) s [i]).cv = s.cv) (haw : WithinAw p.aw s.cv) : s.error = 0 := by
  obtain ⟨_, _, h3⟩ := ctrl_disc hc hd hki i s
  simp only [calls, List.foldl_cons, List.foldl_nil] at hrest
  have hin2 := hin
  rw [← hrest] at hin2
  rw [hi, hs, clipAw_within haw] at h3
  have h0 : s.error - 2 * s.error + s.error = 0 := by ring
  simp only [Pid.filter, hrc, sub_self, h0, mul_zero, add_zero] at h3
  rw [h3] at hin2 hrest
  rw [clipSat_inside hin2] at hrest
  have h7 : p.ki * (i.dt * s.error) = 0 := by linarith
  rcases mul_eq_zero.1 h7 with h | h
  · exact absurd h hki
  · rcases mul_eq_zero.1 h with h | h
    · exact absurd h hdt.ne'
    · exact h

/-! ## A lasting deviation -/

theorem iTerm_grows {c : Cfg K} (hc : Plain c) (hd : c.discrete = false) {p : Pid K} {ε δ : K}
    (haw : ∀ a, p.aw = some a → 0 < a) (hε : 0 < ε) (hδ : 0 < δ) (s : St K) {u : K} (hu : u = 1 ∨ u = -1)
    (is : List (Inp K)) (his : ∀ i ∈ is, δ ≤ i.dt ∧ ε ≤ u * i.error) :
    (∃ a, p.aw = some a ∧ a ≤ u * (calls c (p.run c) s is).iTerm) ∨
      u * s.iTerm + is.length * (δ * ε) ≤ u * (calls c (p.run c) s is).iTerm := by
  induction is using List.reverseRecOn with
  | nil => right; simp [calls]
  | append_singleton is i ih =>
    have h1 := ih fun j hj => his j (by simp [hj])
    obtain ⟨h2, h3⟩ := his i (by simp)
    rw [calls_concat, (ctrl_cont hc hd p i _).2.1]
    have hmul : δ * ε ≤ u * (i.dt * i.error) := by
      have : δ * ε ≤ i.dt * (u * i.error) := mul_le_mul h2 h3 hε.le (hδ.le.trans h2)
      calc δ * ε ≤ i.dt * (u * i.error) := this
        _ = u * (i.dt * i.error) := by ring
    have hpos : 0 < δ * ε := mul_pos hδ hε
    rcases h1 with ⟨a, ha, h4⟩ | h4
    · rcases le_clipAw haw hu (x := i.dt * i.error + (calls c (p.run c) s is).iTerm) (m := a)
        (by rw [mul_add]; linarith) with h | h
      · exact .inl h
      · exact .inl ⟨a, ha, h⟩
    · rcases le_clipAw haw hu (x := i.dt * i.error + (calls c (p.run c) s is).iTerm)
        (m := u * s.iTerm + (is ++ [i]).length * (δ * ε))
        (by rw [mul_add]; push_cast [List.length_append, List.length_singleton]; linarith) with h | h
      · exact .inl h
      · exact .inr h

/-- **C160, lasting deviation, continuous time.** If the process value stays on the side that asks for more
by at least `ε`, the control value of a PI controller reaches its upper saturation after a number of calls
that depends only on the state and on bounds for step and deviation, and stays there: from any state, for
any steps of at least `δ`, however the deviation varies.  The anti-windup must leave room for it.
Partial: see `C160_fails_windup`. -/
theorem C160_acts_up_partial [Archimedean K] {c : Cfg K} (hc : Plain c) (hsat : c.satMin < c.satMax)
    (hd : c.discrete = false) {p : Pid K} (hkp : 0 ≤ p.kp) (hki : 0 < p.ki) (hkd : p.kd = 0) {ε δ : K}
    (hε : 0 < ε) (hδ : 0 < δ) (haw : ∀ a, p.aw = some a → 0 < a ∧ c.satMax ≤ p.kp * ε + p.ki * a) (s : St K) :
    ∃ N, ∀ is : List (Inp K), N ≤ is.length → (∀ i ∈ is, δ ≤ i.dt ∧ ε ≤ inv c * i.error) →
      (calls c (p.run c) s is).cv = c.satMax := by
  obtain ⟨N, hN⟩ := Archimedean.arch (c.satMax / p.ki - inv c * s.iTerm) (mul_pos hδ hε)
  refine ⟨N + 1, ?_⟩
  intro is hlen his
  obtain ⟨is', i, rfl⟩ : ∃ l x, is = l ++ [x] := by
    rcases List.eq_nil_or_concat is with h | ⟨l, x, h⟩
    · rw [h] at hlen; simp at hlen
    · exact ⟨l, x, by simpa using h⟩
  have hgrow := iTerm_grows hc hd (fun a ha => (haw a ha).1) hε hδ s (inv_cases c) (is' ++ [i]) his
  obtain ⟨h2, h3⟩ := his i (by simp)
  rw [calls_concat] at hgrow ⊢
  obtain ⟨_, h5, h6⟩ := ctrl_cont hc hd p i (calls c (p.run c) s is')
  rw [h6]
  rw [h5] at hgrow
  apply clipSat_above hsat
  rw [hkd, zero_mul, add_zero]
  generalize clipAw p.aw (i.dt * i.error + (calls c (p.run c) s is').iTerm) = I at hgrow
  have hkpe : p.kp * ε ≤ p.kp * (inv c * i.error) := mul_le_mul_of_nonneg_left h3 hkp
  have hval : (p.kp * i.error + p.ki * I) * inv c = p.kp * (inv c * i.error) + p.ki * (inv c * I) := by ring
  rw [hval]
  rcases hgrow with ⟨a, ha, h7⟩ | h7
  · have := mul_le_mul_of_nonneg_left h7 hki.le
    have := (haw a ha).2
    linarith
  · have h8 : (N : K) * (δ * ε) ≤ ((is' ++ [i]).length : K) * (δ * ε) := by
      apply mul_le_mul_of_nonneg_right _ (mul_pos hδ hε).le
      exact_mod_cast (by omega : N ≤ (is' ++ [i]).length)
    rw [nsmul_eq_mul] at hN
    have h9 : c.satMax / p.ki ≤ inv c * I := by linarith
    have h10 : c.satMax ≤ p.ki * (inv c * I) := by
      have := mul_le_mul_of_nonneg_left h9 hki.le
      rwa [mul_div_cancel₀ _ hki.ne'] at this
    have : 0 ≤ p.kp * ε := mul_nonneg hkp hε.le
    linarith

/-- **C160, lasting deviation, other side.** The same downwards: the lower saturation is reached.  Partial: see
`C160_fails_windup`. -/
theorem C160_acts_down_partial [Archimedean K] {c : Cfg K} (hc : Plain c) (hsat : c.satMin < c.satMax)
    (hd : c.discrete = false) {p : Pid K} (hkp : 0 ≤ p.kp) (hki : 0 < p.ki) (hkd : p.kd = 0) {ε δ : K}
    (hε : 0 < ε) (hδ : 0 < δ) (haw : ∀ a, p.aw = some a → 0 < a ∧ -c.satMin ≤ p.kp * ε + p.ki * a) (s : St K) :
    ∃ N, ∀ is : List (Inp K), N ≤ is.length → (∀ i ∈ is, δ ≤ i.dt ∧ ε ≤ -inv c * i.error) →
      (calls c (p.run c) s is).cv = c.satMin := by
  have hu : -inv c = 1 ∨ -inv c = -1 := by rcases inv_cases c with h | h <;> rw [h] <;> simp
  obtain ⟨N, hN⟩ := Archimedean.arch (-c.satMin / p.ki - -inv c * s.iTerm) (mul_pos hδ hε)
  refine ⟨N + 1, ?_⟩
  intro is hlen his
  obtain ⟨is', i, rfl⟩ : ∃ l x, is = l ++ [x] := by
    rcases List.eq_nil_or_concat is with h | ⟨l, x, h⟩
    · rw [h] at hlen; simp at hlen
    · exact ⟨l, x, by simpa using h⟩
  have hgrow := iTerm_grows hc hd (fun a ha => (haw a ha).1) hε hδ s hu (is' ++ [i]) his
  obtain ⟨h2, h3⟩ := his i (by simp)
  rw [calls_concat] at hgrow ⊢
  obtain ⟨_, h5, h6⟩ := ctrl_cont hc hd p i (calls c (p.run c) s is')
  rw [h6]
  rw [h5] at hgrow
  apply clipSat_below hsat
  rw [hkd, zero_mul, add_zero]
  generalize clipAw p.aw (i.dt * i.error + (calls c (p.run c) s is').iTerm) = I at hgrow
  have hkpe : p.kp * ε ≤ p.kp * (-inv c * i.error) := mul_le_mul_of_nonneg_left h3 hkp
  have hval : (p.kp * i.error + p.ki * I) * inv c = -(p.kp * (-inv c * i.error) + p.ki * (-inv c * I)) := by ring
  rw [hval]
  rcases hgrow with ⟨a, ha, h7⟩ | h7
  · have := mul_le_mul_of_nonneg_left h7 hki.le
    have := (haw a ha).2
    linarith
  · have h8 : (N : K) * (δ * ε) ≤ ((is' ++ [i]).length : K) * (δ * ε) := by
      apply mul_le_mul_of_nonneg_right _ (mul_pos hδ hε).le
      exact_mod_cast (by omega : N ≤ (is' ++ [i]).length)
    rw [nsmul_eq_mul] at hN
    have h9 : -c.satMin / p.ki ≤ -inv c * I := by linarith
    have h10 : -c.satMin ≤ p.ki * (-inv c * I) := by
      have := mul_le_mul_of_nonneg_left h9 hki.le
      rwa [mul_div_cancel₀ _ hki.ne'] at this
    have : 0 ≤ p.kp * ε := mul_nonneg hkp hε.le
    linarith

/-- **C160, lasting deviation, discrete time.** A deviation that stays the same drives the control value of a
discrete PI controller to its upper saturation, if the anti-windup is not below it.  Partial: see
`C160_fails_discrete`. -/
theorem C160_acts_discrete_partial [Archimedean K] {c : Cfg K} (hc : Plain c) (hsat : c.satMin < c.satMax)
    (hd : c.discrete = true) {p : Pid K} (hki : 0 < p.ki) (hkd : p.kd = 0) {ε δ : K}
    (hε : 0 < ε) (hδ : 0 < δ) (haw : ∀ a, p.aw = some a → 0 < a ∧ c.satMax ≤ a) (s : St K) (hs : s.error = ε) :
    ∃ N, ∀ is : List (Inp K), N ≤ is.length → (∀ i ∈ is, δ ≤ i.dt ∧ i.error = ε) →
      (calls c (p.run c) s is).cv = c.satMax := by
  have hstep : 0 < p.ki * δ * ε := by positivity
  obtain ⟨N, hN⟩ := Archimedean.arch (c.satMax - min s.cv c.satMax + |s.cv|) hstep
  have key : ∀ is : List (Inp K), (∀ i ∈ is, δ ≤ i.dt ∧ i.error = ε) →
      (calls c (p.run c) s is).error = ε ∧
        min c.satMax (-|s.cv| + min s.cv c.satMax + is.length * (p.ki * δ * ε)) ≤ (calls c (p.run c) s is).cv := by
    intro is
    induction is using List.reverseRecOn with
    | nil =>
      intro _
      refine ⟨by simpa [calls] using hs, ?_⟩
      simp only [calls, List.foldl_nil, List.length_nil, Nat.cast_zero, zero_mul, add_zero]
      refine (min_le_right _ _).trans ?_
      have := min_le_left s.cv c.satMax
      have := abs_nonneg s.cv
      linarith
    | append_singleton is i ih =>
      intro his
      obtain ⟨h1, h2⟩ := ih fun j hj => his j (by simp [hj])
      obtain ⟨h3, h4⟩ := his i (by simp)
      rw [calls_concat]
      obtain ⟨h5, _, h6⟩ := ctrl_disc hc hd hki.ne' i (calls c (p.run c) s is)
      refine ⟨by rw [h5, h4], ?_⟩
      rw [h6, h1, h4, hkd]
      simp only [sub_self, mul_zero, add_zero, zero_div, zero_mul]
      generalize calls c (p.run c) s is = t at h2
      have hge : p.ki * δ * ε ≤ p.ki * i.dt * ε := by
        have := mul_le_mul_of_nonneg_left h3 hki.le
        exact mul_le_mul_of_nonneg_right this hε.le
      have hlen : ((is ++ [i]).length : K) = is.length + 1 := by simp
      rw [hlen]
      have hm : min c.satMax (-|s.cv| + min s.cv c.satMax + is.length * (p.ki * δ * ε)) ≤ clipAw p.aw t.cv := by
        rcases le_clipAw (fun a ha => (haw a ha).1) (.inl rfl) (u := (1 : K)) (x := t.cv)
          (m := min c.satMax (-|s.cv| + min s.cv c.satMax + is.length * (p.ki * δ * ε))) (by rw [one_mul]; exact h2)
          with ⟨a, ha, h⟩ | h
        · rw [one_mul] at h
          exact (min_le_left _ _).trans ((haw a ha).2.trans h)
        · rwa [one_mul] at h
      rcases le_total c.satMax (-|s.cv| + min s.cv c.satMax + is.length * (p.ki * δ * ε)) with h | h
      · rw [min_eq_left h] at hm
        have := le_clipSat hsat (show c.satMax ≤ clipAw p.aw t.cv + p.ki * i.dt * ε by linarith)
        rw [min_self] at this
        exact (min_le_left _ _).trans this
      · rw [min_eq_right h] at hm
        exact le_clipSat hsat (by linarith)
  refine ⟨N + 1, ?_⟩
  intro is hlen his
  obtain ⟨_, h2⟩ := key is his
  obtain ⟨is', i, rfl⟩ : ∃ l x, is = l ++ [x] := by
    rcases List.eq_nil_or_concat is with h | ⟨l, x, h⟩
    · rw [h] at hlen; simp at hlen
    · exact ⟨l, x, by simpa using h⟩
  have h8 : (N : K) * (p.ki * δ * ε) ≤ ((is' ++ [i]).length : K) * (p.ki * δ * ε) := by
    apply mul_le_mul_of_nonneg_right _ hstep.le
    exact_mod_cast (by omega : N ≤ (is' ++ [i]).length)
  rw [nsmul_eq_mul] at hN
  rw [min_eq_left (by linarith)] at h2
  apply le_antisymm _ h2
  rw [calls_concat, (ctrl_disc hc hd hki.ne' i _).2.2]
  unfold clipSat
  split_ifs with h9 h10
  · exact hsat.le
  · exact le_rfl
  · exact not_lt.1 h10

/-- **C160 is false of the code if the anti-windup is too small, continuous time**: with the integral term at its
limit and a deviation `e` the control value rests inside the saturation, for any steps and any number of calls. -/
theorem C160_fails_windup {c : Cfg K} (hc : Plain c) (hd : c.discrete = false) (hi : c.invert = false) {p : Pid K}
    (hkd : p.kd = 0) {a e : K} (haw : p.aw = some a) (ha : 0 < a) (he : 0 < e)
    (hin : Inside c (p.kp * e + p.ki * a)) (s : St K) (hs : s.iTerm = a) {is : List (Inp K)} (hne : is ≠ [])
    (his : ∀ i ∈ is, 0 < i.dt ∧ i.error = e) :
    (calls c (p.run c) s is).cv = p.kp * e + p.ki * a ∧ Inside c (calls c (p.run c) s is).cv := by
  have hclip : ∀ x : K, 0 ≤ x → clipAw p.aw (x + a) = a := by
    intro x hx
    rw [haw]
    unfold clipAw
    dsimp only
    rw [if_neg (by linarith)]
    split_ifs with h
    · rfl
    · linarith [not_lt.1 h]
  have key : ∀ is : List (Inp K), (∀ i ∈ is, 0 < i.dt ∧ i.error = e) → (calls c (p.run c) s is).iTerm = a := by
    intro is
    induction is using List.reverseRecOn with
    | nil => intro _; simpa [calls] using hs
    | append_singleton is i ih =>
      intro h
      obtain ⟨h1, h2⟩ := h i (by simp)
      rw [calls_concat, (ctrl_cont hc hd p i _).2.1, ih fun j hj => h j (by simp [hj]), h2]
      exact hclip _ (mul_pos h1 he).le
  obtain ⟨is', i, rfl⟩ : ∃ l x, is = l ++ [x] := by
    rcases List.eq_nil_or_concat is with h | ⟨l, x, h⟩
    · exact absurd h hne
    · exact ⟨l, x, by simpa using h⟩
  obtain ⟨h1, h2⟩ := his i (by simp)
  have hcv : (calls c (p.run c) s (is' ++ [i])).cv = p.kp * e + p.ki * a := by
    rw [calls_concat, (ctrl_cont hc hd p i _).2.2, key is' (fun j hj => his j (by simp [hj])), h2,
      hclip _ (mul_pos h1 he).le, hkd]
    simp only [zero_mul, add_zero, inv, hi]
    simp only [Bool.false_eq_true, if_false, mul_one]
    exact clipSat_within ⟨hin.1.le, hin.2.le⟩
  rw [hcv]
  exact ⟨rfl, hin⟩

/-- **C160 is false of the code for discrete time controllers**: the anti-windup limits the last control value, not
an integral.  If it is below the saturation the control value rests at any value above it, with the deviation
that adds the difference in every step, for any number of calls. -/
theorem C160_fails_discrete {c : Cfg K} (hc : Plain c) (hd : c.discrete = true) {p : Pid K}
    (hki : 0 < p.ki) (hkd : p.kd = 0) {a h y : K} (haw : p.aw = some a) (hh : 0 < h)
    (hay : a < y) (ha : 0 < a) (hin : Inside c y) (s : St K) (hs : s.cv = y)
    (he : s.error = (y - a) / (p.ki * h)) {is : List (Inp K)} (his : ∀ i ∈ is, i.dt = h ∧ i.error = s.error) :
    0 < s.error ∧ (calls c (p.run c) s is).cv = y := by
  refine ⟨by rw [he]; exact div_pos (by linarith) (mul_pos hki hh), ?_⟩
  have key : ∀ is : List (Inp K), (∀ i ∈ is, i.dt = h ∧ i.error = s.error) →
      (calls c (p.run c) s is).error = s.error ∧ (calls c (p.run c) s is).cv = y := by
    intro is
    induction is using List.reverseRecOn with
    | nil => intro _; simpa [calls] using hs
    | append_singleton is i ih =>
      intro hi
      obtain ⟨h1, h2⟩ := hi i (by simp)
      obtain ⟨h3, h4⟩ := ih fun j hj => hi j (by simp [hj])
      obtain ⟨h5, _, h6⟩ := ctrl_disc hc hd hki.ne' i (calls c (p.run c) s is)
      rw [calls_concat]
      refine ⟨by rw [h5, h2], ?_⟩
      rw [h6, h4, h3, h2, h1, hkd]
      have hcl : clipAw p.aw y = a := by
        rw [haw]
        unfold clipAw
        dsimp only
        rw [if_neg (by linarith), if_pos hay]
      have hval : a + p.ki * h * s.error = y := by
        rw [he, mul_div_cancel₀ _ (mul_pos hki hh).ne']
        ring
      rw [hcl]
      simp only [sub_self, mul_zero, add_zero, zero_div, zero_mul]
      rw [hval]
      exact clipSat_within ⟨hin.1.le, hin.2.le⟩
  exact (key is his).2

/-! ## Examples -/

/-- A PI controller of a valve with the automatic anti-windup: the integral part may reach 1. -/
example : ∃ N, ∀ is : List (Inp ℚ), N ≤ is.length →
    (∀ i ∈ is, (1 / 10 : ℚ) ≤ i.dt ∧ 2 ≤ inv (⟨0, 1, 0, 1, 0, none, false, none, false, false⟩ : Cfg ℚ) * i.error) →
    (calls ⟨0, 1, 0, 1, 0, none, false, none, false, false⟩
      ((⟨1 / 10, 1 / 100, 0, some 100, none⟩ : Pid ℚ).run ⟨0, 1, 0, 1, 0, none, false, none, false, false⟩)
      (St.init 0) is).cv = 1 :=
  C160_acts_up_partial ⟨rfl, rfl, rfl⟩ (by norm_num) rfl (by norm_num) (by norm_num) rfl (by norm_num) (by norm_num)
    (by rintro a h; cases h; norm_num) _

/-- A discrete PI controller with `ki = 2` and the automatic anti-windup `1 / ki`: the control value rests at 3/4
with a deviation of 1/8 K, for a hundred steps of 1 s and for any other number. -/
example (n : ℕ) : 0 < (1 / 8 : ℚ) ∧
    (calls ⟨0, 1, 0, 1, 0, none, false, none, true, false⟩
      ((⟨1, 2, 0, some (1 / 2), none⟩ : Pid ℚ).run ⟨0, 1, 0, 1, 0, none, false, none, true, false⟩)
      ⟨3 / 4, 3 / 4, 1 / 8, 1 / 8, 1 / 8, 0, 0, 0, 3 / 4⟩
      (List.replicate n ⟨1, 60, 60 - 1 / 8, 1 / 8, 0, false⟩)).cv = 3 / 4 :=
  C160_fails_discrete (c := ⟨0, 1, 0, 1, 0, none, false, none, true, false⟩) (p := ⟨1, 2, 0, some (1 / 2), none⟩)
    ⟨rfl, rfl, rfl⟩ rfl (by norm_num) rfl (a := 1 / 2) (h := 1) rfl (by norm_num) (by norm_num) (by norm_num)
    (by constructor <;> norm_num) ⟨3 / 4, 3 / 4, 1 / 8, 1 / 8, 1 / 8, 0, 0, 0, 3 / 4⟩ rfl (by norm_num)
    (by intro i hi; rw [List.eq_of_mem_replicate hi]; exact ⟨rfl, rfl⟩)

/-- A continuous PI controller with a saturation of 0 to 100 whose integral part can only reach 1. -/
example (n : ℕ) :
    (calls ⟨0, 100, 0, 100, 0, none, false, none, false, false⟩
      ((⟨1, 1 / 100, 0, some 100, none⟩ : Pid ℚ).run ⟨0, 100, 0, 100, 0, none, false, none, false, false⟩)
      ⟨0, 0, 0, 0, 0, 100, 0, 0, 0⟩ (List.replicate (n + 1) ⟨1, 60, 50, 10, 0, false⟩)).cv = 11 := by
  have := C160_fails_windup (c := ⟨0, 100, 0, 100, 0, none, false, none, false, false⟩)
    (p := (⟨1, 1 / 100, 0, some 100, none⟩ : Pid ℚ)) ⟨rfl, rfl, rfl⟩ rfl rfl rfl (a := 100) (e := 10) rfl
    (by norm_num) (by norm_num) (by constructor <;> norm_num) ⟨0, 0, 0, 0, 0, 100, 0, 0, 0⟩ rfl
    (is := List.replicate (n + 1) ⟨1, 60, 50, 10, 0, false⟩) (by simp)
    (by intro i hi; rw [List.eq_of_mem_replicate hi]; exact ⟨by norm_num, rfl⟩)
  rw [this.1]
  norm_num

/-- A controller at rest without deviation. -/
example : (St.mk (1 / 2) (1 / 2) 0 0 0 50 50 0 (1 / 2) : St ℚ).error = 0 :=
  C160_rest_continuous_partial (c := ⟨0, 1, 0, 1, 0, none, false, none, false, false⟩)
    (p := (⟨1, 1 / 100, 5, some 100, none⟩ : Pid ℚ)) ⟨rfl, rfl, rfl⟩ rfl (by norm_num) rfl
    ⟨1 / 2, 1 / 2, 0, 0, 0, 50, 50, 0, 1 / 2⟩ (i := ⟨1, 60, 60, 0, 0, false⟩) (j := ⟨3, 60, 60, 0, 0, false⟩) rfl rfl
    (by norm_num) (by unfold Inside; decide +kernel) (by decide +kernel)
    (by rintro a h; cases h; norm_num) (by rintro a h; cases h; norm_num)

end Verif.Controls
