import Verif.Model.Controls
import Mathlib.Tactic.Linarith
import Mathlib.Tactic.Positivity
import Mathlib.Tactic.FieldSimp
import Mathlib.Tactic.NormNum
import Mathlib.Tactic.Ring
import Mathlib.Data.List.Induction

/-!
# C35-C39, C41, C42: controllers
-/

set_option linter.unusedSectionVars false

namespace Verif.Controls

variable {K : Type*} [Field K] [LinearOrder K] [IsStrictOrderedRing K]

/-! ## Clipping -/

theorem clip_mem {lo hi : K} (h : lo ≤ hi) (x : K) : lo ≤ clip lo hi x ∧ clip lo hi x ≤ hi := by
  unfold clip
  split_ifs with h1 h2
  · exact h1
  · exact ⟨h, le_rfl⟩
  · exact ⟨le_rfl, h⟩

theorem clip_eq {lo hi x : K} (h : lo ≤ hi) : clip lo hi x = max lo (min hi x) := by
  unfold clip
  split_ifs with h1 h2
  · rw [min_eq_right h1.2, max_eq_right h1.1]
  · rw [min_eq_left h2.le, max_eq_right h]
  · have : x < lo := by
      by_contra hc
      exact h1 ⟨not_lt.1 hc, not_lt.1 h2⟩
    rw [min_eq_right (this.le.trans h), max_eq_left this.le]

theorem clipSat_mem {c : Cfg K} (h : c.satMin ≤ c.satMax) (x : K) :
    c.satMin ≤ clipSat c x ∧ clipSat c x ≤ c.satMax := by
  unfold clipSat
  split_ifs with h1 h2
  · exact ⟨le_rfl, h⟩
  · exact ⟨h, le_rfl⟩
  · exact ⟨not_lt.1 h1, not_lt.1 h2⟩

theorem clipAw_mem {a : K} (h : 0 < a) (x : K) : |clipAw (some a) x| ≤ a := by
  unfold clipAw
  rw [abs_le]
  simp only
  split_ifs with h1 h2
  · constructor <;> linarith
  · constructor <;> linarith
  · exact ⟨not_lt.1 h1, not_lt.1 h2⟩

/-! ## Parts of a call -/

theorem shift_prevCv (c : Cfg K) (i : Inp K) (s : St K) : (shift c i s).prevCv = s.cv := by
  unfold shift
  dsimp only
  split_ifs <;> rfl

theorem shift_cv (c : Cfg K) (i : Inp K) (s : St K) : (shift c i s).cv = s.cv := by
  unfold shift
  dsimp only
  split_ifs <;> rfl

theorem subCheck_prevCv (c : Cfg K) (b : Bool) (i : Inp K) (s : St K) : (subCheck c b i s).prevCv = s.prevCv := by
  unfold subCheck
  split_ifs <;> rfl

theorem pid_law_prevCv (p : Pid K) (c : Cfg K) (i : Inp K) (s : St K) : (p.law c i s).prevCv = s.prevCv := by
  unfold Pid.law
  split_ifs <;> rfl

theorem run_prevCv (l : Law K) (c : Cfg K) (i : Inp K) (s : St K) : (l.run c i s).prevCv = s.prevCv := by
  cases l with
  | pid p => exact (subCheck_prevCv ..).trans (pid_law_prevCv ..)
  | bang h => exact subCheck_prevCv ..
  | two t => exact subCheck_prevCv ..

/-- Without slope limit the control value is the one of the control law. -/
theorem ctrl_cv_noslope {c : Cfg K} (hs : c.slope = none) (run : Inp K → St K → St K) (i : Inp K) (s : St K) :
    (ctrl c run i s).cv = (run i (shift c i s)).cv := by
  show (slopeLimit c i (run i (shift c i s))).cv = _
  unfold slopeLimit
  rw [hs]

/-- With a slope limit, the control value after the call lies between the old one and the one that the control
law asked for. -/
theorem slopeLimit_between {c : Cfg K} (hc : c.Ok) {i : Inp K} (hdt : 0 < i.dt) (s : St K) {m M : K}
    (h1 : m ≤ s.prevCv ∧ s.prevCv ≤ M) (h2 : m ≤ s.cv ∧ s.cv ≤ M) :
    m ≤ (slopeLimit c i s).cv ∧ (slopeLimit c i s).cv ≤ M := by
  unfold slopeLimit
  cases hs : c.slope with
  | none => exact h2
  | some np =>
    obtain ⟨n, p⟩ := np
    obtain ⟨hn, hp⟩ := hc.slopeSign n p hs
    dsimp only
    split_ifs with a b
    · exact h2
    · rw [lt_div_iff₀ hdt] at b
      have := mul_pos hp hdt
      constructor <;> linarith
    · have b' : (s.cv - s.prevCv) / i.dt < n := by
        by_contra hcon
        exact a ⟨not_lt.1 hcon, not_lt.1 b⟩
      rw [div_lt_iff₀ hdt] at b'
      have := mul_neg_of_neg_of_pos hn hdt
      constructor <;> linarith

theorem ctrl_cv (c : Cfg K) (run : Inp K → St K → St K) (i : Inp K) (s : St K) :
    (ctrl c run i s).cv = (slopeLimit c i (run i (shift c i s))).cv := rfl

theorem calls_append (c : Cfg K) (run : Inp K → St K → St K) (s : St K) (is : List (Inp K)) (i : Inp K) :
    calls c run s (is ++ [i]) = ctrl c run i (calls c run s is) := by
  simp [calls]

/-- An invariant of all calls. -/
theorem calls_inv {c : Cfg K} {run : Inp K → St K → St K} (P : St K → Prop) (s : St K) (h0 : P s)
    (is : List (Inp K)) (hstep : ∀ i ∈ is, ∀ s, P s → P (ctrl c run i s)) : P (calls c run s is) := by
  induction is using List.reverseRecOn with
  | nil => exact h0
  | append_singleton is i ih =>
    rw [calls_append]
    exact hstep i (by simp) _ (ih fun j hj => hstep j (by simp [hj]))

/-! ## C35 -/

theorem pid_cv_range {c : Cfg K} (hc : c.Ok) (p : Pid K) (i : Inp K) (s : St K) :
    (c.satMin ≤ (p.run c i s).cv ∧ (p.run c i s).cv ≤ c.satMax) ∨
    (p.run c i s).cv = c.off ∧ offByMaster c i = true := by
  unfold Pid.run subCheck
  by_cases h1 : offByMaster c i = true
  · rw [if_pos h1]
    exact .inr ⟨rfl, h1⟩
  · rw [if_neg h1]
    left
    unfold Pid.law
    split_ifs
    all_goals exact clipSat_mem hc.sat.le _

/-- **C35** (actuator): whatever the control law, the history and the settings, after every call the actuator is
set to a value within its limits, namely the one nearest to the control value. -/
theorem C35_actuator_limits {c : Cfg K} (hc : c.Ok) (run : Inp K → St K → St K) (s : St K) (is : List (Inp K))
    (i : Inp K) :
    let r := calls c run s (is ++ [i])
    c.llim ≤ r.act ∧ r.act ≤ c.ulim ∧ ∀ y, c.llim ≤ y → y ≤ c.ulim → |r.act - r.cv| ≤ |y - r.cv| := by
  intro r
  have hr : r = ctrl c run i (calls c run s is) := calls_append ..
  have ha : r.act = clip c.llim c.ulim r.cv := by rw [hr]; rfl
  rw [ha]
  obtain ⟨m1, m2⟩ := clip_mem hc.lim r.cv
  refine ⟨m1, m2, fun y h1 h2 => ?_⟩
  unfold clip
  split_ifs with a b
  · simp
  · rw [abs_of_neg (by linarith), abs_of_neg (by linarith)]; linarith
  · have : r.cv < c.llim := by
      by_contra hcon
      exact a ⟨not_lt.1 hcon, not_lt.1 b⟩
    rw [abs_of_pos (by linarith), abs_of_pos (by linarith)]; linarith

/-- **C35**, partial (PID without slope limit): after every call the control value is within the saturation
limits, or the controller is switched off by its master and at its off state.  Missing: with a slope limit
this holds only if 0 and the off state are within the limits (`C35_saturation_slope_partial`,
`C35_fails_start_outside`). -/
theorem C35_saturation_partial {c : Cfg K} (hc : c.Ok) (hs : c.slope = none) (p : Pid K) (s : St K)
    (is : List (Inp K)) (i : Inp K) :
    let r := calls c (p.run c) s (is ++ [i])
    (c.satMin ≤ r.cv ∧ r.cv ≤ c.satMax) ∨ r.cv = c.off ∧ offByMaster c i = true := by
  intro r
  have hr : r = ctrl c (p.run c) i (calls c (p.run c) s is) := calls_append ..
  have : r.cv = (p.run c i (shift c i (calls c (p.run c) s is))).cv := by
    rw [hr, ctrl_cv_noslope hs]
  rw [this]
  exact pid_cv_range hc p i _

/-- **C35**, partial (PID with slope limit): from the initial state, the control value stays in the smallest
interval that contains the saturation limits, 0 and, for a dependent controller, the off state; so if those
are within the limits, so is the control value. -/
theorem C35_saturation_slope_partial {c : Cfg K} (hc : c.Ok) (p : Pid K) (act : K) (is : List (Inp K))
    (hdt : ∀ i ∈ is, 0 < i.dt) {m M : K} (h0 : m ≤ 0 ∧ 0 ≤ M) (hs : m ≤ c.satMin ∧ c.satMax ≤ M)
    (ho : c.sub ≠ none → m ≤ c.off ∧ c.off ≤ M) :
    m ≤ (calls c (p.run c) (.init act) is).cv ∧ (calls c (p.run c) (.init act) is).cv ≤ M := by
  refine calls_inv (P := fun s => m ≤ s.cv ∧ s.cv ≤ M) _ h0 is fun i hi s hP => ?_
  rw [ctrl_cv]
  refine slopeLimit_between hc (hdt i hi) _ ?_ ?_
  · have := run_prevCv (.pid p) c i (shift c i s)
    rw [show p.run c = (Law.pid p).run c from rfl, this, shift_prevCv]; exact hP
  · rcases pid_cv_range hc p i (shift c i s) with h | ⟨h, hm⟩
    · exact ⟨hs.1.trans h.1, h.2.trans hs.2⟩
    · rw [h]
      refine ho fun hn => ?_
      unfold offByMaster at hm
      rw [hn] at hm
      simp at hm

/-- A PI controller for a valve, limits and slope as in the examples of the package. -/
example : (⟨0, 1, 0, 1, 0, some (-1 / 10, 1 / 10), false, none, false, false⟩ : Cfg ℚ).Ok :=
  ⟨by norm_num, by norm_num, by
    intro n p h
    simp only [Option.some.injEq, Prod.mk.injEq] at h
    obtain ⟨rfl, rfl⟩ := h
    norm_num⟩

/-- **C35** is false of the code with a slope limit: a controller with the saturation limits 0.5 and 1 that has
never been switched off has the control value 0.1 after the first call. -/
theorem C35_fails_start_outside :
    let c : Cfg ℚ := ⟨1 / 2, 1, 0, 1, 0, some (-1 / 10, 1 / 10), false, none, false, false⟩
    c.Ok ∧ (calls c (Pid.run ⟨1, 0, 0, none, none⟩ c) (.init 0) [⟨1, 60, 50, 10, 0, false⟩]).cv = 1 / 10 := by
  refine ⟨⟨by norm_num, by norm_num, ?_⟩, by decide +kernel⟩
  intro n p h
  simp only [Option.some.injEq, Prod.mk.injEq] at h
  obtain ⟨rfl, rfl⟩ := h
  norm_num

/-! ## C36 -/

theorem shift_iTerm (c : Cfg K) (i : Inp K) (s : St K) : (shift c i s).iTerm = s.iTerm := by
  unfold shift
  dsimp only
  split_ifs <;> rfl

theorem slopeLimit_iTerm (c : Cfg K) (i : Inp K) (s : St K) : (slopeLimit c i s).iTerm = s.iTerm := by
  unfold slopeLimit
  cases c.slope with
  | none => rfl
  | some np => rfl

/-- **C36** (continuous time): the integral term never exceeds the anti-windup bound, for every history of
errors, step lengths and master states. -/
theorem C36_integral_bounded (c : Cfg K) (hd : c.discrete = false) (p : Pid K) {a : K} (ha : 0 < a)
    (hp : p.aw = some a) (act : K) (is : List (Inp K)) :
    |(calls c (p.run c) (.init act) is).iTerm| ≤ a := by
  refine calls_inv (P := fun s => |s.iTerm| ≤ a) _ (by simp [St.init, ha.le]) is fun i _ s _ => ?_
  show |(slopeLimit c i (p.run c i (shift c i s))).iTerm| ≤ a
  rw [slopeLimit_iTerm]
  unfold Pid.run subCheck
  by_cases h1 : offByMaster c i = true
  · rw [if_pos h1]
    simp [ha.le]
  · rw [if_neg h1]
    unfold Pid.law
    rw [if_neg (by simp [hd]), hp]
    exact clipAw_mem ha _

/-- **C36** (discrete time): the velocity algorithm starts from a previous output that is limited by the
anti-windup bound: the output before saturation is the increment of the law added to a number of at most that
magnitude, which is the previous output unless that exceeds the bound. -/
theorem C36_velocity_bounded (c : Cfg K) (hd : c.discrete = true) (p : Pid K) (hk : p.ki ≠ 0) {a : K} (ha : 0 < a)
    (hp : p.aw = some a) (i : Inp K) (s : St K) (hm : offByMaster c i = false) :
    ∃ base : K, |base| ≤ a ∧ (|s.cv| ≤ a → base = s.cv) ∧
      (p.run c i s).cv = clipSat c (base + (p.kp * (s.error - s.prevError) + p.ki * i.dt * s.error
        + p.kd / i.dt * (p.run c i s).deriv)) := by
  refine ⟨clipAw (some a) s.cv, clipAw_mem ha _, ?_, ?_⟩
  · intro h
    rw [abs_le] at h
    unfold clipAw
    simp only [not_lt.2 h.1, not_lt.2 h.2, if_false]
  · unfold Pid.run subCheck
    rw [if_neg (by simp [hm])]
    unfold Pid.law
    rw [if_pos hd, if_pos hk, hp]
    congr 1
    ring

example : (Pid.run (⟨1, 1, 0, some 5, none⟩ : Pid ℚ) ⟨0, 100, 0, 100, 0, none, false, none, true, false⟩
    ⟨1, 60, 50, 10, 0, false⟩ ⟨20, 0, 10, 10, 0, 0, 0, 0, 0⟩).cv = 15 := by decide +kernel

/-! ## C37 -/

/-- **C37**: with a slope limit, one call changes the control value by at least `negative_slope * dt` and at most
`positive_slope * dt`, for every control law and state; the actuator follows with at most the same change. -/
theorem C37_slope_limit {c : Cfg K} (hc : c.Ok) {n p : K} (hs : c.slope = some (n, p)) (l : Law K) {i : Inp K}
    (hdt : 0 < i.dt) (s : St K) (hact : s.act = clip c.llim c.ulim s.cv) :
    let r := ctrl c (l.run c) i s
    n * i.dt ≤ r.cv - s.cv ∧ r.cv - s.cv ≤ p * i.dt ∧ n * i.dt ≤ r.act - s.act ∧ r.act - s.act ≤ p * i.dt := by
  intro r
  obtain ⟨hn, hp⟩ := hc.slopeSign n p hs
  have hndt := mul_neg_of_neg_of_pos hn hdt
  have hpdt := mul_pos hp hdt
  have key : n * i.dt ≤ r.cv - s.cv ∧ r.cv - s.cv ≤ p * i.dt := by
    have hprev : (l.run c i (shift c i s)).prevCv = s.cv := by rw [run_prevCv, shift_prevCv]
    have : r.cv = (slopeLimit c i (l.run c i (shift c i s))).cv := rfl
    rw [this]
    unfold slopeLimit
    rw [hs]
    dsimp only
    rw [hprev]
    split_ifs with a b
    · rw [le_div_iff₀ hdt, div_le_iff₀ hdt] at a
      exact a
    · constructor <;> linarith
    · constructor <;> linarith
  refine ⟨key.1, key.2, ?_⟩
  have ha : r.act = clip c.llim c.ulim r.cv := rfl
  rw [ha, hact, clip_eq hc.lim, clip_eq hc.lim]
  obtain ⟨k1, k2⟩ := key
  constructor
  · rcases le_total r.cv s.cv with h | h
    · have h1 : min c.ulim s.cv ≤ min c.ulim r.cv + (s.cv - r.cv) := by
        rcases min_choice c.ulim r.cv with e | e <;> rw [e]
        · exact (min_le_left _ _).trans (by linarith)
        · exact (min_le_right _ _).trans (by linarith)
      have h2 : max c.llim (min c.ulim s.cv) ≤ max c.llim (min c.ulim r.cv) + (s.cv - r.cv) :=
        max_le (by linarith [le_max_left c.llim (min c.ulim r.cv)])
          (by linarith [le_max_right c.llim (min c.ulim r.cv)])
      linarith
    · have : max c.llim (min c.ulim s.cv) ≤ max c.llim (min c.ulim r.cv) :=
        max_le_max le_rfl (min_le_min le_rfl h)
      linarith
  · rcases le_total s.cv r.cv with h | h
    · have h1 : min c.ulim r.cv ≤ min c.ulim s.cv + (r.cv - s.cv) := by
        rcases min_choice c.ulim s.cv with e | e <;> rw [e]
        · exact (min_le_left _ _).trans (by linarith)
        · exact (min_le_right _ _).trans (by linarith)
      have h2 : max c.llim (min c.ulim r.cv) ≤ max c.llim (min c.ulim s.cv) + (r.cv - s.cv) :=
        max_le (by linarith [le_max_left c.llim (min c.ulim s.cv)])
          (by linarith [le_max_right c.llim (min c.ulim s.cv)])
      linarith
    · have : max c.llim (min c.ulim r.cv) ≤ max c.llim (min c.ulim s.cv) :=
        max_le_max le_rfl (min_le_min le_rfl h)
      linarith

/-- **C37** over a whole run: from the first call on, the control value of any controller changes by at most the
slope times the elapsed time. -/
theorem C37_slope_over_time {c : Cfg K} (hc : c.Ok) {n p : K} (hs : c.slope = some (n, p)) (l : Law K) (s : St K)
    (is : List (Inp K)) (hdt : ∀ i ∈ is, 0 < i.dt) :
    let r := calls c (l.run c) s is
    let t := (is.map Inp.dt).sum
    n * t ≤ r.cv - s.cv ∧ r.cv - s.cv ≤ p * t := by
  intro r t
  simp only [r, t]
  clear r t
  induction is using List.reverseRecOn with
  | nil => simp [calls]
  | append_singleton is j ih =>
    obtain ⟨h1, h2⟩ := ih fun i hi => hdt i (by simp [hi])
    rw [calls_append]
    set q := calls c (l.run c) s is with hq
    have hcv : ∀ a : K, (ctrl c (l.run c) j { q with act := a }).cv = (ctrl c (l.run c) j q).cv := by
      intro a
      have e1 : shift c j { q with act := a } = { shift c j q with act := a } := by
        unfold shift
        dsimp only
        split_ifs <;> rfl
      have e2 : (l.run c j { shift c j q with act := a }) = { l.run c j (shift c j q) with act := a } := by
        cases l with
        | pid p => 
          simp only [Law.run, Pid.run, subCheck, Pid.law, Pid.filter]
          split_ifs <;> rfl
        | bang h =>
          simp only [Law.run, bangBang, subCheck, bangBangLaw]
          split_ifs <;> rfl
        | two t =>
          simp only [Law.run, Two.run, subCheck, Two.law]
          split_ifs <;> rfl
      rw [ctrl_cv, ctrl_cv, e1, e2]
      unfold slopeLimit
      rw [hs]
    have := C37_slope_limit hc hs l (hdt j (by simp)) { q with act := clip c.llim c.ulim q.cv } rfl
    simp only at this
    rw [hcv] at this
    simp only [List.map_append, List.map_cons, List.map_nil, List.sum_append, List.sum_cons, List.sum_nil, add_zero,
      mul_add]
    constructor <;> linarith [this.1, this.2.1]

/-- A bang-bang controller with slope limit: half a second after switching on it is at 5 percent. -/
example : (ctrl (⟨0, 1, 0, 1, 0, some (-1 / 10, 1 / 10), false, none, false, false⟩ : Cfg ℚ)
    (bangBang 4 ⟨0, 1, 0, 1, 0, some (-1 / 10, 1 / 10), false, none, false, false⟩)
    ⟨1 / 2, 60, 50, 10, 0, false⟩ (.init 0)).cv = 1 / 20 := by decide +kernel

/-! ## C38 -/

/-- **C38**, partial: without inversion, slope limit and master, a bang-bang controller with positive hysteresis
is at its upper saturation limit below the band, at its off state above it, and keeps its value inside, limits
included; with negative hysteresis the other way round.  Missing: `invert=True`, for which it is false
(`C38_fails_inverted`). -/
theorem C38_hysteresis_partial (h : K) {c : Cfg K} (hi : c.invert = false) (hs : c.slope = none)
    (hm : c.sub = none) (i : Inp K) (s : St K) :
    let r := ctrl c (bangBang h c) i s
    (i.pv < i.sp - |h| / 2 → r.cv = if 0 ≤ h then c.satMax else c.off) ∧
    (i.sp + |h| / 2 < i.pv → r.cv = if 0 ≤ h then c.off else c.satMax) ∧
    (i.sp - |h| / 2 ≤ i.pv → i.pv ≤ i.sp + |h| / 2 → r.cv = s.cv) := by
  intro r
  have e : r.cv = (bangBang h c i (shift c i s)).cv := by
    exact ctrl_cv_noslope hs _ _ _
  have hoff : offByMaster c i = false := by unfold offByMaster; rw [hm]
  have hinv : inv c = 1 := by unfold inv; rw [hi]; rfl
  have habs : 0 ≤ |h| := abs_nonneg h
  rw [e]
  unfold bangBang subCheck
  rw [if_neg (by simp [hoff])]
  unfold bangBangLaw
  simp only [hinv, mul_one]
  refine ⟨fun h1 => ?_, fun h1 => ?_, fun h1 h2 => ?_⟩
  · rw [if_pos h1]
    by_cases hh : h < 0
    · simp [hh]
    · simp [hh, not_lt.1 hh]
  · rw [if_neg (by linarith), if_pos h1]
    by_cases hh : h < 0
    · simp [hh]
    · simp [hh, not_lt.1 hh]
  · rw [if_neg (not_lt.2 h1), if_neg (not_lt.2 h2)]
    exact shift_cv c i s

/-- A storage heated to 60 degrees with a hysteresis of 4 degrees, at 57 degrees. -/
example : (ctrl (⟨0, 1, 0, 1, 0, none, false, none, false, false⟩ : Cfg ℚ)
    (bangBang 4 ⟨0, 1, 0, 1, 0, none, false, none, false, false⟩)
    ⟨1, 60, 57, 3, 0, false⟩ (.init 0)).act = 1 := by decide +kernel

/-- **C38** is false of the code for an inverted bang-bang controller: with the temperature constantly inside the
band its control value changes sign in every call. -/
theorem C38_fails_inverted (h : K) {c : Cfg K} (hi : c.invert = true) (hs : c.slope = none) (hm : c.sub = none)
    (i : Inp K) (s : St K) (h1 : i.sp - |h| / 2 ≤ i.pv) (h2 : i.pv ≤ i.sp + |h| / 2) :
    (ctrl c (bangBang h c) i s).cv = -s.cv := by
  have e : (ctrl c (bangBang h c) i s).cv = (bangBang h c i (shift c i s)).cv := by
    exact ctrl_cv_noslope hs _ _ _
  have hoff : offByMaster c i = false := by unfold offByMaster; rw [hm]
  have hinv : inv c = -1 := by unfold inv; rw [hi]; rfl
  rw [e]
  unfold bangBang subCheck
  rw [if_neg (by simp [hoff])]
  unfold bangBangLaw
  simp only [hinv]
  rw [if_neg (not_lt.2 h1), if_neg (not_lt.2 h2), shift_cv, mul_neg_one]

/-- For a pump that can run in both directions the actuator does the same. -/
example :
    let c : Cfg ℚ := ⟨-1, 1, -1, 1, 0, none, true, none, false, false⟩
    let i1 : Inp ℚ := ⟨1, 60, 50, 10, 0, false⟩
    let i2 : Inp ℚ := ⟨1, 60, 60, 0, 0, false⟩
    (calls c (bangBang 4 c) (.init 0) [i1]).act = -1 ∧ (calls c (bangBang 4 c) (.init 0) [i1, i2]).act = 1 ∧
    (calls c (bangBang 4 c) (.init 0) [i1, i2, i2]).act = -1 := by decide +kernel

/-! ## C39 -/

/-- **C39**, partial: without inversion, slope limit and master, a two-sensor controller is at its off state
whenever the off-condition holds, at its upper saturation limit whenever only the on-condition holds, and
keeps its value otherwise.  Missing: `invert=True`, for which it is false (`C39_fails_inverted`). -/
theorem C39_two_sensors_partial (t : Two K) {c : Cfg K} (hi : c.invert = false) (hs : c.slope = none)
    (hm : c.sub = none) (i : Inp K) (s : St K) :
    let on := if t.actLower then i.onVal < t.actVal else t.actVal < i.onVal
    let off := if t.deactLower then i.pv < i.sp else i.sp < i.pv
    let r := ctrl c (t.run c) i s
    (off → r.cv = c.off) ∧ (on → ¬ off → r.cv = c.satMax) ∧ (¬ on → ¬ off → r.cv = s.cv) := by
  intro on off r
  have e : r.cv = (t.run c i (shift c i s)).cv := by
    exact ctrl_cv_noslope hs _ _ _
  have hoff : offByMaster c i = false := by unfold offByMaster; rw [hm]
  have hinv : inv c = 1 := by unfold inv; rw [hi]; rfl
  rw [e]
  unfold Two.run subCheck
  rw [if_neg (by simp [hoff])]
  unfold Two.law
  simp only [hinv, mul_one]
  refine ⟨fun h1 => ?_, fun h1 h2 => ?_, fun h1 h2 => ?_⟩
  · rw [if_pos (show t.off i from h1)]
  · rw [if_neg (show ¬ t.off i from h2), if_pos (show t.on i from h1)]
  · rw [if_neg (show ¬ t.off i from h2), if_neg (show ¬ t.on i from h1)]
    exact shift_cv c i s

/-- CHP plant that starts when the middle of the storage is below 50 degrees and stops when the bottom is above
70 degrees: both conditions hold. -/
example : (ctrl (⟨0, 1, 0, 1, 0, none, false, none, false, false⟩ : Cfg ℚ)
    (Two.run ⟨50, true, false⟩ ⟨0, 1, 0, 1, 0, none, false, none, false, false⟩)
    ⟨1, 70, 75, 0, 45, false⟩ (.init 0)).act = 0 := by decide +kernel

/-- **C39** is false of the code for an inverted two-sensor controller: it does not keep its output. -/
theorem C39_fails_inverted :
    let c : Cfg ℚ := ⟨-1, 1, -1, 1, 0, none, true, none, false, false⟩
    let t : Two ℚ := ⟨50, true, false⟩
    let i1 : Inp ℚ := ⟨1, 70, 60, 0, 45, false⟩
    let i2 : Inp ℚ := ⟨1, 70, 60, 0, 55, false⟩
    (calls c (t.run c) (.init 0) [i1]).act = -1 ∧ (calls c (t.run c) (.init 0) [i1, i2]).act = 1 := by
  decide +kernel

/-! ## C41 -/

/-- **C41**, partial: without slope limit, a concurrent PID, bang-bang or two-sensor controller is at its off
state whenever its master is at its own, a sequential one whenever its master is not; otherwise it behaves as
one without master.  Missing: with a slope limit the way to the off state takes time, as its documentation
warns (`C41_fails_slope`). -/
theorem C41_master_partial (l : Law K) {c : Cfg K} (hs : c.slope = none) (i : Inp K) (s : St K) :
    let alone := { c with sub := none }
    let r := ctrl c (l.run c) i s
    let r' := ctrl alone (l.run alone) i s
    (c.sub = some true → i.masterOff = true → r.cv = c.off) ∧
    (c.sub = some false → i.masterOff = false → r.cv = c.off) ∧
    (c.sub = some true → i.masterOff = false → r = r') ∧
    (c.sub = some false → i.masterOff = true → r = r') := by
  intro alone r r'
  have hoff : offByMaster c i = true → r.cv = c.off := by
    intro h
    have : r.cv = (l.run c i (shift c i s)).cv := ctrl_cv_noslope hs _ _ _
    rw [this]
    cases l <;> simp [Law.run, Pid.run, bangBang, Two.run, subCheck, h]
  have hon : offByMaster c i = false → r = r' := by
    intro h
    have h' : offByMaster alone i = false := rfl
    have e : l.run c i (shift c i s) = l.run alone i (shift alone i s) := by
      cases l <;> simp only [Law.run, Pid.run, bangBang, Two.run, subCheck, h, h'] <;> rfl
    show processDirect c (slopeLimit c i (l.run c i (shift c i s))) = _
    rw [e]
    rfl
  refine ⟨fun h1 h2 => hoff ?_, fun h1 h2 => hoff ?_, fun h1 h2 => hon ?_, fun h1 h2 => hon ?_⟩ <;>
    simp [offByMaster, h1, h2]

/-- The pump of a CHP plant as a concurrent PI controller, the plant being off and on. -/
example :
    let c : Cfg ℚ := ⟨0, 1, 0, 1, 0, none, false, some true, false, false⟩
    (ctrl c (Pid.run ⟨1 / 20, 0, 0, none, none⟩ c) ⟨1, 60, 50, 10, 0, true⟩ (.init 0)).act = 0 ∧
    (ctrl c (Pid.run ⟨1 / 20, 0, 0, none, none⟩ c) ⟨1, 60, 50, 10, 0, false⟩ (.init 0)).act = 1 / 2 := by
  decide +kernel

/-- **C41** is false of the code with a slope limit: one call after the master has gone to its off state the
dependent controller is still at 90 percent. -/
theorem C41_fails_slope :
    let c : Cfg ℚ := ⟨0, 1, 0, 1, 0, some (-1 / 10, 1 / 10), false, some true, false, false⟩
    (ctrl c (Pid.run ⟨1, 0, 0, none, none⟩ c) ⟨1, 60, 50, 10, 0, true⟩ { St.init 1 with cv := 1 }).act = 9 / 10 := by
  decide +kernel

/-! ## C42 -/

/-- Two states that agree up to integral terms and actuator. -/
def Agree (a b : St K) : Prop :=
  a.cv = b.cv ∧ a.prevCv = b.prevCv ∧ a.error = b.error ∧ a.prevError = b.prevError ∧
    a.prev2Error = b.prev2Error ∧ a.deriv = b.deriv

theorem agree_ctrl {c : Cfg K} {l : Law K} (hl : c.discrete = true ∨ ∀ p, l ≠ .pid p) (i : Inp K) {a b : St K}
    (h : Agree a b) : Agree (ctrl c (l.run c) i a) (ctrl c (l.run c) i b) ∧
      (ctrl c (l.run c) i a).act = (ctrl c (l.run c) i b).act := by
  obtain ⟨a1, a2, a3, a4, a5, a6, a7, a8, a9⟩ := a
  obtain ⟨b1, b2, b3, b4, b5, b6, b7, b8, b9⟩ := b
  obtain ⟨h1, h2, h3, h4, h5, h6⟩ := h
  dsimp only at h1 h2 h3 h4 h5 h6
  subst h1 h2 h3 h4 h5 h6
  have hsh : ∃ x y z, shift c i ⟨a1, a2, a3, a4, a5, b6, b7, a8, b9⟩ =
      { shift c i ⟨a1, a2, a3, a4, a5, a6, a7, a8, a9⟩ with iTerm := x, prevITerm := y, act := z } := by
    unfold shift
    dsimp only
    split_ifs <;> exact ⟨_, _, _, rfl⟩
  obtain ⟨x, y, z, hsh⟩ := hsh
  have hrun : ∃ x' y' z', l.run c i (shift c i ⟨a1, a2, a3, a4, a5, b6, b7, a8, b9⟩) =
      { l.run c i (shift c i ⟨a1, a2, a3, a4, a5, a6, a7, a8, a9⟩) with
        iTerm := x', prevITerm := y', act := z' } := by
    rw [hsh]
    generalize shift c i ⟨a1, a2, a3, a4, a5, a6, a7, a8, a9⟩ = q
    cases l with
    | pid p =>
      have hd : c.discrete = true := hl.resolve_right fun h => h p rfl
      simp only [Law.run, Pid.run, Pid.law, hd, if_true, subCheck, Pid.filter]
      by_cases hk : p.ki ≠ 0
      · rw [if_pos hk, if_pos hk]
        split_ifs <;> exact ⟨_, _, _, rfl⟩
      · rw [if_neg hk, if_neg hk]
        split_ifs <;> exact ⟨_, _, _, rfl⟩
    | bang h =>
      simp only [Law.run, bangBang, bangBangLaw, subCheck]
      by_cases ho : offByMaster c i = true
      · rw [if_pos ho, if_pos ho]; exact ⟨_, _, _, rfl⟩
      · rw [if_neg ho, if_neg ho]; exact ⟨_, _, _, rfl⟩
    | two t =>
      simp only [Law.run, Two.run, Two.law, subCheck]
      by_cases ho : offByMaster c i = true
      · rw [if_pos ho, if_pos ho]; exact ⟨_, _, _, rfl⟩
      · rw [if_neg ho, if_neg ho]; exact ⟨_, _, _, rfl⟩
  obtain ⟨x', y', z', hrun⟩ := hrun
  unfold ctrl
  rw [hrun]
  unfold slopeLimit processDirect
  cases c.slope with
  | none => exact ⟨⟨rfl, rfl, rfl, rfl, rfl, rfl⟩, rfl⟩
  | some np => exact ⟨⟨rfl, rfl, rfl, rfl, rfl, rfl⟩, rfl⟩

/-- **C42**, partial: a discrete time PID controller, and every bang-bang and two-sensor controller, behaves after
a reset as a new one: same control value and actuator value for every sequence of inputs.  Missing: continuous
time PID controllers (`C42_fails_integral`) and controllers with a dead time (`C42_fails_deadtime`). -/
theorem C42_reset_partial {c : Cfg K} {l : Law K} (hl : c.discrete = true ∨ ∀ p, l ≠ .pid p) (s : St K) (act : K)
    (is : List (Inp K)) (i : Inp K) :
    let old := calls c (l.run c) (reset s) (is ++ [i])
    let new := calls c (l.run c) (.init act) (is ++ [i])
    old.cv = new.cv ∧ old.act = new.act := by
  have all : Agree (calls c (l.run c) (reset s) is) (calls c (l.run c) (.init act) is) := by
    induction is using List.reverseRecOn with
    | nil => exact ⟨rfl, rfl, rfl, rfl, rfl, rfl⟩
    | append_singleton is j ih =>
      rw [calls_append, calls_append]
      exact (agree_ctrl hl j ih).1
  intro old new
  simp only [old, new]
  rw [calls_append, calls_append]
  obtain ⟨h1, h2⟩ := agree_ctrl hl i all
  exact ⟨h1.1, h2⟩

/-- A discrete PI controller that has been used. -/
example :
    let c : Cfg ℚ := ⟨0, 100, 0, 100, 0, none, false, none, true, false⟩
    let l : Law ℚ := .pid ⟨1, 1, 0, some 5, none⟩
    let i : Inp ℚ := ⟨1, 60, 50, 10, 0, false⟩
    (calls c (l.run c) (.init 0) [i]).cv = 20 ∧ (calls c (l.run c) (.init 0) [i, i]).cv = 15 ∧
    (calls c (l.run c) (reset (calls c (l.run c) (.init 0) [i, i])) [i]).cv = 20 := by
  decide +kernel

/-- **C42** is false of the code for a continuous time PID controller: `i_term` is not reset, and the first call
copies it to `prev_i_term`, so the integral of the run before continues. -/
theorem C42_fails_integral :
    let c : Cfg ℚ := ⟨0, 100, 0, 100, 0, none, false, none, false, false⟩
    let l : Law ℚ := .pid ⟨0, 1, 0, some 50, none⟩
    let i : Inp ℚ := ⟨1, 60, 50, 10, 0, false⟩
    (calls c (l.run c) (.init 0) [i]).cv = 10 ∧
    (calls c (l.run c) (reset (calls c (l.run c) (.init 0) [i, i, i])) [i]).cv = 40 := by
  decide +kernel

/-! ## C70 -/

/-- **C70**, partial: inverting a continuous time PID controller with symmetric saturation changes the sign of its
control value in every call, for every error and history of the error.  Missing: the discrete time controller
ignores the setting (`C70_fails_discrete`), the other two controllers are C38 and C39. -/
theorem C70_invert_partial (p : Pid K) {c : Cfg K} (hd : c.discrete = false) (hsym : c.satMin = -c.satMax)
    (hsat : c.satMin ≤ c.satMax) (i : Inp K) (s : St K) (hm : offByMaster c i = false) :
    (p.run { c with invert := true } i s).cv = -(p.run { c with invert := false } i s).cv := by
  have key : ∀ x : K, clipSat { c with invert := true } (-x) = -clipSat { c with invert := false } x := by
    intro x
    unfold clipSat
    dsimp only
    rw [hsym] at hsat ⊢
    split_ifs <;> linarith
  have h1 : offByMaster { c with invert := true } i = false := hm
  have h2 : offByMaster { c with invert := false } i = false := hm
  unfold Pid.run subCheck
  rw [h1, h2]
  simp only [Bool.false_eq_true, if_false]
  unfold Pid.law
  simp only [hd, Bool.false_eq_true, if_false, inv, if_true, mul_one, mul_neg_one]
  exact key _

/-- **C70** is false of the code for a discrete time PID controller: inverted or not, it gives the same. -/
theorem C70_fails_discrete (p : Pid K) {c : Cfg K} (hd : c.discrete = true) (i : Inp K) (s : St K) :
    p.run { c with invert := true } i s = p.run { c with invert := false } i s := by
  unfold Pid.run Pid.law
  simp only [hd, if_true]
  rfl

/-- Cooling: 10 degrees too warm, the inverted discrete time controller closes the pump instead of opening it. -/
example :
    let c : Cfg ℚ := ⟨0, 1, 0, 1, 0, none, true, none, true, false⟩
    (ctrl c (Pid.run ⟨1 / 20, 0, 0, none, none⟩ c) ⟨1, 85, 95, -10, 0, false⟩ (.init 0)).act = 0 ∧
    (ctrl { c with discrete := false } (Pid.run ⟨1 / 20, 0, 0, none, none⟩ { c with discrete := false })
      ⟨1, 85, 95, -10, 0, false⟩ (.init 0)).act = 1 / 2 := by decide +kernel

end Verif.Controls
