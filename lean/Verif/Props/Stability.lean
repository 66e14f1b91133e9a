import Verif.Model.Stability
import Verif.Props.StepControl
import Mathlib.Tactic.Ring
import Mathlib.Tactic.Linarith
import Mathlib.Tactic.Positivity
import Mathlib.Tactic.NormNum

/-!
# C25: a stability violation is answered by a step that passes the check
-/

set_option linter.unusedSectionVars false

namespace Verif.Stability

variable {K : Type*} [Field K] [LinearOrder K] [IsStrictOrderedRing K]

/-- Every number that is compared grows linearly with the step. -/
theorem divider_linear (c : Check K) : ∃ r : K, ∀ h, 0 ≤ h → divider c h = h * r := by
  have key : ∀ a b u v h : K, 0 ≤ h → u = h * a → v = h * b → max u v = h * max a b :=
    fun a b u v h hh hu hv => by rw [hu, hv]; exact (mul_max_of_nonneg a b hh).symm
  have sc : ∀ a u x h : K, u = h * a → u / x = h * (a / x) := fun a u x h hu => by
    rw [hu]; exact mul_div_assoc _ _ _
  have e : ∀ x y h : K, x * h / y = h * (x / y) := fun x y h => by ring
  cases c with
  | oneD d =>
    exact ⟨_, fun h hh => key _ _ _ _ h hh
      (sc _ _ _ h (key _ _ _ _ h hh (key _ _ _ _ h hh (e _ _ h) (e _ _ h)) (e _ _ h)))
      (sc _ _ _ h (e _ _ h))⟩
  | hex d =>
    exact ⟨_, fun h hh => key _ _ _ _ h hh
      (sc _ _ _ h (key _ _ _ _ h hh (key _ _ _ _ h hh (e _ _ h) (e _ _ h)) (mul_comm _ _)))
      (sc _ _ _ h (e _ _ h))⟩

/-- **C25** (check): a violation at step `h` reports a positive step shorter than `0.95 h`, and the same
check accepts this step and every shorter one. -/
theorem C25_reported_step_passes (c : Check K) (h x : K) (hh : 0 < h) (hx : check c h = some x) :
    0 < x ∧ x < 95 / 100 * h ∧ ∀ h', 0 < h' → h' ≤ x → check c h' = none := by
  obtain ⟨r, hr⟩ := divider_linear c
  unfold check at hx
  split_ifs at hx with hd
  have hd' : 1 < h * r := hr h hh.le ▸ hd
  have hr0 : 0 < r := by
    by_contra hn
    have : h * r ≤ 0 := mul_nonpos_of_nonneg_of_nonpos hh.le (not_lt.1 hn)
    linarith
  have hxe : x = 95 / 100 / r := by
    have := Option.some.inj hx
    rw [← this, hr h hh.le]
    field_simp
  refine ⟨?_, ?_, fun h' h1 h2 => ?_⟩
  · rw [hxe]; positivity
  · rw [hxe, div_lt_iff₀ hr0]
    nlinarith
  · unfold check
    rw [if_neg]
    rw [hr h' h1.le, not_lt]
    rw [hxe, le_div_iff₀ hr0] at h2
    linarith

/-- A pipe with two cells and too much flow for a step of one second. -/
def exCheck : Check ℚ :=
  .oneD ⟨[2], [1, 1], [1, 1], [3], [1000, 1000], [4200000, 4200000], [1 / 1000, 1 / 1000],
    [1 / 5, 1 / 5], 1 / 10, 1 / 100, 1, 1 / 10, 1 / 1000⟩

example : check exCheck 1 = some (95 / 300) := by decide +kernel

/-- The step tried next by the solver. -/
theorem retry_h_le {c : StepControl.Cfg} {l l' : StepControl.Loop} {a : StepControl.Attempt} {x : ℝ}
    (hp : a.pred = some x) (hr : StepControl.pass c l a = .retry l') :
    l'.h = StepControl.lower l.vN x * 0.9 ∧ l'.vN = some (StepControl.lower l.vN x) := by
  rcases StepControl.pass_cases hr with ⟨loc, l'', hpr, hl'', h | h⟩ | ⟨h, _⟩ | ⟨h, _⟩ | ⟨h, _⟩
  · cases h.2
  · cases h.2
    rw [hp] at hpr
    cases hpr
    rw [hl'']
    exact ⟨rfl, rfl⟩
  all_goals rw [hp] at h; cases h

theorem lower_pos {vN : Option ℝ} {x : ℝ} (h1 : 0 < x) (hv : ∀ v, vN = some v → 0 < v) :
    0 < StepControl.lower vN x := by
  unfold StepControl.lower
  split
  · exact h1
  · split_ifs
    · exact h1
    · exact hv _ rfl

/-- **C25** (solver): if the predictor of a part violates the stability limit, the next attempt of the
solver has a positive length below 0.855 times the old one, at which the same check passes. -/
theorem C25_solver_retry_passes (c : StepControl.Cfg) (l l' : StepControl.Loop) (a : StepControl.Attempt)
    (ch : Check ℝ) (hh : 0 < l.h) (hv : ∀ v, l.vN = some v → 0 < v) (hp : a.pred = check ch l.h)
    (hviol : check ch l.h ≠ none) (hr : StepControl.pass c l a = .retry l') :
    0 < l'.h ∧ l'.h < 0.9 * (0.95 * l.h) ∧ check ch l'.h = none := by
  obtain ⟨x, hx⟩ := Option.ne_none_iff_exists'.1 hviol
  obtain ⟨h1, h2, h3⟩ := C25_reported_step_passes ch l.h x hh hx
  obtain ⟨e1, -⟩ := retry_h_le (hp.trans hx) hr
  have hlow : StepControl.lower l.vN x ≤ x := StepControl.lower_le _ _
  have hpos : 0 < StepControl.lower l.vN x := lower_pos h1 hv
  rw [e1]
  refine ⟨by positivity, ?_, h3 _ (by positivity) ?_⟩
  · norm_num at h2 ⊢; linarith
  · linarith

/-- All stability reports of the attempts come from checks made at the step length that was tried. -/
def FromChecks (c : StepControl.Cfg) : StepControl.Loop → List StepControl.Attempt → Prop
  | _, [] => True
  | l, a :: as =>
    (∀ x, (a.pred = some x ∨ x ∈ a.corr) → ∃ ch : Check ℝ, check ch l.h = some x) ∧
    (∀ l', StepControl.pass c l a = .retry l' → FromChecks c l' as)

theorem foldl_report_vN_pos (xs : List ℝ) (l : StepControl.Loop) (hx : ∀ x ∈ xs, 0 < x)
    (hv : ∀ v, l.vN = some v → 0 < v) : ∀ v, (xs.foldl StepControl.report l).vN = some v → 0 < v := by
  induction xs generalizing l with
  | nil => exact hv
  | cons x xs ih =>
    refine ih (StepControl.report l x) (fun y hy => hx y (List.mem_cons_of_mem _ hy)) ?_
    intro v hv'
    have h1 := hx x List.mem_cons_self
    simp only [StepControl.report, Option.some.injEq] at hv'
    rw [← hv']
    exact lower_pos h1 hv

/-- **C25** (link to the step control): whatever the parts are, the reports of their stability checks have
the property `Honest` that the theorems on the step control (C03, C06, C07) assume. -/
theorem C25_checks_are_honest (c : StepControl.Cfg) (hc : c.Valid) (as : List StepControl.Attempt) :
    ∀ l : StepControl.Loop, 0 < l.h → (∀ v, l.vN = some v → 0 < v) → FromChecks c l as →
      StepControl.Honest c l as := by
  induction as with
  | nil => intro l _ _ _; trivial
  | cons a as ih =>
    intro l hl hv hf
    obtain ⟨f1, f2⟩ := hf
    have hon : ∀ x, (a.pred = some x ∨ x ∈ a.corr) → 0 < x ∧ x < l.h := by
      intro x hx
      obtain ⟨ch, hch⟩ := f1 x hx
      obtain ⟨h1, h2, -⟩ := C25_reported_step_passes ch l.h x hl hch
      exact ⟨h1, by linarith⟩
    refine ⟨hon, fun l' hr => ?_⟩
    have : 0 < l'.h ∧ ∀ v, l'.vN = some v → 0 < v := by
      rcases StepControl.pass_cases hr with ⟨loc, l'', hpr, -, -⟩ | ⟨_, e, _, _, _, l0, _, h | h⟩ |
        ⟨_, _, l0, _, h⟩ | ⟨_, hb, l0, hl0, h | h⟩
      · obtain ⟨e1, e2⟩ := retry_h_le hpr hr
        have hpos := lower_pos (hon loc (.inl hpr)).1 hv
        rw [e1, e2]
        refine ⟨by positivity, fun v hv' => ?_⟩
        cases hv'
        exact hpos
      · cases h.2
      · cases h.2
      · cases h
      · cases h.2
      · cases h.2
        refine ⟨lt_of_lt_of_le hc.min_pos (le_max_left _ _), ?_⟩
        have := foldl_report_vN_pos a.corr l (fun x hx => (hon x (.inr hx)).1) hv
        rw [hl0]
        exact this
    exact ih l' this.1 this.2 (f2 l' hr)

/-- A pipe at rest but for one flow, over the real numbers. -/
def exCheckR : Check ℝ := .oneD ⟨[], [], [], [3], [1], [], [], [], 1, 1, 1, 1, 1⟩

theorem exCheckR_violated : check exCheckR 1 = some (95 / 300) := by
  norm_num [check, exCheckR, divider, diff1D, cfl, maxL]

/-- The hypotheses of the two solver theorems hold for a step of one second that violates the limit. -/
example : ∃ (c : StepControl.Cfg) (l l' : StepControl.Loop) (a : StepControl.Attempt), c.Valid ∧
    0 < l.h ∧ l.vN = none ∧ a.pred = check exCheckR l.h ∧ check exCheckR l.h ≠ none ∧
    StepControl.pass c l a = .retry l' ∧ FromChecks c l [a] := by
  have h : StepControl.pass StepControl.dflt ⟨1, none, 1.1, 0, 0, 0⟩ ⟨some (95 / 300), [], none⟩ =
    .retry ⟨95 / 300 * 0.9, some (95 / 300), StepControl.damp 1.1, 0, 1, 1⟩ := rfl
  refine ⟨_, _, _, _, StepControl.dflt_valid, one_pos, rfl, exCheckR_violated.symm,
    by simp [exCheckR_violated], h, ?_, ?_⟩
  · rintro x (hx | hx)
    · cases hx
      exact ⟨_, exCheckR_violated⟩
    · simp at hx
  · intro l' _
    trivial

end Verif.Stability
