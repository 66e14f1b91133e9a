import Verif.Model.StepControl
import Mathlib.Tactic.Linarith
import Mathlib.Tactic.Positivity
import Mathlib.Tactic.NormNum
import Mathlib.Tactic.GCongr
import Mathlib.Analysis.SpecificLimits.Basic

/-! Helper lemmas about the retry loop. -/

namespace Verif.StepControl

theorem errFactor_le {c : Cfg} (hs : 0 < c.safety) {e : ℝ} (he : 1 ≤ e) :
    errFactor c e ≤ c.safety := by
  have h1 : e ^ (-1 / 3 : ℝ) ≤ 1 := Real.rpow_le_one_of_one_le_of_nonpos he (by norm_num)
  unfold errFactor
  nlinarith

theorem errFactor_pos {c : Cfg} (hs : 0 < c.safety) {e : ℝ} (he : 0 < e) :
    0 < errFactor c e := mul_pos hs (Real.rpow_pos_of_pos he _)

/-- Errors that reach the shrink branch are NaN or at least 1. -/
def BadErr (err : Option ℝ) : Prop := ∀ e, err = some e → 1 ≤ e

theorem shrink_le {c : Cfg} (hc : c.Valid) {err : Option ℝ} (he : BadErr err) :
    shrink c err ≤ max c.minFactor c.safety := by
  cases err with
  | none => simp [shrink]
  | some e =>
    have := errFactor_le hc.safety_pos (he e rfl)
    simp only [shrink]
    exact max_le_max le_rfl this

theorem shrink_pos {c : Cfg} (hc : c.Valid) (err : Option ℝ) : 0 < shrink c err := by
  cases err with
  | none => simpa [shrink] using hc.minFactor_pos
  | some e => exact lt_of_lt_of_le hc.minFactor_pos (le_max_left _ _)

theorem shrink_lt_one {c : Cfg} (hc : c.Valid) {err : Option ℝ} (he : BadErr err) :
    shrink c err < 1 :=
  lt_of_le_of_lt (shrink_le hc he) (max_lt hc.minFactor_lt hc.safety_lt)

theorem one_le_growth (c : Cfg) (mf : ℝ) (n : ℕ) (e : ℝ) : 1 ≤ growth c mf n e := le_max_left _ _

theorem damp_le {mf : ℝ} (h : 1 ≤ mf) : damp mf ≤ mf := by
  unfold damp
  split_ifs with h1 h2
  · linarith
  · calc mf ^ (0.99 : ℝ) ≤ mf ^ (1 : ℝ) := Real.rpow_le_rpow_of_exponent_le h (by norm_num)
      _ = mf := Real.rpow_one _
  · exact le_rfl

theorem le_damp {mf m : ℝ} (h : m ≤ mf) (hm : m ≤ 1.05) : m ≤ damp mf := by
  unfold damp
  split_ifs with h1 h2
  · exact hm
  · exact le_trans hm (not_lt.mp h2)
  · exact h

theorem lower_le (vN : Option ℝ) (x : ℝ) : lower vN x ≤ x := by
  unfold lower; split
  · exact le_rfl
  · split_ifs with h
    · exact le_rfl
    · exact not_lt.mp h

theorem lower_le_old {vN : Option ℝ} {v x : ℝ} (h : vN = some v) : lower vN x ≤ v := by
  subst h; unfold lower; simp only; split_ifs with h
  · exact le_of_lt h
  · exact le_rfl

theorem le_lower {vN : Option ℝ} {m x : ℝ} (hx : m ≤ x) (hv : ∀ v, vN = some v → m ≤ v) :
    m ≤ lower vN x := by
  unfold lower; split
  · exact hx
  · split_ifs
    · exact hx
    · exact hv _ rfl

/-! ### fields after a list of corrector reports -/

theorem foldl_report_h (xs : List ℝ) (l : Loop) : (xs.foldl report l).h = l.h := by
  induction xs generalizing l with
  | nil => rfl
  | cons x xs ih => simp [ih, report]

theorem foldl_report_sinceFail (xs : List ℝ) (l : Loop) :
    (xs.foldl report l).sinceFail = l.sinceFail := by
  induction xs generalizing l with
  | nil => rfl
  | cons x xs ih => simp [ih, report]

theorem foldl_report_cnt (xs : List ℝ) (l : Loop) : (xs.foldl report l).cnt = l.cnt := by
  induction xs generalizing l with
  | nil => rfl
  | cons x xs ih => simp [ih, report]

theorem foldl_report_failed (xs : List ℝ) (l : Loop) :
    (xs.foldl report l).failed = l.failed := by
  induction xs generalizing l with
  | nil => rfl
  | cons x xs ih => simp [ih, report]

theorem foldl_report_maxFactor_le (xs : List ℝ) (l : Loop) (h : 1 ≤ l.maxFactor) :
    1 ≤ (xs.foldl report l).maxFactor ∧ (xs.foldl report l).maxFactor ≤ l.maxFactor := by
  induction xs generalizing l with
  | nil => exact ⟨h, le_rfl⟩
  | cons x xs ih =>
    have h1 : 1 ≤ (report l x).maxFactor := le_damp h (by norm_num)
    have h2 : (report l x).maxFactor ≤ l.maxFactor := damp_le h
    obtain ⟨a, b⟩ := ih (report l x) h1
    exact ⟨a, b.trans h2⟩

/-! ### shape of one pass -/

/-- The pass in a readable case distinction. -/
theorem pass_cases {c : Cfg} {l : Loop} {a : Attempt} {r : Pass} (h : pass c l a = r) :
    (∃ loc l', a.pred = some loc ∧
        l' = Loop.mk (lower l.vN loc * 0.9) (some (lower l.vN loc)) (damp l.maxFactor) 0
          (l.cnt + 1) (l.failed + 1) ∧
        ((l.cnt + 1 = 100 ∧ r = .raise l') ∨ (l.cnt + 1 ≠ 100 ∧ r = .retry l'))) ∨
    (a.pred = none ∧ ∃ e, a.err = some e ∧ 0 < e ∧ e < 1 ∧ ∃ l0, l0 = a.corr.foldl report l ∧
        ((c.maxStep < l.h * growth c l0.maxFactor l.sinceFail e ∧
            r = .accept { l0 with h := c.maxStep } 5) ∨
         (l.h * growth c l0.maxFactor l.sinceFail e ≤ c.maxStep ∧
            r = .accept { l0 with h := l.h * growth c l0.maxFactor l.sinceFail e } 4))) ∨
    (a.pred = none ∧ a.err = some 0 ∧ ∃ l0, l0 = a.corr.foldl report l ∧
        r = .accept { l0 with h := min c.maxStep (l.h * l0.maxFactor) } 7) ∨
    (a.pred = none ∧ (∀ e, a.err = some e → e < 0 ∨ 1 ≤ e) ∧ ∃ l0, l0 = a.corr.foldl report l ∧
        ((l.h = c.minStep ∧ r = .accept l0 6) ∨
         (l.h ≠ c.minStep ∧
            r = .retry { l0 with h := max c.minStep (l.h * shrink c a.err)
                                 failed := l.failed + 1 }))) := by
  subst h
  unfold pass
  split
  · rename_i loc hp
    left
    refine ⟨loc, _, hp, rfl, ?_⟩
    by_cases h100 : l.cnt + 1 = 100
    · left; exact ⟨h100, by simp [report, h100]⟩
    · right; exact ⟨h100, by simp [report, h100]⟩
  · rename_i hp
    right
    have hmax : ∀ x : ℝ, (if x < c.minStep then c.minStep else x) = max c.minStep x := by
      intro x; split_ifs with hx
      · exact (max_eq_left hx.le).symm
      · exact (max_eq_right (not_lt.mp hx)).symm
    have hmin : ∀ x : ℝ, (if c.maxStep < x then c.maxStep else x) = min c.maxStep x := by
      intro x; split_ifs with hx
      · exact (min_eq_left hx.le).symm
      · exact (min_eq_right (not_lt.mp hx)).symm
    split
    · rename_i he
      right; right
      refine ⟨hp, by simp [he], _, rfl, ?_⟩
      simp only [foldl_report_h, foldl_report_failed, hmax]
      by_cases h1 : l.h = c.minStep
      · left; simp [h1]
      · right; simp [h1]
    · rename_i e he
      by_cases h1 : 0 < e ∧ e < 1
      · left
        refine ⟨hp, e, he, h1.1, h1.2, _, rfl, ?_⟩
        simp only [foldl_report_h, foldl_report_sinceFail, h1, and_self, if_true]
        by_cases h2 : c.maxStep < l.h * growth c (a.corr.foldl report l).maxFactor l.sinceFail e
        · left; exact ⟨h2, by simp [h2]⟩
        · right; exact ⟨not_lt.mp h2, by simp [h2]⟩
      · by_cases h2 : e = 0
        · right; left
          subst h2
          refine ⟨hp, he, _, rfl, ?_⟩
          simp [foldl_report_h, hmin]
        · right; right
          refine ⟨hp, ?_, _, rfl, ?_⟩
          · intro e' he'
            have : e' = e := by simpa [he] using he'.symm
            subst this
            by_contra hcon
            push Not at hcon
            exact h1 ⟨lt_of_le_of_ne hcon.1 (Ne.symm h2), hcon.2⟩
          · simp only [foldl_report_h, foldl_report_failed, hmax, h1, h2, if_false]
            by_cases h3 : l.h = c.minStep
            · left; simp [h3]
            · right; simp [h3]

end Verif.StepControl

namespace Verif.StepControl

theorem exec_h_le {c : Cfg} {l : Loop} {as : List Attempt} {r : Result} (hx : Exec c l as r)
    {h : ℝ} {code f : ℕ} {e' : Env} (hr : r = .accepted h code f e') (hh : Honest c l as)
    (hc : c.Valid) (he : ∀ a ∈ as, ∀ x, a.err = some x → 0 ≤ x)
    {M : ℝ} (hM : c.minStep ≤ M) (hl : l.h ≤ M) : h ≤ M := by
  have hmin := hc.min_pos
  induction hx with
  | accept hp => cases hr; exact hl
  | raise hp => cases hr
  | @retry l a l' as r hp hx ih =>
    refine ih hr (hh.2 l' hp) (fun a' ha' => he a' (List.mem_cons_of_mem _ ha')) ?_
    rcases pass_cases hp with ⟨loc, l'', hpr, hl'', h | h⟩ | ⟨_, e, _, _, _, l0, _, h | h⟩ |
      ⟨_, _, l0, _, h⟩ | ⟨_, hb, l0, hl0, h | h⟩
    · cases h.2
    · cases h.2
      rw [hl'']
      have h1 := lower_le l.vN loc
      have h2 := hh.1 loc (Or.inl hpr)
      show lower l.vN loc * 0.9 ≤ M
      by_cases h0 : 0 ≤ lower l.vN loc
      · have := h2.2; linarith
      · linarith
    · cases h.2
    · cases h.2
    · cases h
    · cases h.2
    · cases h.2
      show max c.minStep (l.h * shrink c a.err) ≤ M
      refine max_le hM ?_
      have hbe : BadErr a.err := by
        intro x hx
        rcases hb x hx with h1 | h1
        · exact absurd h1 (not_lt.mpr (he a (List.mem_cons_self) x hx))
        · exact h1
      have hs := shrink_lt_one hc hbe
      have hs' := shrink_pos hc a.err
      by_cases h0 : 0 ≤ l.h <;> nlinarith

theorem exec_newStep_le {c : Cfg} {l : Loop} {as : List Attempt} {r : Result} (hx : Exec c l as r)
    {h : ℝ} {code f : ℕ} {e' : Env} (hr : r = .accepted h code f e')
    (hc : c.Valid) : e'.newStep ≤ c.maxStep := by
  induction hx with
  | raise hp => cases hr
  | retry hp hx ih => exact ih hr
  | accept hp =>
    cases hr
    rcases pass_cases hp with ⟨loc, l'', hpr, hl'', h | h⟩ | ⟨_, e, _, _, _, l0, _, h | h⟩ |
      ⟨_, _, l0, _, h⟩ | ⟨_, hb, l0, hl0, h | h⟩
    · cases h.2
    · cases h.2
    · cases h.2; exact le_rfl
    · cases h.2; exact h.1
    · cases h; exact min_le_left _ _
    · cases h.2
      rw [hl0]; simp only [foldl_report_h]; rw [h.1]; exact hc.min_lt_max.le
    · cases h.2

/-- Bounds on the environment left behind by an accepted call. -/
theorem exec_env {c : Cfg} {l : Loop} {as : List Attempt} {r : Result} (hx : Exec c l as r)
    {h : ℝ} {code f : ℕ} {e' : Env} (hr : r = .accepted h code f e') (hmf : 1 ≤ l.maxFactor) :
    1 ≤ e'.maxFactor ∧ e'.maxFactor ≤ l.maxFactor ∧ e'.sinceFail ≤ l.sinceFail := by
  induction hx with
  | raise hp => cases hr
  | @retry l a l' as r hp hx ih =>
    have key : 1 ≤ l'.maxFactor ∧ l'.maxFactor ≤ l.maxFactor ∧ l'.sinceFail ≤ l.sinceFail := by
      rcases pass_cases hp with ⟨loc, l'', hpr, hl'', h | h⟩ | ⟨_, e, _, _, _, l0, _, h | h⟩ |
        ⟨_, _, l0, _, h⟩ | ⟨_, hb, l0, hl0, h | h⟩
      · cases h.2
      · cases h.2
        subst hl''
        exact ⟨le_damp hmf (by norm_num), damp_le hmf, Nat.zero_le _⟩
      · cases h.2
      · cases h.2
      · cases h
      · cases h.2
      · cases h.2
        subst hl0
        have := foldl_report_maxFactor_le a.corr l hmf
        exact ⟨this.1, this.2, (foldl_report_sinceFail _ _).le⟩
    obtain ⟨h1, h2, h3⟩ := ih hr key.1
    exact ⟨h1, h2.trans key.2.1, h3.trans key.2.2⟩
  | @accept l a l' code' hp =>
    cases hr
    have h1 := foldl_report_maxFactor_le a.corr l hmf
    have h2 := foldl_report_sinceFail a.corr l
    rcases pass_cases hp with ⟨loc, l'', hpr, hl'', h | h⟩ | ⟨_, e, _, _, _, l0, hl0, h | h⟩ |
      ⟨_, _, l0, hl0, h⟩ | ⟨_, hb, l0, hl0, h | h⟩
    · cases h.2
    · cases h.2
    · cases h.2; subst hl0; exact ⟨h1.1, h1.2, h2.le⟩
    · cases h.2; subst hl0; exact ⟨h1.1, h1.2, h2.le⟩
    · cases h; subst hl0; exact ⟨h1.1, h1.2, h2.le⟩
    · cases h.2; subst hl0; exact ⟨h1.1, h1.2, h2.le⟩
    · cases h.2

theorem growth_le {c : Cfg} (hc : c.Valid) {mf : ℝ} (hmf : 1 ≤ mf) (n : ℕ) {e : ℝ} :
    growth c mf n e ≤ mf * max 1 (((n : ℝ) / c.fctrRec) ^ 2) := by
  unfold growth
  have h0 : 0 ≤ ((n : ℝ) / c.fctrRec) ^ 2 := by positivity
  have h1 : (1 : ℝ) ≤ max 1 (((n : ℝ) / c.fctrRec) ^ 2) := le_max_left _ _
  have h2 : ((n : ℝ) / c.fctrRec) ^ 2 ≤ max 1 (((n : ℝ) / c.fctrRec) ^ 2) := le_max_right _ _
  have h3 : min mf (errFactor c e) ≤ mf := min_le_left _ _
  apply max_le
  · nlinarith
  · calc min mf (errFactor c e) * ((n : ℝ) / c.fctrRec) ^ 2
        ≤ mf * ((n : ℝ) / c.fctrRec) ^ 2 := by gcongr
      _ ≤ _ := by gcongr

/-- The proposal for the next step against the step accepted. -/
theorem exec_newStep_growth {c : Cfg} {l : Loop} {as : List Attempt} {r : Result}
    (hx : Exec c l as r) {h : ℝ} {code f : ℕ} {e' : Env} (hr : r = .accepted h code f e')
    (hc : c.Valid) (hmf : 1 ≤ l.maxFactor) (hpos : 0 < h) :
    e'.newStep ≤ h * (l.maxFactor * max 1 (((l.sinceFail : ℝ) / c.fctrRec) ^ 2)) := by
  have hrec := hc.rec_pos
  induction hx with
  | raise hp => cases hr
  | @retry l a l' as r hp hx ih =>
    have key : 1 ≤ l'.maxFactor ∧ l'.maxFactor ≤ l.maxFactor ∧ l'.sinceFail ≤ l.sinceFail := by
      rcases pass_cases hp with ⟨loc, l'', hpr, hl'', h | h⟩ | ⟨_, e, _, _, _, l0, _, h | h⟩ |
        ⟨_, _, l0, _, h⟩ | ⟨_, hb, l0, hl0, h | h⟩
      · cases h.2
      · cases h.2
        subst hl''
        exact ⟨le_damp hmf (by norm_num), damp_le hmf, Nat.zero_le _⟩
      · cases h.2
      · cases h.2
      · cases h
      · cases h.2
      · cases h.2
        subst hl0
        have := foldl_report_maxFactor_le a.corr l hmf
        exact ⟨this.1, this.2, (foldl_report_sinceFail _ _).le⟩
    refine (ih hr key.1).trans ?_
    have h2 : (l'.sinceFail : ℝ) ≤ l.sinceFail := by exact_mod_cast key.2.2
    have h3 := key.2.1
    have h4 := key.1
    gcongr
  | @accept l a l' code' hp =>
    cases hr
    obtain ⟨h1, h1'⟩ := foldl_report_maxFactor_le a.corr l hmf
    have h2 := foldl_report_sinceFail a.corr l
    have hm : (1 : ℝ) ≤ max 1 (((l.sinceFail : ℝ) / c.fctrRec) ^ 2) := le_max_left _ _
    have hg : ∀ e, l.h * growth c (a.corr.foldl report l).maxFactor l.sinceFail e ≤
        l.h * (l.maxFactor * max 1 (((l.sinceFail : ℝ) / c.fctrRec) ^ 2)) := by
      intro e
      have := growth_le hc h1 l.sinceFail (e := e)
      have : growth c (a.corr.foldl report l).maxFactor l.sinceFail e ≤
        l.maxFactor * max 1 (((l.sinceFail : ℝ) / c.fctrRec) ^ 2) := this.trans (by gcongr)
      gcongr
    have hone : 1 ≤ l.maxFactor * max 1 (((l.sinceFail : ℝ) / c.fctrRec) ^ 2) := by nlinarith
    rcases pass_cases hp with ⟨loc, l'', hpr, hl'', h | h⟩ | ⟨_, e, _, _, _, l0, hl0, h | h⟩ |
      ⟨_, _, l0, hl0, h⟩ | ⟨_, hb, l0, hl0, h | h⟩
    · cases h.2
    · cases h.2
    · cases h.2; subst hl0; exact h.1.le.trans (hg e)
    · cases h.2; subst hl0; exact hg e
    · cases h; subst hl0
      refine (min_le_right _ _).trans ?_
      show l.h * (a.corr.foldl report l).maxFactor ≤ _
      have : (a.corr.foldl report l).maxFactor ≤
          l.maxFactor * max 1 (((l.sinceFail : ℝ) / c.fctrRec) ^ 2) := by nlinarith
      gcongr
    · cases h.2; subst hl0
      simp only [foldl_report_h]
      nlinarith
    · cases h.2

/-- Without instability in the predictor no step is below the minimum. -/
theorem exec_min_le {c : Cfg} {l : Loop} {as : List Attempt} {r : Result} (hx : Exec c l as r)
    {h : ℝ} {code f : ℕ} {e' : Env} (hr : r = .accepted h code f e')
    (hc : c.Valid) (hmf : 1 ≤ l.maxFactor) (hs : ∀ a ∈ as, a.pred = none)
    (hl : c.minStep ≤ l.h) : c.minStep ≤ h ∧ c.minStep ≤ e'.newStep := by
  have hmin := hc.min_pos
  induction hx with
  | raise hp => cases hr
  | @retry l a l' as r hp hx ih =>
    have hs' : ∀ a ∈ as, a.pred = none := fun a' ha' => hs a' (List.mem_cons_of_mem _ ha')
    rcases pass_cases hp with ⟨loc, l'', hpr, hl'', h | h⟩ | ⟨_, e, _, _, _, l0, _, h | h⟩ |
      ⟨_, _, l0, _, h⟩ | ⟨_, hb, l0, hl0, h | h⟩
    · cases h.2
    · rw [hs a List.mem_cons_self] at hpr; cases hpr
    · cases h.2
    · cases h.2
    · cases h
    · cases h.2
    · cases h.2
      subst hl0
      exact ih hr (foldl_report_maxFactor_le a.corr l hmf).1 hs' (le_max_left _ _)
  | @accept l a l' code' hp =>
    cases hr
    refine ⟨hl, ?_⟩
    have h1 := (foldl_report_maxFactor_le a.corr l hmf).1
    rcases pass_cases hp with ⟨loc, l'', hpr, hl'', h | h⟩ | ⟨_, e, _, _, _, l0, hl0, h | h⟩ |
      ⟨_, _, l0, hl0, h⟩ | ⟨_, hb, l0, hl0, h | h⟩
    · cases h.2
    · cases h.2
    · cases h.2; exact hc.min_lt_max.le
    · cases h.2
      have := one_le_growth c l0.maxFactor l.sinceFail e
      show c.minStep ≤ l.h * growth c l0.maxFactor l.sinceFail e
      nlinarith
    · cases h; subst hl0
      refine le_min hc.min_lt_max.le ?_
      show c.minStep ≤ l.h * (a.corr.foldl report l).maxFactor
      nlinarith
    · cases h.2; subst hl0; simpa [foldl_report_h] using hl
    · cases h.2

/-- With honest reports all steps are positive. -/
theorem exec_pos {c : Cfg} {l : Loop} {as : List Attempt} {r : Result} (hx : Exec c l as r)
    {h : ℝ} {code f : ℕ} {e' : Env} (hr : r = .accepted h code f e') (hh : Honest c l as)
    (hc : c.Valid) (hmf : 1 ≤ l.maxFactor) (hl : 0 < l.h)
    (hv : ∀ v, l.vN = some v → 0 < v) : 0 < h ∧ 0 < e'.newStep := by
  have hmin := hc.min_pos
  have hvN : ∀ (xs : List ℝ) (l : Loop), (∀ x ∈ xs, 0 < x) → (∀ v, l.vN = some v → 0 < v) →
      ∀ v, (xs.foldl report l).vN = some v → 0 < v := by
    intro xs
    induction xs with
    | nil => intro l _ h; exact h
    | cons x xs ih =>
      intro l hx hv
      refine ih (report l x) (fun y hy => hx y (List.mem_cons_of_mem _ hy)) ?_
      intro v hv'
      have hv'' : lower l.vN x = v := by simpa [report] using hv'
      rw [← hv'']
      cases hl : l.vN with
      | none => simpa [lower] using hx x List.mem_cons_self
      | some w =>
        simp only [lower]; split_ifs
        · exact hx x List.mem_cons_self
        · exact hv w hl
  induction hx with
  | raise hp => cases hr
  | @retry l a l' as r hp hx ih =>
    rcases pass_cases hp with ⟨loc, l'', hpr, hl'', h | h⟩ | ⟨_, e, _, _, _, l0, _, h | h⟩ |
      ⟨_, _, l0, _, h⟩ | ⟨_, hb, l0, hl0, h | h⟩
    · cases h.2
    · have hloc := (hh.1 loc (Or.inl hpr)).1
      have h3 := hvN [loc] l (by simpa using hloc) hv (lower l.vN loc) (by simp [report])
      have := hh.2 l' hp
      cases h.2
      subst hl''
      refine ih hr this (le_damp hmf (by norm_num)) ?_ ?_
      · show 0 < lower l.vN loc * 0.9
        linarith
      · intro v hv'
        have : lower l.vN loc = v := by simpa using hv'
        rw [← this]; exact h3
    · cases h.2
    · cases h.2
    · cases h
    · cases h.2
    · have := hh.2 l' hp
      cases h.2
      subst hl0
      refine ih hr this (foldl_report_maxFactor_le a.corr l hmf).1 ?_ ?_
      · exact lt_of_lt_of_le hmin (le_max_left _ _)
      · exact hvN a.corr l (fun x hx => (hh.1 x (Or.inr hx)).1) hv
  | @accept l a l' code' hp =>
    cases hr
    refine ⟨hl, ?_⟩
    have h1 := (foldl_report_maxFactor_le a.corr l hmf).1
    have hmax : 0 < c.maxStep := hmin.trans hc.min_lt_max
    rcases pass_cases hp with ⟨loc, l'', hpr, hl'', h | h⟩ | ⟨_, e, _, _, _, l0, hl0, h | h⟩ |
      ⟨_, _, l0, hl0, h⟩ | ⟨_, hb, l0, hl0, h | h⟩
    · cases h.2
    · cases h.2
    · cases h.2; exact hmax
    · cases h.2
      have := one_le_growth c l0.maxFactor l.sinceFail e
      show 0 < l.h * growth c l0.maxFactor l.sinceFail e
      exact mul_pos hl (by linarith)
    · cases h; subst hl0
      refine lt_min hmax ?_
      show 0 < l.h * (a.corr.foldl report l).maxFactor
      exact mul_pos hl (by linarith)
    · cases h.2; subst hl0; simpa [foldl_report_h] using hl
    · cases h.2

theorem exec_count {c : Cfg} {l : Loop} {as : List Attempt} {r : Result} (hx : Exec c l as r)
  (hl : l.cnt < 100) :
    (r = .raised → l.cnt + (as.filter (·.pred.isSome)).length = 100) ∧
    (r ≠ .raised → l.cnt + (as.filter (·.pred.isSome)).length < 100) := by
  induction hx with
  | @accept l a l' code hp =>
    have : a.pred = none := by
      rcases pass_cases hp with ⟨loc, l'', hpr, hl'', h | h⟩ | ⟨hn, _⟩ | ⟨hn, _⟩ | ⟨hn, _⟩
      · cases h.2
      · cases h.2
      all_goals exact hn
    simp [this, hl]
  | @raise l a l' hp =>
    rcases pass_cases hp with ⟨loc, l'', hpr, hl'', h | h⟩ | ⟨_, e, _, _, _, l0, _, h | h⟩ |
      ⟨_, _, l0, _, h⟩ | ⟨_, hb, l0, hl0, h | h⟩
    · simp [hpr, h.1]
    · cases h.2
    · cases h.2
    · cases h.2
    · cases h
    · cases h.2
    · cases h.2
  | @retry l a l' as r hp hx ih =>
    rcases pass_cases hp with ⟨loc, l'', hpr, hl'', h | h⟩ | ⟨_, e, _, _, _, l0, _, h | h⟩ |
      ⟨_, _, l0, _, h⟩ | ⟨hpr, hb, l0, hl0, h | h⟩
    · cases h.2
    · cases h.2
      subst hl''
      have hx' := h.1
      obtain ⟨h1, h2⟩ := ih
        (by show l.cnt + 1 < 100; omega)
      simp only [List.filter_cons, hpr, Option.isSome_some, if_true, List.length_cons]
      constructor
      · intro hr; have := h1 hr; simp only at this; omega
      · intro hr; have := h2 hr; simp only at this; omega
    · cases h.2
    · cases h.2
    · cases h
    · cases h.2
    · cases h.2
      subst hl0
      have hcnt := foldl_report_cnt a.corr l
      obtain ⟨h1, h2⟩ := ih (by simp only [hcnt]; exact hl)
      simp only [hcnt] at h1 h2
      simpa [hpr] using And.intro h1 h2

/-- The accepted attempt and the rejected ones before it. -/
theorem exec_last {c : Cfg} {l : Loop} {as : List Attempt} {r : Result} (hx : Exec c l as r)
    {h : ℝ} {code f : ℕ} {e' : Env} (hr : r = .accepted h code f e') :
    ∃ pre a, as = pre ++ [a] ∧ a.pred = none ∧ f = l.failed + pre.length ∧
      (∀ b ∈ pre, b.pred.isSome ∨ ∀ x, b.err = some x → x < 0 ∨ 1 ≤ x) ∧
      ((∃ x, a.err = some x ∧ 0 < x ∧ x < 1 ∧
          (code = 5 ∧ e'.newStep = c.maxStep ∨ code = 4 ∧ h ≤ e'.newStep ∨ h < 0)) ∨
        (a.err = some 0 ∧ code = 7) ∨
        ((∀ x, a.err = some x → x < 0 ∨ 1 ≤ x) ∧ h = c.minStep ∧ code = 6 ∧
          e'.newStep = c.minStep)) := by
  induction hx with
  | raise hp => cases hr
  | @retry l a l' as r hp hx ih =>
    obtain ⟨pre, a', has, h1, h2, h3, h4⟩ := ih hr
    refine ⟨a :: pre, a', by simp [has], h1, ?_, ?_, h4⟩
    · have : l'.failed = l.failed + 1 := by
        rcases pass_cases hp with ⟨loc, l'', hpr, hl'', h | h⟩ | ⟨_, e, _, _, _, l0, _, h | h⟩ |
          ⟨_, _, l0, _, h⟩ | ⟨_, hb, l0, hl0, h | h⟩
        · cases h.2
        · cases h.2; subst hl''; rfl
        · cases h.2
        · cases h.2
        · cases h
        · cases h.2
        · cases h.2; rfl
      simp only [List.length_cons]; omega
    · intro b hb
      rcases List.mem_cons.mp hb with rfl | hb
      · rcases pass_cases hp with ⟨loc, l'', hpr, hl'', h | h⟩ | ⟨_, e, _, _, _, l0, _, h | h⟩ |
          ⟨_, _, l0, _, h⟩ | ⟨_, hb, l0, hl0, h | h⟩
        · cases h.2
        · left; simp [hpr]
        · cases h.2
        · cases h.2
        · cases h
        · cases h.2
        · right; exact hb
      · exact h3 b hb
  | @accept l a l' code' hp =>
    cases hr
    refine ⟨[], a, rfl, ?_⟩
    rcases pass_cases hp with ⟨loc, l'', hpr, hl'', h | h⟩ | ⟨hpr, e, he, h0, h1, l0, hl0, h | h⟩ |
      ⟨hpr, he, l0, hl0, h⟩ | ⟨hpr, hb, l0, hl0, h | h⟩
    · cases h.2
    · cases h.2
    · cases h.2; subst hl0
      exact ⟨hpr, by simp [foldl_report_failed], by simp,
        Or.inl ⟨e, he, h0, h1, Or.inl ⟨rfl, rfl⟩⟩⟩
    · cases h.2; subst hl0
      refine ⟨hpr, by simp [foldl_report_failed], by simp, Or.inl ⟨e, he, h0, h1, Or.inr ?_⟩⟩
      by_cases hn : l.h < 0
      · exact Or.inr hn
      · left
        refine ⟨rfl, ?_⟩
        have := one_le_growth c (a.corr.foldl report l).maxFactor l.sinceFail e
        show l.h ≤ l.h * _
        nlinarith [not_lt.mp hn]
    · cases h; subst hl0
      exact ⟨hpr, by simp [foldl_report_failed], by simp, Or.inr (Or.inl ⟨he, rfl⟩)⟩
    · cases h.2; subst hl0
      refine ⟨hpr, by simp [foldl_report_failed], by simp, Or.inr (Or.inr ⟨hb, h.1, rfl, ?_⟩)⟩
      simpa [foldl_report_h] using h.1
    · cases h.2

theorem sim_maxFactor {c : Cfg} {e : Env} {ss : List Step} {e' : Env} (hs : Sim c e ss e')
    (hmf : 1 ≤ e.maxFactor) :
    (∀ s ∈ ss, 1 ≤ s.env.maxFactor ∧ s.env.maxFactor ≤ e.maxFactor) ∧
      1 ≤ e'.maxFactor ∧ e'.maxFactor ≤ e.maxFactor := by
  induction hs with
  | nil => simp [hmf]
  | @cons e as h code f e' ss e'' hcall hs ih =>
    obtain ⟨h1, h2, _⟩ := exec_env hcall rfl hmf
    obtain ⟨h3, h4, h5⟩ := ih h1
    have h2' : e'.maxFactor ≤ e.maxFactor := h2
    refine ⟨?_, h4, h5.trans h2'⟩
    intro s hs
    rcases List.mem_cons.mp hs with rfl | hs
    · exact ⟨hmf, le_rfl⟩
    · exact ⟨(h3 s hs).1, (h3 s hs).2.trans h2'⟩

theorem Sim.split {c : Cfg} {e e' : Env} {pre post : List Step} (h : Sim c e (pre ++ post) e') :
    ∃ m, Sim c e pre m ∧ Sim c m post e' := by
  induction pre generalizing e with
  | nil => exact ⟨e, .nil, h⟩
  | cons s pre ih =>
    cases h with
    | cons hc hs =>
      obtain ⟨m, h1, h2⟩ := ih hs
      exact ⟨m, .cons hc h1, h2⟩

theorem pass_zero (c : Cfg) (l : Loop) (corr : List ℝ) :
    pass c l ⟨none, corr, some 0⟩ = .accept { corr.foldl report l with
      h := min c.maxStep (l.h * (corr.foldl report l).maxFactor) } 7 := by
  rcases pass_cases (rfl : pass c l ⟨none, corr, some 0⟩ = _) with ⟨loc, _, h, _⟩ |
    ⟨_, e, h, h0, _⟩ | ⟨_, _, l0, hl0, h⟩ | ⟨_, hb, _⟩
  · cases h
  · cases h; exact absurd h0 (lt_irrefl _)
  · subst hl0; exact h
  · rcases hb 0 rfl with h | h <;> norm_num at h

theorem pass_good (c : Cfg) (l : Loop) (corr : List ℝ) {e : ℝ} (h0 : 0 < e) (h1 : e < 1)
    (hle : l.h * growth c (corr.foldl report l).maxFactor l.sinceFail e ≤ c.maxStep) :
    pass c l ⟨none, corr, some e⟩ = .accept { corr.foldl report l with
      h := l.h * growth c (corr.foldl report l).maxFactor l.sinceFail e } 4 := by
  rcases pass_cases (rfl : pass c l ⟨none, corr, some e⟩ = _) with ⟨loc, _, h, _⟩ |
    ⟨_, e', h, _, _, l0, hl0, h'⟩ | ⟨_, h, _⟩ | ⟨_, hb, _⟩
  · cases h
  · cases h
    subst hl0
    rcases h' with h' | h'
    · exact absurd h'.1 (not_lt.mpr hle)
    · exact h'.2
  · have : e = 0 := by simpa using h
    linarith
  · rcases hb e rfl with h | h <;> linarith

end Verif.StepControl
