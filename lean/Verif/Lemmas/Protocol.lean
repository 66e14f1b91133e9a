import Verif.Spec.Protocol
import Mathlib.Tactic.Tauto
import Mathlib.Tactic.Linarith

/-! # What each call of the set-up protocol changes -/

namespace Verif.Protocol

theorem andThen_none {e : Env} (f : Env → Res) : andThen (e, none) f = f e := rfl

theorem andThen_some {e : Env} {x : Err} (f : Env → Res) : andThen (e, some x) f = (e, some x) := rfl

theorem check_true {x : Err} {e : Env} : check true x e = (e, none) := rfl

theorem check_false {x : Err} {e : Env} : check false x e = (e, some x) := rfl

theorem addSeries_cases (d : Int) (e : Env) :
    ((addSeries d e).2 = none ∧ (addSeries d e).1 = { e with timevec := some d }) ∨
    ((addSeries d e).2 ≠ none ∧ (addSeries d e).1 = e) := by
  unfold addSeries
  cases h : (e.timevec.isNone || e.timevec == some d)
  · right; simp [check, andThen]
  · left; simp [check, andThen]

theorem assignSeries_cases (d : Int) (e : Env) :
    ∃ s t, (assignSeries d e).1 = { e with start := s, timevec := t } := by
  unfold assignSeries
  split
  · cases h : (e.start == some d)
    · exact ⟨e.start, e.timevec, by simp [check, andThen]⟩
    · rw [check_true, andThen_none]
      rcases addSeries_cases d e with ⟨_, h⟩ | ⟨_, h⟩
      · exact ⟨e.start, some d, h⟩
      · exact ⟨e.start, e.timevec, h⟩
  · rcases addSeries_cases d { e with start := some d } with ⟨_, h⟩ | ⟨_, h⟩
    · exact ⟨some d, some d, h⟩
    · exact ⟨some d, e.timevec, h⟩
  · rcases addSeries_cases d e with ⟨_, h⟩ | ⟨_, h⟩
    · exact ⟨e.start, some d, h⟩
    · exact ⟨e.start, e.timevec, h⟩
  · exact ⟨e.start, e.timevec, rfl⟩

theorem assignAll_cases (l : List Int) (e : Env) :
    ∃ s t, (assignAll l e).1 = { e with start := s, timevec := t } := by
  induction l generalizing e with
  | nil => exact ⟨e.start, e.timevec, rfl⟩
  | cons d l ih =>
    obtain ⟨s, t, h⟩ := assignSeries_cases d e
    unfold assignAll andThen
    split
    · obtain ⟨s', t', h'⟩ := ih (assignSeries d e).1
      exact ⟨s', t', by rw [h', h]⟩
    · exact ⟨s, t, h⟩

/-- What a build can do. -/
theorem build_cases (e : Env) :
    ((build e).1 = e ∧ (build e).2 ≠ none) ∨
    (e.solverSet = true ∧ e.timeframeSet = true ∧ ∃ s t l p,
      (build e).1 = { e with cells := e.cells + e.parts.sum, start := s, timevec := t, linked := l,
                             topology := p } ∧
      ((build e).2 = none → p = true ∧ e.diskSet = true) ∧
      (p = true → e.topology = true ∨ (build e).2 = none) ∧ (e.topology = true → p = true)) := by
  unfold build
  cases h1 : (!e.parts.isEmpty)
  · left; simp [check, andThen]
  cases h2 : (e.solverSet && e.timeframeSet)
  · left; simp [check, andThen, h2]
  right
  rw [check_true, andThen_none, h2, check_true, andThen_none]
  refine ⟨by simp_all, by simp_all, ?_⟩
  obtain ⟨s, t, h⟩ := assignAll_cases e.series { e with cells := e.cells + e.parts.sum }
  generalize assignAll e.series { e with cells := e.cells + e.parts.sum } = r at h
  obtain ⟨e', x⟩ := r
  simp only at h
  subst h
  rcases x with _ | x
  · rw [andThen_none]
    cases h3 : (!e.linked)
    · exact ⟨s, t, e.linked, e.topology, by simp [check, andThen]⟩
    · simp only [check_true, andThen_none, h2, Bool.true_and]
      cases h4 : e.diskSet
      · exact ⟨s, t, true, e.topology, by simp [check, andThen]⟩
      · exact ⟨s, t, true, true, by simp [check, andThen]⟩
  · exact ⟨s, t, e.linked, e.topology, by simp [andThen]⟩

theorem reset_cases (e : Env) :
    ((reset e).1 = e ∧ (reset e).2 ≠ none) ∨
    (e.timeframeSet = true ∧ (reset e).2 = none ∧
      (reset e).1 = { e with maxFactor := e.maxFactor || e.adaptive }) := by
  unfold reset setTimeframe
  cases h : e.timeframeSet
  · left; simp [check, andThen]
  · right
    rw [check_true, andThen_none]
    refine ⟨rfl, rfl, ?_⟩
    cases e
    simp_all

theorem initArrays_cases (e : Env) :
    ((initArrays e).1 = e ∧ (initArrays e).2 ≠ none) ∨
    (e.saveEvery = true ∧ 0 < e.cells ∧ e.maxFactor = true ∧ (initArrays e).2 = none ∧
      (initArrays e).1 = { e with initialized := true }) := by
  unfold initArrays
  cases h1 : e.saveEvery
  · left; simp [check, andThen]
  rw [check_true, andThen_none]
  by_cases h2 : 0 < e.cells
  · rw [decide_eq_true h2, check_true, andThen_none]
    cases h3 : e.maxFactor
    · left; simp [check, andThen]
    · right
      refine ⟨rfl, h2, rfl, rfl, ?_⟩
      cases e
      simp_all [check, andThen]
  · left; simp [check, andThen, h2]

theorem andThen_inv (P : Env → Prop) {r : Res} {f : Env → Res} (hr : P r.1)
    (hf : P r.1 → P (f r.1).1) : P (andThen r f).1 := by
  unfold andThen
  split
  · exact hf hr
  · exact hr

/-- A property kept by the three stages of `initialize_sim` is kept by `initialize_sim`. -/
theorem initSim_inv (P : Env → Prop) (hb : ∀ e, P e → P (build e).1)
    (hr : ∀ e, P e → P (reset e).1) (hi : ∀ e, P e → P (initArrays e).1)
    (b r : Bool) (e : Env) (h : P e) : P (initSim b r e).1 := by
  unfold initSim
  refine andThen_inv P ?_ fun h1 => andThen_inv P ?_ fun h2 => hi _ h2
  · cases b
    · exact h
    · exact hb e h
  · cases r
    · exact h1
    · exact hr _ h1

/-- An `initialize_sim` that builds and returns went through a successful build. -/
theorem initSim_build {r : Bool} {e : Env} (h : (initSim true r e).2 = none) :
    (build e).2 = none := by
  unfold initSim andThen at h
  simp only [cond_true] at h
  split at h
  · assumption
  · simp at h

/-- An `initialize_sim` that does not return leaves `_initialized` alone. -/
theorem initSim_raised (b r : Bool) (e : Env) (h : (initSim b r e).2 ≠ none) :
    (initSim b r e).1.initialized = e.initialized := by
  have hb : ∀ e, (build e).1.initialized = e.initialized := fun e => by
    rcases build_cases e with ⟨h, _⟩ | ⟨_, _, s, t, l, p, h, _⟩ <;> rw [h]
  have hr : ∀ e, (reset e).1.initialized = e.initialized := fun e => by
    rcases reset_cases e with ⟨h, _⟩ | ⟨_, _, h⟩ <;> rw [h]
  have hi : ∀ e, (initArrays e).2 ≠ none → (initArrays e).1.initialized = e.initialized := fun e => by
    rcases initArrays_cases e with ⟨h, _⟩ | ⟨_, _, _, h, _⟩
    · intro _; rw [h]
    · intro h'; exact absurd h h'
  have h1 : (bif b then build e else (e, none)).1.initialized = e.initialized := by
    cases b
    · rfl
    · exact hb e
  have h2 : ∀ e : Env, (bif r then reset e else (e, none)).1.initialized = e.initialized := fun e => by
    cases r
    · rfl
    · exact hr e
  unfold initSim at h ⊢
  generalize (bif b then build e else (e, none)) = x at h h1 ⊢
  obtain ⟨e1, x⟩ := x
  rcases x with _ | x
  · rw [andThen_none] at h ⊢
    specialize h2 e1
    generalize (bif r then reset e1 else (e1, none)) = y at h h2 ⊢
    obtain ⟨e2, y⟩ := y
    rcases y with _ | y
    · rw [andThen_none] at h ⊢
      rw [hi _ h, h2, h1]
    · rw [andThen_some, h2, h1]
  · rw [andThen_some, h1]

theorem setSolver_cases (n : String) (i : Option Bool) (e : Env) :
    ((setSolver n i e).2 ≠ none ∧ (setSolver n i e).1 = e) ∨
    (e.timeframeSet = true ∧ (setSolver n i e).2 ≠ none ∧
      (setSolver n i e).1 = { e with solver := some (chosen e.adaptive) }) ∨
    (e.timeframeSet = true ∧ n = "heun" ∧ (setSolver n i e).2 = none ∧
      (setSolver n i e).1 = { e with solver := some (chosen e.adaptive), solverSet := true }) := by
  unfold setSolver
  cases h1 : e.timeframeSet
  · left; simp [check, andThen]
  rw [check_true, andThen_none]
  cases h2 : (n == "heun")
  · left; simp [check, andThen]
  rw [check_true, andThen_none]
  cases h3 : i.isSome
  · right; left; simp [check, andThen, h1]
  · right; right; exact ⟨rfl, by simpa using h2, by simp [check, andThen], by simp [check, andThen, h1]⟩

theorem setDisk_cases (s : Bool) (d : Option Int) (f : Bool) (e : Env) :
    ((setDisk s d f e).2 ≠ none ∧ s = true ∧ (setDisk s d f e).1 =
      { e with save := s, start := d, infer := some d.isNone, storeReady := false,
               saveEvery := true }) ∨
    ((setDisk s d f e).2 = none ∧ (setDisk s d f e).1 =
      { e with save := s, start := d, infer := some d.isNone, storeReady := s,
               saveEvery := true, diskSet := true }) := by
  cases s <;> cases f <;> simp [setDisk, check, andThen]

theorem ofRes_returned {r : Res} : (ofRes r).2 = .returned ↔ r.2 = none := by
  unfold ofRes
  split <;> simp_all

theorem ofRes_fst (r : Res) : (ofRes r).1 = r.1 := by
  unfold ofRes
  split <;> rfl

theorem accepted_mono {h : List (Call × Result)} {P : Call → Prop} (x : Call × Result)
    (ha : Accepted h P) : Accepted (h ++ [x]) P := by
  obtain ⟨y, hy, h'⟩ := ha
  exact ⟨y, List.mem_append_left _ hy, h'⟩

theorem accepted_last {h : List (Call × Result)} {P : Call → Prop} {c : Call} {r : Result}
    (hc : P c) (hr : r = .returned) : Accepted (h ++ [(c, r)]) P :=
  ⟨(c, r), by simp, hc, hr⟩

end Verif.Protocol
