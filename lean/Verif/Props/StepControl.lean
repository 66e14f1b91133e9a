import Verif.Lemmas.StepControlTerm

/-!
# Properties of the adaptive step size control: C01, C02, C03, C04, C06, C26, C61

The model is `Verif/Model/StepControl.lean`.  `Call c e as r` reads: a call of the adaptive solver
with options `c`, started in environment `e`, makes exactly the attempts `as` and ends with `r`.
`Sim c e ss e'` is a sequence of such calls, one per simulated step.
-/

namespace Verif.StepControl

/-- The default options of `set_timeframe` (used for the examples). -/
noncomputable def dflt : Cfg :=
  { minStep := 1e-8, maxStep := 100, minFactor := 0.2, safety := 0.9, fctrRec := 50 }

theorem dflt_valid : dflt.Valid := by
  constructor <;> norm_num [dflt]

/-- An attempt without stability violation and with the given error. -/
def okAttempt (err : Option ℝ) : Attempt := ⟨none, [], err⟩

/-! ## C01 -/

/-- **C01.** Whatever the attempts report (any stability violations, any errors, NaN), the retry
loop ends after finitely many attempts. -/
theorem C01_solver_call_ends (c : Cfg) (hc : c.Valid) (e : Env) (a : ℕ → Attempt)
    (ha : ∀ i x, (a i).err = some x → 0 ≤ x) :
    ∃ n r, Call c e ((List.range n).map a) r := by
  obtain ⟨m, r, h⟩ := ends_cnt (k := 99) hc ha (Loop.start e) 0 rfl
  exact ⟨m, r, by simpa [seg, Call] using h⟩

/-- **C01, uniqueness.** For one stream of attempt outcomes the number of attempts and the result
are determined. -/
theorem C01_solver_call_unique (c : Cfg) (e : Env) (a : ℕ → Attempt) {n n' : ℕ} {r r' : Result}
    (h : Call c e ((List.range n).map a) r) (h' : Call c e ((List.range n').map a) r') :
    n = n' ∧ r = r' := by
  have key : ∀ {l : Loop} {m m' k : ℕ}, Exec c l (seg a k m) r → Exec c l (seg a k m') r' →
      m = m' ∧ r = r' := by
    intro l m
    induction m generalizing l with
    | zero => intro m' k h; simp [seg] at h; cases h
    | succ m ih =>
      intro m' k h h'
      cases m' with
      | zero => simp [seg] at h'; cases h'
      | succ m' =>
        rw [seg_succ] at h h'
        generalize hs : seg a (k + 1) m = s at h
        generalize hs' : seg a (k + 1) m' = s' at h'
        have hlen : s.length = m := by rw [← hs]; simp [seg]
        have hlen' : s'.length = m' := by rw [← hs']; simp [seg]
        cases h with
        | accept hp =>
          cases h' with
          | accept hp' =>
            rw [hp] at hp'; cases hp'
            exact ⟨by simp at hlen hlen'; omega, rfl⟩
          | raise hp' => rw [hp] at hp'; cases hp'
          | retry hp' _ => rw [hp] at hp'; cases hp'
        | raise hp =>
          cases h' with
          | accept hp' => rw [hp] at hp'; cases hp'
          | raise hp' => exact ⟨by simp at hlen hlen'; omega, rfl⟩
          | retry hp' _ => rw [hp] at hp'; cases hp'
        | retry hp hx =>
          cases h' with
          | accept hp' => rw [hp] at hp'; cases hp'
          | raise hp' => rw [hp] at hp'; cases hp'
          | retry hp' hx' =>
            rw [hp] at hp'; cases hp'
            subst hs; subst hs'
            obtain ⟨h1, h2⟩ := ih hx hx'
            exact ⟨by omega, h2⟩
  have hk := @key (Loop.start e) n n' 0
  simp only [seg, Nat.zero_add] at hk
  exact hk h h'

/-- **C01, error case.** The `ValueError` is raised exactly on the hundredth stability violation of
the call; a call that accepts a step has seen fewer. -/
theorem C01_raise_after_hundred {c : Cfg} {e : Env} {as : List Attempt} {r : Result}
    (h : Call c e as r) :
    (r = .raised → (as.filter (·.pred.isSome)).length = 100) ∧
    (r ≠ .raised → (as.filter (·.pred.isSome)).length < 100) := by
  have := exec_count h (by simp [Loop.start])
  simpa [Loop.start] using this

/-- Example for C01: a NaN error, then an acceptable one. -/
example : ∃ n r, Call dflt (Env.init 2)
    ((List.range n).map fun i => okAttempt (if i = 0 then none else some 0.5)) r :=
  C01_solver_call_ends dflt dflt_valid _ _ (by
    intro i x; unfold okAttempt; split_ifs
    · simp
    · intro h; have : (0.5 : ℝ) = x := by simpa using h
      rw [← this]; norm_num)

/-! ## C02 -/

/-- **C02.** Whenever a step is accepted, the attempt it comes from had a stable predictor and
either a scaled error below 1 (solver state 4, 5 or 7), or a NaN or too large error at exactly
`min_stepsize` (solver state 6).  State 7 means error zero, state 5 that the next step was cut to
`max_stepsize`.  All earlier attempts of the call failed, and exactly these were counted. -/
theorem C02_accepted_step_meets_tolerance {c : Cfg} {e : Env} {as : List Attempt} {h : ℝ}
    {code failed : ℕ} {e' : Env} (hcall : Call c e as (.accepted h code failed e'))
    (herr : ∀ a ∈ as, ∀ x, a.err = some x → 0 ≤ x) (hpos : 0 ≤ h) :
    ∃ pre a, as = pre ++ [a] ∧ failed = pre.length ∧
      (∀ b ∈ pre, b.pred.isSome ∨ ∀ x, b.err = some x → 1 ≤ x) ∧
      a.pred = none ∧
      ((∃ x, a.err = some x ∧ 0 < x ∧ x < 1 ∧
          (code = 5 ∧ e'.newStep = c.maxStep ∨ code = 4 ∧ h ≤ e'.newStep)) ∨
        (a.err = some 0 ∧ code = 7) ∨
        ((∀ x, a.err = some x → 1 ≤ x) ∧ h = c.minStep ∧ code = 6)) := by
  obtain ⟨pre, a, has, h1, h2, h3, h4⟩ := exec_last hcall rfl
  subst has
  have hnn : ∀ b ∈ pre ++ [a], ∀ x, b.err = some x → (x < 0 ∨ 1 ≤ x) → 1 ≤ x := by
    intro b hb x hx h
    rcases h with h | h
    · exact absurd h (not_lt.mpr (herr b hb x hx))
    · exact h
  refine ⟨pre, a, rfl, by simpa [Loop.start] using h2, ?_, h1, ?_⟩
  · intro b hb
    rcases h3 b hb with h | h
    · exact Or.inl h
    · exact Or.inr fun x hx => hnn b (by simp [hb]) x hx (h x hx)
  · rcases h4 with ⟨x, hx, h5, h6, h7⟩ | h5 | ⟨h5, h6, h7, _⟩
    · left
      refine ⟨x, hx, h5, h6, ?_⟩
      rcases h7 with h7 | h7 | h7
      · exact Or.inl h7
      · exact Or.inr h7
      · exact absurd h7 (not_lt.mpr hpos)
    · exact Or.inr (Or.inl h5)
    · exact Or.inr (Or.inr ⟨fun x hx => hnn a (by simp) x hx (h5 x hx), h6, h7⟩)

/-- Example for C02: one rejected attempt (NaN), then error 0 at the reduced step. -/
example : Call dflt (Env.init 2) [okAttempt none, okAttempt (some 0)]
    (.accepted 0.2 7 1 ⟨0.4, 2, 1⟩) := by
  have h1 : pass dflt (Loop.start (Env.init 2)) (okAttempt none) =
      .retry ⟨0.2, none, 2, 1, 0, 1⟩ := by
    norm_num [pass, okAttempt, Loop.start, Env.init, dflt, shrink]
  have h2 : pass dflt ⟨0.2, none, 2, 1, 0, 1⟩ (okAttempt (some 0)) =
      .accept ⟨0.4, none, 2, 1, 0, 1⟩ 7 := by
    norm_num [pass, okAttempt, dflt]
  exact .retry h1 (.accept h2)

/-! ## C03 -/

/-- **C03.** For every configuration all steps except possibly the very first are at most
`max_stepsize` long; with `max_stepsize ≥ 1` the first one is as well.  Partial: the claim without
this restriction is false, see `C03_fails_first_step`. -/
theorem C03_max_stepsize_partial {c : Cfg} (hc : c.Valid) {mf : ℝ} {ss : List Step} {e' : Env}
    (hs : Sim c (Env.init mf) ss e')
    (hh : ∀ s ∈ ss, Honest c (Loop.start s.env) s.attempts)
    (herr : ∀ s ∈ ss, ∀ a ∈ s.attempts, ∀ x, a.err = some x → 0 ≤ x) :
    (∀ s ∈ ss.tail, s.h ≤ c.maxStep) ∧ (1 ≤ c.maxStep → ∀ s ∈ ss, s.h ≤ c.maxStep) := by
  have key : ∀ {e : Env} {ss : List Step} {e' : Env}, Sim c e ss e' →
      (∀ s ∈ ss, Honest c (Loop.start s.env) s.attempts) →
      (∀ s ∈ ss, ∀ a ∈ s.attempts, ∀ x, a.err = some x → 0 ≤ x) →
      e.newStep ≤ c.maxStep → ∀ s ∈ ss, s.h ≤ c.maxStep := by
    intro e ss e' hs
    induction hs with
    | nil => simp
    | @cons e as h code f e' ss e'' hcall hs ih =>
      intro hh herr hle s hs
      rcases List.mem_cons.mp hs with rfl | hs
      · exact exec_h_le hcall rfl (hh _ List.mem_cons_self) hc (herr _ List.mem_cons_self)
          hc.min_lt_max.le hle
      · exact ih (fun s hs => hh s (List.mem_cons_of_mem _ hs))
          (fun s hs => herr s (List.mem_cons_of_mem _ hs)) (exec_newStep_le hcall rfl hc) s hs
  refine ⟨?_, fun hm => key hs hh herr hm⟩
  cases hs with
  | nil => simp
  | cons hcall hs =>
    exact key hs (fun s hs => hh s (List.mem_cons_of_mem _ hs))
      (fun s hs => herr s (List.mem_cons_of_mem _ hs)) (exec_newStep_le hcall rfl hc)

/-- Example for C03: a simulation of two steps meeting the hypotheses. -/
example : ∃ ss e', Sim dflt (Env.init 2) ss e' ∧ ss.length = 2 ∧
    (∀ s ∈ ss, Honest dflt (Loop.start s.env) s.attempts) ∧
    (∀ s ∈ ss, ∀ a ∈ s.attempts, ∀ x, a.err = some x → 0 ≤ x) := by
  have h1 : pass dflt (Loop.start (Env.init 2)) (okAttempt (some 0)) =
      .accept ⟨2, none, 2, 1, 0, 0⟩ 7 := by
    norm_num [pass, okAttempt, Loop.start, Env.init, dflt]
  have h2 : pass dflt (Loop.start ⟨2, 2, 1⟩) (okAttempt (some 0)) =
      .accept ⟨4, none, 2, 2, 0, 0⟩ 7 := by
    norm_num [pass, okAttempt, Loop.start, dflt]
  refine ⟨_, _, .cons (.accept h1) (.cons (.accept h2) .nil), rfl, ?_, ?_⟩
  · intro s hs
    rcases List.mem_pair.mp hs with rfl | rfl <;> simp [Honest, okAttempt]
  · intro s hs a ha x hx
    rcases List.mem_pair.mp hs with rfl | rfl <;>
    · rw [List.mem_singleton.mp ha] at hx
      have : (0 : ℝ) = x := by simpa [okAttempt] using hx
      exact this.le

/-- **C03 is false of the code**: with `max_stepsize = 0.5` (accepted by `set_timeframe`) the first
step is 1 s long, because `_new_step` is always started at 1 (`simenv.py:421`). -/
theorem C03_fails_first_step :
    ∃ c : Cfg, c.Valid ∧ ∃ ss e', Sim c (Env.init 2) ss e' ∧
      (∀ s ∈ ss, Honest c (Loop.start s.env) s.attempts) ∧ ∃ s ∈ ss, c.maxStep < s.h := by
  refine ⟨{ dflt with maxStep := 0.5 }, by constructor <;> norm_num [dflt], ?_⟩
  have h1 : pass { dflt with maxStep := 0.5 } (Loop.start (Env.init 2)) (okAttempt (some 0)) =
      .accept ⟨0.5, none, 2, 1, 0, 0⟩ 7 := by
    norm_num [pass, okAttempt, Loop.start, Env.init]
  refine ⟨_, _, .cons (.accept h1) .nil, by simp [Honest, okAttempt], _, List.mem_cons_self, ?_⟩
  norm_num [Loop.start, Env.init]

/-! ## C04 -/

/-- **C04.** If `min_stepsize ≤ 1` and no predictor violates stability, no step is shorter than
`min_stepsize`.  Partial: with stability violations, or with `min_stepsize > 1`, the claim is
false, see `C04_fails_instability` and `C04_fails_first_step`. -/
theorem C04_min_stepsize_partial {c : Cfg} (hc : c.Valid) (hmin : c.minStep ≤ 1) {mf : ℝ}
    (hmf : 1 ≤ mf) {ss : List Step} {e' : Env} (hs : Sim c (Env.init mf) ss e')
    (hst : ∀ s ∈ ss, ∀ a ∈ s.attempts, a.pred = none) :
    ∀ s ∈ ss, c.minStep ≤ s.h := by
  have key : ∀ {e : Env} {ss : List Step} {e' : Env}, Sim c e ss e' → 1 ≤ e.maxFactor →
      (∀ s ∈ ss, ∀ a ∈ s.attempts, a.pred = none) →
      c.minStep ≤ e.newStep → ∀ s ∈ ss, c.minStep ≤ s.h := by
    intro e ss e' hs
    induction hs with
    | nil => simp
    | @cons e as h code f e' ss e'' hcall hs ih =>
      intro hmf hst hle s hs
      obtain ⟨h1, h2⟩ := exec_min_le hcall rfl hc hmf (hst _ List.mem_cons_self) hle
      rcases List.mem_cons.mp hs with rfl | hs
      · exact h1
      · exact ih (exec_env hcall rfl hmf).1 (fun s hs => hst s (List.mem_cons_of_mem _ hs)) h2 s hs
  exact key hs hmf hst hmin

/-- Example for C04: the two-attempt step of the C02 example. -/
example : ∃ ss e', Sim dflt (Env.init 2) ss e' ∧ ss ≠ [] ∧ dflt.minStep ≤ 1 ∧
    (∀ s ∈ ss, ∀ a ∈ s.attempts, a.pred = none) := by
  have h1 : pass dflt (Loop.start (Env.init 2)) (okAttempt none) =
      .retry ⟨0.2, none, 2, 1, 0, 1⟩ := by
    norm_num [pass, okAttempt, Loop.start, Env.init, dflt, shrink]
  have h2 : pass dflt ⟨0.2, none, 2, 1, 0, 1⟩ (okAttempt (some 0)) =
      .accept ⟨0.4, none, 2, 1, 0, 1⟩ 7 := by
    norm_num [pass, okAttempt, dflt]
  refine ⟨_, _, .cons (.retry h1 (.accept h2)) .nil, by simp, by norm_num [dflt], ?_⟩
  simp [okAttempt]

/-- **C04 is false of the code** when a stability check asks for a shorter step: the step chosen
after a stability violation is not compared with `min_stepsize` (`simenv.py:4234`). -/
theorem C04_fails_instability :
    ∃ c : Cfg, c.Valid ∧ c.minStep ≤ 1 ∧ ∃ ss e', Sim c (Env.init 2) ss e' ∧
      (∀ s ∈ ss, Honest c (Loop.start s.env) s.attempts) ∧ ∃ s ∈ ss, s.h < c.minStep := by
  refine ⟨{ dflt with minStep := 0.5 }, by constructor <;> norm_num [dflt], by norm_num, ?_⟩
  have h1 : pass { dflt with minStep := 0.5 } (Loop.start (Env.init 2)) ⟨some 0.1, [], none⟩ =
      .retry ⟨0.09, some 0.1, damp 2, 0, 1, 1⟩ := by
    norm_num [pass, Loop.start, Env.init, report, lower]
  obtain ⟨l', h2⟩ : ∃ l', pass { dflt with minStep := 0.5 } ⟨0.09, some 0.1, damp 2, 0, 1, 1⟩
      (okAttempt (some 0)) = .accept l' 7 := ⟨_, pass_zero _ _ []⟩
  refine ⟨_, _, .cons (.retry h1 (.accept h2)) .nil, ?_, _, List.mem_cons_self, ?_⟩
  · intro s hs
    rw [List.mem_singleton.mp hs]
    refine ⟨?_, fun l' hl' => ⟨?_, fun _ _ => trivial⟩⟩
    · intro x hx
      have : (0.1 : ℝ) = x := by simpa using hx
      rw [← this]; norm_num [Loop.start, Env.init]
    · intro x hx; simp [okAttempt] at hx
  · norm_num

/-- **C04 is false of the code** for `min_stepsize > 1`: the first step is 1 s long. -/
theorem C04_fails_first_step :
    ∃ c : Cfg, c.Valid ∧ ∃ ss e', Sim c (Env.init 2) ss e' ∧
      (∀ s ∈ ss, ∀ a ∈ s.attempts, a.pred = none) ∧ ∃ s ∈ ss, s.h < c.minStep := by
  refine ⟨{ dflt with minStep := 5 }, by constructor <;> norm_num [dflt], ?_⟩
  have h1 : pass { dflt with minStep := 5 } (Loop.start (Env.init 2)) (okAttempt (some 0)) =
      .accept ⟨2, none, 2, 1, 0, 0⟩ 7 := by
    norm_num [pass, okAttempt, Loop.start, Env.init, dflt]
  refine ⟨_, _, .cons (.accept h1) .nil, by simp [okAttempt], _, List.mem_cons_self, ?_⟩
  norm_num [Loop.start, Env.init]

/-! ## C06 -/

/-- **C06, general bound.** For two consecutive steps of a simulation the second is at most
`max_factor * max 1 (n / factor_recovery)²` times the first (or `min_stepsize` if that is larger),
where `n` is the number of steps since the last stability violation. -/
theorem C06_growth_bound {c : Cfg} (hc : c.Valid) {mf : ℝ} (hmf : 1 ≤ mf) {pre post : List Step}
    {s₁ s₂ : Step} {e' : Env} (hs : Sim c (Env.init mf) (pre ++ s₁ :: s₂ :: post) e')
    (hh : ∀ s ∈ pre ++ s₁ :: s₂ :: post, Honest c (Loop.start s.env) s.attempts)
    (herr : ∀ a ∈ s₂.attempts, ∀ x, a.err = some x → 0 ≤ x) :
    s₂.h ≤ max c.minStep
      (s₁.h * (mf * max 1 (((s₁.env.sinceFail + 1 : ℕ) : ℝ) / c.fctrRec) ^ 2)) := by
  have hpos : ∀ {e : Env} {ss : List Step} {e' : Env}, Sim c e ss e' → 1 ≤ e.maxFactor →
      0 < e.newStep → (∀ s ∈ ss, Honest c (Loop.start s.env) s.attempts) → 0 < e'.newStep := by
    intro e ss e' hs
    induction hs with
    | nil => intro _ h _; exact h
    | @cons e as h code f e' ss e'' hcall hs ih =>
      intro hmf h0 hh
      exact ih (exec_env hcall rfl hmf).1
        (exec_pos hcall rfl (hh _ List.mem_cons_self) hc hmf h0 (by simp [Loop.start])).2
        (fun s hs => hh s (List.mem_cons_of_mem _ hs))
  obtain ⟨m, hpre, hpost⟩ := hs.split
  have hmfm := (sim_maxFactor hpre hmf).2
  have hm0 : 0 < m.newStep := hpos hpre hmf (by norm_num [Env.init])
    (fun s hs => hh s (List.mem_append_left _ hs))
  cases hpost with
  | @cons _ as h code f e₁ _ _ hcall hrest =>
    cases hrest with
    | @cons _ as₂ h₂ code₂ f₂ e₂ _ _ hcall₂ _ =>
      have hh1 : 0 < h := (exec_pos hcall rfl (hh ⟨m, as, h, code, f⟩ (by simp)) hc hmfm.1 hm0
        (by simp [Loop.start])).1
      have hg := exec_newStep_growth hcall rfl hc hmfm.1 hh1
      have hle := exec_h_le hcall₂ rfl (hh ⟨e₁, as₂, h₂, code₂, f₂⟩ (by simp)) hc herr
        (le_max_left c.minStep e₁.newStep) (le_max_right c.minStep e₁.newStep)
      refine hle.trans (max_le_max le_rfl (hg.trans ?_))
      have h2 : m.maxFactor ≤ mf := hmfm.2
      have h3 : 1 ≤ m.maxFactor := hmfm.1
      have hpow : (max 1 ((((m.sinceFail + 1 : ℕ) : ℝ)) / c.fctrRec)) ^ 2 =
          max 1 (((((m.sinceFail + 1 : ℕ) : ℝ)) / c.fctrRec) ^ 2) := by
        have hr := hc.rec_pos
        have h0 : 0 ≤ (((m.sinceFail + 1 : ℕ) : ℝ)) / c.fctrRec := by positivity
        rcases le_total (1 : ℝ) ((((m.sinceFail + 1 : ℕ) : ℝ)) / c.fctrRec) with h | h
        · rw [max_eq_right h, max_eq_right (by nlinarith)]
        · rw [max_eq_left h, max_eq_left (by nlinarith)]; norm_num
      show h * (m.maxFactor * max 1 (((((m.sinceFail + 1 : ℕ) : ℝ)) / c.fctrRec) ^ 2)) ≤
        h * (mf * max 1 ((((m.sinceFail + 1 : ℕ) : ℝ)) / c.fctrRec) ^ 2)
      rw [hpow]
      gcongr

/-- **C06.** Within the first `factor_recovery` steps after a stability violation (or after the
start) a step is at most `max_factor` times as long as the step before (or `min_stepsize` if that
is larger).  Partial: later on the claim is false, see `C06_fails_after_recovery`. -/
theorem C06_growth_limited_partial {c : Cfg} (hc : c.Valid) {mf : ℝ} (hmf : 1 ≤ mf)
    {pre post : List Step} {s₁ s₂ : Step} {e' : Env}
    (hs : Sim c (Env.init mf) (pre ++ s₁ :: s₂ :: post) e')
    (hh : ∀ s ∈ pre ++ s₁ :: s₂ :: post, Honest c (Loop.start s.env) s.attempts)
    (herr : ∀ a ∈ s₂.attempts, ∀ x, a.err = some x → 0 ≤ x)
    (hrec : ((s₁.env.sinceFail + 1 : ℕ) : ℝ) ≤ c.fctrRec) :
    s₂.h ≤ max c.minStep (s₁.h * mf) := by
  have h := C06_growth_bound hc hmf hs hh herr
  have hr := hc.rec_pos
  rw [max_eq_left ((div_le_one hr).mpr hrec)] at h
  simpa using h

/-- Example for C06: consecutive steps meeting the hypotheses, growing by exactly `max_factor`. -/
example : ∃ s₁ s₂ e', Sim dflt (Env.init 2) ([] ++ s₁ :: s₂ :: []) e' ∧
    (∀ s ∈ ([] : List Step) ++ s₁ :: s₂ :: [], Honest dflt (Loop.start s.env) s.attempts) ∧
    ((s₁.env.sinceFail + 1 : ℕ) : ℝ) ≤ dflt.fctrRec ∧ s₂.h = s₁.h * 2 := by
  have h1 : pass dflt (Loop.start (Env.init 2)) (okAttempt (some 0)) =
      .accept ⟨2, none, 2, 1, 0, 0⟩ 7 := by
    norm_num [pass, okAttempt, Loop.start, Env.init, dflt]
  have h2 : pass dflt (Loop.start ⟨2, 2, 1⟩) (okAttempt (some 0)) =
      .accept ⟨4, none, 2, 2, 0, 0⟩ 7 := by
    norm_num [pass, okAttempt, Loop.start, dflt]
  refine ⟨_, _, _, .cons (.accept h1) (.cons (.accept h2) .nil), ?_, ?_, ?_⟩
  · intro s hs
    rcases List.mem_pair.mp hs with rfl | rfl <;> simp [Honest, okAttempt]
  · norm_num [Env.init, dflt]
  · norm_num [Loop.start, Env.init]

/-- **C06 is false of the code.** With the default options and `max_factor = 2`, after 100
successful steps a step of 20 s is followed by one of 100 s: the factor `(n / factor_recovery)²`
is applied after the limit by `max_factor` (`simenv.py:4156-4166`). -/
theorem C06_fails_after_recovery :
    ∃ pre s₁ s₂ e', Sim dflt (Env.init 2) (pre ++ [s₁, s₂]) e' ∧
      (∀ s ∈ pre ++ [s₁, s₂], Honest dflt (Loop.start s.env) s.attempts) ∧
      dflt.minStep ≤ s₁.h ∧ s₁.h * 2 < s₂.h := by
  -- `n` steps with error zero
  have hzero : ∀ n : ℕ, ∃ ss, Sim dflt (Env.init 2) ss ⟨min 100 (2 ^ n), 2, n⟩ ∧
      ∀ s ∈ ss, Honest dflt (Loop.start s.env) s.attempts := by
    intro n
    induction n with
    | zero => exact ⟨[], by norm_num [Env.init]; exact .nil, by simp⟩
    | succ n ih =>
      obtain ⟨ss, h1, h2⟩ := ih
      have hp : pass dflt (Loop.start ⟨min 100 (2 ^ n), 2, n⟩) (okAttempt (some 0)) =
          .accept ⟨min 100 (2 ^ (n + 1)), none, 2, n + 1, 0, 0⟩ 7 := by
        have : min (100 : ℝ) (min 100 (2 ^ n) * 2) = min 100 (2 ^ (n + 1)) := by
          rcases le_total (100 : ℝ) (2 ^ n) with h | h
          · rw [min_eq_left h, min_eq_left (by norm_num : (100 : ℝ) ≤ 100 * 2),
              min_eq_left (by rw [pow_succ]; linarith)]
          · rw [min_eq_right h, ← pow_succ]
        refine (pass_zero _ _ []).trans ?_
        simp only [Loop.start, dflt, List.foldl_nil, this]
      have app : ∀ {e e' e'' : Env} {ss ts : List Step}, Sim dflt e ss e' → Sim dflt e' ts e'' →
          Sim dflt e (ss ++ ts) e'' := by
        intro e e' e'' ss ts h h'
        induction h with
        | nil => exact h'
        | cons hc hs ih => exact .cons hc (ih h')
      refine ⟨_, app h1 (.cons (.accept hp) .nil), ?_⟩
      intro s hs
      rcases List.mem_append.mp hs with hs | hs
      · exact h2 s hs
      · rw [List.mem_singleton.mp hs]; simp [Honest, okAttempt]
  obtain ⟨ss, h1, h2⟩ := hzero 100
  rw [min_eq_left (by norm_num)] at h1
  have hA : pass dflt (Loop.start ⟨100, 2, 100⟩) (okAttempt none) =
      .retry ⟨20, none, 2, 101, 0, 1⟩ := by
    norm_num [pass, okAttempt, Loop.start, dflt, shrink]
  have hpw : ((1 : ℝ) / 8) ^ (-1 / 3 : ℝ) = 2 := by
    rw [show (1 / 8 : ℝ) = (2 : ℝ) ^ (-3 : ℝ) by norm_num [Real.rpow_neg],
      ← Real.rpow_mul (by norm_num)]
    norm_num
  have hB : pass dflt ⟨20, none, 2, 101, 0, 1⟩ (okAttempt (some (1 / 8))) =
      .accept ⟨100, none, 2, 101, 0, 1⟩ 5 := by
    have hg : growth dflt 2 101 (1 / 8) = 1.8 * (101 / 50) ^ 2 := by
      simp only [growth, errFactor, hpw, dflt]
      norm_num
    have h8 : (0 : ℝ) < 1 / 8 ∧ (1 : ℝ) / 8 < 1 := by norm_num
    simp only [pass, okAttempt, List.foldl_nil, hg, h8, and_self, if_true]
    norm_num [dflt]
  have hC : pass dflt (Loop.start ⟨100, 2, 101⟩) (okAttempt (some 0)) =
      .accept ⟨100, none, 2, 102, 0, 0⟩ 7 := by
    norm_num [pass, okAttempt, Loop.start, dflt]
  have app : ∀ {e e' e'' : Env} {ss ts : List Step}, Sim dflt e ss e' → Sim dflt e' ts e'' →
      Sim dflt e (ss ++ ts) e'' := by
    intro e e' e'' ss ts h h'
    induction h with
    | nil => exact h'
    | cons hc hs ih => exact .cons hc (ih h')
  refine ⟨ss, _, _, _, app h1 (.cons (.retry hA (.accept hB)) (.cons (.accept hC) .nil)), ?_, ?_, ?_⟩
  · intro s hs
    rcases List.mem_append.mp hs with hs | hs
    · exact h2 s hs
    · rcases List.mem_pair.mp hs with rfl | rfl <;> simp [Honest, okAttempt]
  · norm_num [dflt]
  · norm_num [Loop.start]

/-! ## C26 -/

/-- **C26.** However many stability violations occur, the growth limit never falls below 1.05 (or
below the limit given by the user if that was lower), and it never rises. -/
theorem C26_growth_limit_floor (mf : ℝ) (hmf : 1 ≤ mf) (n : ℕ) :
    min mf 1.05 ≤ damp^[n] mf ∧ damp^[n] mf ≤ mf := by
  induction n with
  | zero => simp
  | succ n ih =>
    rw [Function.iterate_succ_apply']
    refine ⟨le_damp ih.1 (min_le_right _ _), (damp_le ?_).trans ih.2⟩
    exact (le_min hmf (by norm_num)).trans ih.1

/-- Specification: number of stability violations reported during attempts, those of predictors and correctors. -/
def violations (as : List Attempt) : ℕ := (as.map fun a => if a.pred.isSome then 1 else a.corr.length).sum

theorem foldl_report_maxFactor (xs : List ℝ) (l : Loop) : (xs.foldl report l).maxFactor = damp^[xs.length] l.maxFactor := by
  induction xs generalizing l with
  | nil => rfl
  | cons x xs ih => rw [List.foldl_cons, ih, List.length_cons, Function.iterate_succ_apply]; rfl

theorem exec_violations {c : Cfg} {l : Loop} {as : List Attempt} {r : Result} (hx : Exec c l as r)
    {h : ℝ} {code f : ℕ} {e' : Env} (hr : r = .accepted h code f e') :
    e'.maxFactor = damp^[violations as] l.maxFactor := by
  induction hx with
  | raise hp => cases hr
  | @retry l a l' as r hp hx ih =>
    have key : l'.maxFactor = damp^[if a.pred.isSome then 1 else a.corr.length] l.maxFactor := by
      rcases pass_cases hp with ⟨loc, l'', hpr, hl'', h | h⟩ | ⟨_, e, _, _, _, l0, _, h | h⟩ |
        ⟨_, _, l0, _, h⟩ | ⟨hpr, hb, l0, hl0, h | h⟩
      · cases h.2
      · cases h.2
        subst hl''
        rw [hpr]
        rfl
      · cases h.2
      · cases h.2
      · cases h
      · cases h.2
      · cases h.2
        subst hl0
        rw [hpr]
        exact foldl_report_maxFactor a.corr l
    rw [ih hr, key, ← Function.iterate_add_apply, violations, violations, List.map_cons, List.sum_cons, Nat.add_comm]
  | @accept l a l' code' hp =>
    cases hr
    have h1 := foldl_report_maxFactor a.corr l
    rcases pass_cases hp with ⟨loc, l'', hpr, hl'', h | h⟩ | ⟨hpr, e, _, _, _, l0, hl0, h | h⟩ |
      ⟨hpr, _, l0, hl0, h⟩ | ⟨hpr, hb, l0, hl0, h | h⟩
    · cases h.2
    · cases h.2
    · cases h.2; subst hl0; simpa [violations, hpr] using h1
    · cases h.2; subst hl0; simpa [violations, hpr] using h1
    · cases h; subst hl0; simpa [violations, hpr] using h1
    · cases h.2; subst hl0; simpa [violations, hpr] using h1
    · cases h.2

/-- **C26** (simulation).  The growth limit after any number of steps of a simulation has been lowered once for every stability violation
reported in any attempt, accepted or not, and is at or above its floor. -/
theorem C26_simulation {c : Cfg} {mf : ℝ} (hmf : 1 ≤ mf) {ss : List Step} {e' : Env} (hs : Sim c (Env.init mf) ss e') :
    e'.maxFactor = damp^[(ss.map fun s => violations s.attempts).sum] mf ∧ min mf 1.05 ≤ e'.maxFactor ∧ e'.maxFactor ≤ mf := by
  have key : ∀ {e : Env} {ss : List Step} {e' : Env}, Sim c e ss e' →
      e'.maxFactor = damp^[(ss.map fun s => violations s.attempts).sum] e.maxFactor := by
    intro e ss e' hs
    induction hs with
    | nil => rfl
    | @cons e as h code f e' ss e'' hcall hs ih =>
      rw [ih, exec_violations hcall rfl, ← Function.iterate_add_apply, List.map_cons, List.sum_cons, Nat.add_comm]
      rfl
  have h := key hs
  refine ⟨h, ?_⟩
  rw [h]
  exact C26_growth_limit_floor mf hmf _

/-- Example for C26: the default limit. -/
example : min 2 1.05 ≤ damp^[1000] 2 ∧ damp^[1000] 2 ≤ 2 := C26_growth_limit_floor 2 (by norm_num) _

/-! ## C61 -/

/-- **C61 is false of the code**: a step is accepted although a stability check failed while it was
computed, because the corrector does not look at the flag (`simenv.py:4028-4049`). -/
theorem C61_fails_unstable_corrector_accepted :
    ∃ c : Cfg, c.Valid ∧ ∃ a e', Call c (Env.init 2) [a] (.accepted 1 4 0 e') ∧
      Honest c (Loop.start (Env.init 2)) [a] ∧ a.corr ≠ [] := by
  refine ⟨dflt, dflt_valid, ⟨none, [0.5], some 0.99⟩, ?_⟩
  have hg : ∀ m, growth dflt m 1 0.99 = 1 := by
    intro m
    unfold growth
    apply max_eq_left
    have h1 : (0 : ℝ) < 0.99 := by norm_num
    have h2 : min m (errFactor dflt 0.99) ≤ errFactor dflt 0.99 := min_le_right _ _
    have h3 : errFactor dflt 0.99 ≤ 2 := by
      unfold errFactor
      have : (0.99 : ℝ) ^ (-1 / 3 : ℝ) ≤ (1 / 8 : ℝ) ^ (-1 / 3 : ℝ) :=
        Real.rpow_le_rpow_of_nonpos (by norm_num) (by norm_num) (by norm_num)
      have h8 : ((1 : ℝ) / 8) ^ (-1 / 3 : ℝ) = 2 := by
        rw [show (1 / 8 : ℝ) = (2 : ℝ) ^ (-3 : ℝ) by norm_num [Real.rpow_neg],
          ← Real.rpow_mul (by norm_num)]
        norm_num
      rw [h8] at this
      have hs : dflt.safety = 0.9 := rfl
      rw [hs]; linarith
    have h4 : (((1 : ℕ) : ℝ) / dflt.fctrRec) ^ 2 = 1 / 2500 := by norm_num [dflt]
    rw [h4]; linarith
  have hp : ∃ l', pass dflt (Loop.start (Env.init 2)) ⟨none, [0.5], some 0.99⟩ = .accept l' 4 ∧
      l'.failed = 0 := by
    have h1 : (Loop.start (Env.init 2)).sinceFail = 1 := rfl
    refine ⟨_, pass_good _ _ _ (by norm_num) (by norm_num) ?_, rfl⟩
    rw [h1, hg]
    norm_num [Loop.start, Env.init, dflt]
  obtain ⟨l', hp, hf⟩ := hp
  refine ⟨⟨l'.h, l'.maxFactor, l'.sinceFail⟩, ?_, ?_, by simp⟩
  · have := Exec.accept hp
    rw [hf] at this
    exact this
  · refine ⟨?_, fun _ _ => trivial⟩
    intro x hx
    have : x = 0.5 := by simpa using hx
    rw [this]; norm_num [Loop.start, Env.init]

end Verif.StepControl
