import Verif.Props.Protocol

/-!
# C91–C93: step mode, start date and results of a simulation
-/

namespace Verif.Protocol

/-- What the calls leave unchanged, as one case distinction: `Q` is a property of environments that
does not speak about the fields a call assigns. -/
theorem Script.keep (Q : Env → Prop) (allowed : Call → Prop)
    (h0 : Q {})
    (ht : ∀ e a, allowed (.setTimeframe a) → Q e → Q (setTimeframe a e).1)
    (hv : ∀ e n i, allowed (.setSolver n i) → Q e → Q (setSolver n i e).1)
    (hk : ∀ e s d f, allowed (.setDisk s d f) → Q e → Q (setDisk s d f e).1)
    (hp : ∀ e n, allowed (.addPart n) → Q e → Q { e with parts := e.parts ++ [n] })
    (hx : ∀ e d, allowed (.addSeries d) → Q e → Q { e with series := e.series ++ [d] })
    (hb : ∀ e, Q e → Q (build e).1) (hr : ∀ e, Q e → Q (reset e).1)
    (hi : ∀ e, Q e → Q (initArrays e).1)
    {h : List (Call × Result)} {e : Env} (hs : Script h e) (ha : ∀ x ∈ h, allowed x.1) : Q e := by
  induction hs with
  | nil => exact h0
  | @snoc h e c hs ih =>
    specialize ih fun x hx => ha x (List.mem_append_left _ hx)
    have hc : allowed c := ha _ (List.mem_append_right _ (List.mem_singleton_self _))
    cases c with
    | setTimeframe a => exact ht e a hc ih
    | setSolver n a =>
      have hf : (call e (.setSolver n a)).1 = (setSolver n a e).1 := ofRes_fst _
      rw [hf]; exact hv e n a hc ih
    | setDisk s d f =>
      have hf : (call e (.setDisk s d f)).1 = (setDisk s d f e).1 := ofRes_fst _
      rw [hf]; exact hk e s d f hc ih
    | addPart n => exact hp e n hc ih
    | addSeries d => exact hx e d hc ih
    | initSim b r =>
      have hf : (call e (.initSim b r)).1 = (initSim b r e).1 := ofRes_fst _
      rw [hf]; exact initSim_inv Q hb hr hi b r e ih
    | start => exact ih

/-! ## C91 -/

/-- **C91 (negative, every script).** Whenever a simulation runs, the adaptive solver makes its
steps: constant steps are never simulated, whatever was asked for. -/
theorem C91_fails_only_adaptive {h : List (Call × Result)} {e : Env} (_ : Script h e)
    {m : Meth} {fl k : Bool} (hr : (call e .start).2 = .simulated m fl k) : m = .heunAdaptive :=
  (startSim_ran hr).2.2.1

/-- **C91 (negative, constant steps).** If every `set_timeframe` asks for constant steps, no
`initialize_sim` returns and every `start_sim` is refused as not initialized. -/
theorem C91_fails_constant_steps {h : List (Call × Result)} {e : Env} (hs : Script h e)
    (hc : ∀ x ∈ h, ∀ a, x.1 = .setTimeframe a → a = false) :
    (∀ b r, (call e (.initSim b r)).2 ≠ .returned) ∧ (call e .start).2 = .raised .userWarning := by
  have q : (e.maxFactor = false ∧ e.adaptive = false) ∧ e.initialized = false := by
    refine Script.keep (fun e => (e.maxFactor = false ∧ e.adaptive = false) ∧ e.initialized = false)
      (fun c => ∀ a, c = .setTimeframe a → a = false) ⟨⟨rfl, rfl⟩, rfl⟩ ?_ ?_ ?_ ?_ ?_ ?_ ?_ ?_ hs hc
    · intro e a ha q
      have := ha a rfl
      subst this
      simp [setTimeframe, q.1.1, q.2]
    · intro e n i _ q
      rcases setSolver_cases n i e with ⟨_, hb⟩ | ⟨_, _, hb⟩ | ⟨_, _, _, hb⟩ <;> rw [hb] <;> exact q
    · intro e s d f _ q
      rcases setDisk_cases s d f e with ⟨_, _, hb⟩ | ⟨_, hb⟩ <;> rw [hb] <;> exact q
    · intro e n _ q; exact q
    · intro e d _ q; exact q
    · intro e q
      rcases build_cases e with ⟨hb, _⟩ | ⟨_, _, _, _, _, _, hb, _⟩ <;> rw [hb] <;> exact q
    · intro e q
      rcases reset_cases e with ⟨hb, _⟩ | ⟨_, _, hb⟩
      · rw [hb]; exact q
      · rw [hb]; simp [q.1.1, q.1.2, q.2]
    · intro e q
      rcases initArrays_cases e with ⟨hb, _⟩ | ⟨_, _, h3, _, _⟩
      · rw [hb]; exact q
      · simp [q.1.1] at h3
  refine ⟨?_, ?_⟩
  · intro b r hn
    have hn' : (initSim b r e).2 = none := ofRes_returned.1 hn
    have hb : ((bif b then build e else (e, none)) : Res).1.maxFactor = false ∧
        ((bif b then build e else (e, none)) : Res).1.adaptive = false := by
      cases b
      · exact q.1
      · rcases build_cases e with ⟨hb, _⟩ | ⟨_, _, _, _, _, _, hb, _⟩ <;>
          simp only [cond_true] <;> rw [hb] <;> exact q.1
    unfold initSim at hn'
    generalize ((bif b then build e else (e, none)) : Res) = x at hb hn'
    obtain ⟨e1, x⟩ := x
    rcases x with _ | x
    · rw [andThen_none] at hn'
      have hr : ((bif r then reset e1 else (e1, none)) : Res).1.maxFactor = false := by
        cases r
        · exact hb.1
        · rcases reset_cases e1 with ⟨h', _⟩ | ⟨_, _, h'⟩
          · simp only [cond_true]; rw [h']; exact hb.1
          · have h1 : e1.maxFactor = false := hb.1
            have h2 : e1.adaptive = false := hb.2
            simp only [cond_true]; rw [h']; simp [h1, h2]
      generalize ((bif r then reset e1 else (e1, none)) : Res) = y at hr hn'
      obtain ⟨e2, y⟩ := y
      rcases y with _ | y
      · rw [andThen_none] at hn'
        rcases initArrays_cases e2 with ⟨_, h'⟩ | ⟨_, _, h', _⟩
        · exact h' hn'
        · have : e2.maxFactor = false := hr
          simp [this] at h'
      · simp [andThen] at hn'
    · simp [andThen] at hn'
  · simp [call, startSim, q.2]

/-- **C91 (negative, mixed).** `set_solver` fixes the method when it is called.  A later
`set_timeframe` with constant steps is accepted, and the simulation still runs with adaptive
steps; a later `set_timeframe` with adaptive steps is accepted, and `start_sim` raises. -/
theorem C91_fails_stale_solver (n : Nat) (d : Int) :
    (∃ h e, Script h e ∧
      h = [(.setTimeframe true, .returned), (.setSolver "heun" (some false), .returned),
        (.setTimeframe false, .returned), (.addPart (n + 1), .returned),
        (.setDisk false (some d) true, .returned), (.initSim true false, .returned)] ∧
      (call e .start).2 = .simulated .heunAdaptive true true) ∧
    (∃ h e, Script h e ∧
      h = [(.setTimeframe false, .returned), (.setSolver "heun" (some false), .returned),
        (.setTimeframe true, .returned), (.addPart (n + 1), .returned),
        (.setDisk false (some d) true, .returned), (.initSim true false, .returned)] ∧
      (call e .start).2 = .raised .type) := by
  constructor
  · refine ⟨_, _, play_script [.setTimeframe true, .setSolver "heun" (some false),
      .setTimeframe false, .addPart (n + 1), .setDisk false (some d) true, .initSim true false],
      ?_, ?_⟩
    · simp [play, call, ofRes, setTimeframe, setSolver, setDisk, initSim, build, initArrays, check,
        andThen, assignAll, chosen]
    · simp [play, call, ofRes, setTimeframe, setSolver, setDisk, initSim, build, initArrays, check,
        andThen, assignAll, chosen, startSim]
  · refine ⟨_, _, play_script [.setTimeframe false, .setSolver "heun" (some false),
      .setTimeframe true, .addPart (n + 1), .setDisk false (some d) true, .initSim true false],
      ?_, ?_⟩
    · simp [play, call, ofRes, setTimeframe, setSolver, setDisk, initSim, build, initArrays, check,
        andThen, assignAll, chosen]
    · simp [play, call, ofRes, setTimeframe, setSolver, setDisk, initSim, build, initArrays, check,
        andThen, assignAll, chosen, startSim]

/-- `_initialized` is set by every accepted `initialize_sim` and never taken back. -/
theorem Script.initialized {h : List (Call × Result)} {e : Env} (hs : Script h e)
    (ha : Accepted h fun c => ∃ b r, c = .initSim b r) : e.initialized = true := by
  have keepB : ∀ e' : Env, e'.initialized = true → (build e').1.initialized = true := fun e' q => by
    rcases build_cases e' with ⟨hb, _⟩ | ⟨_, _, _, _, _, _, hb, _⟩ <;> rw [hb] <;> exact q
  have keepR : ∀ e' : Env, e'.initialized = true → (reset e').1.initialized = true := fun e' q => by
    rcases reset_cases e' with ⟨hb, _⟩ | ⟨_, _, hb⟩ <;> rw [hb] <;> exact q
  have keepI : ∀ e' : Env, e'.initialized = true → (initArrays e').1.initialized = true :=
    fun e' q => by
      rcases initArrays_cases e' with ⟨hb, _⟩ | ⟨_, _, _, _, hb⟩
      · rw [hb]; exact q
      · rw [hb]
  induction hs with
  | nil => obtain ⟨x, hx, _⟩ := ha; simp at hx
  | @snoc h e c hs ih =>
    obtain ⟨x, hx, ⟨b, r, hx1⟩, hx2⟩ := ha
    rcases List.mem_append.1 hx with hx | hx
    · have q := ih ⟨x, hx, ⟨b, r, hx1⟩, hx2⟩
      cases c with
      | setTimeframe a => exact q
      | setSolver n a =>
        have hf : (call e (.setSolver n a)).1 = (setSolver n a e).1 := ofRes_fst _
        rcases setSolver_cases n a e with ⟨_, hb⟩ | ⟨_, _, hb⟩ | ⟨_, _, _, hb⟩ <;>
          rw [hf, hb] <;> exact q
      | setDisk s d f =>
        have hf : (call e (.setDisk s d f)).1 = (setDisk s d f e).1 := ofRes_fst _
        rcases setDisk_cases s d f e with ⟨_, _, hb⟩ | ⟨_, hb⟩ <;> rw [hf, hb] <;> exact q
      | addPart n => exact q
      | addSeries d => exact q
      | start => exact q
      | initSim b r =>
        have hf : (call e (.initSim b r)).1 = (initSim b r e).1 := ofRes_fst _
        rw [hf]
        exact initSim_inv (fun e => e.initialized = true) keepB keepR keepI b r e q
    · rw [List.mem_singleton.1 hx] at hx1 hx2
      simp only at hx1 hx2
      subst hx1
      have hf : (call e (.initSim b r)).1 = (initSim b r e).1 := ofRes_fst _
      rw [hf]
      have hn : (initSim b r e).2 = none := ofRes_returned.1 hx2
      unfold initSim at hn ⊢
      generalize ((bif b then build e else (e, none)) : Res) = x at hn
      obtain ⟨e1, x⟩ := x
      rcases x with _ | x
      · rw [andThen_none] at hn ⊢
        generalize ((bif r then reset e1 else (e1, none)) : Res) = y at hn
        obtain ⟨e2, y⟩ := y
        rcases y with _ | y
        · rw [andThen_none] at hn ⊢
          rcases initArrays_cases e2 with ⟨_, h'⟩ | ⟨_, _, _, _, hb⟩
          · exact absurd hn h'
          · rw [hb]
        · simp [andThen] at hn
      · simp [andThen] at hn

/-- **C91 (adaptive steps).** If every `set_timeframe` asks for adaptive steps, every
`set_disksaving` names a start date and an `initialize_sim` returned, then `start_sim` simulates. -/
theorem C91_adaptive_partial {h : List (Call × Result)} {e : Env} (hs : Script h e)
    (hc : ∀ x ∈ h, ∀ a, x.1 = .setTimeframe a → a = true)
    (hd : ∀ x ∈ h, ∀ s d f, x.1 = .setDisk s d f → d ≠ none)
    (ha : Accepted h fun c => ∃ b r, c = .initSim b r) :
    ∃ fl k, (call e .start).2 = .simulated .heunAdaptive fl k := by
  have q : (e.timeframeSet = true → e.adaptive = true) ∧ e.solver ≠ some .heun ∧
      (e.diskSet = true → e.start ≠ none) ∧ (e.infer ≠ none → e.start ≠ none) := by
    refine Script.keep (fun e => (e.timeframeSet = true → e.adaptive = true) ∧
        e.solver ≠ some .heun ∧ (e.diskSet = true → e.start ≠ none) ∧
        (e.infer ≠ none → e.start ≠ none))
      (fun c => (∀ a, c = .setTimeframe a → a = true) ∧ ∀ s d f, c = .setDisk s d f → d ≠ none)
      ?_ ?_ ?_ ?_ ?_ ?_ ?_ ?_ ?_ hs fun x hx => ⟨hc x hx, hd x hx⟩
    · simp
    · intro e a ha q
      have := ha.1 a rfl
      subst this
      exact ⟨fun _ => rfl, q.2⟩
    · intro e n i _ q
      rcases setSolver_cases n i e with ⟨_, hb⟩ | ⟨h1, _, hb⟩ | ⟨h1, _, _, hb⟩
      · rw [hb]; exact q
      · rw [hb]; exact ⟨q.1, by simp [chosen, q.1 h1], q.2.2⟩
      · rw [hb]; exact ⟨q.1, by simp [chosen, q.1 h1], q.2.2⟩
    · intro e s d f ha q
      have := ha.2 s d f rfl
      rcases setDisk_cases s d f e with ⟨_, _, hb⟩ | ⟨_, hb⟩ <;> rw [hb] <;>
        exact ⟨q.1, q.2.1, fun _ => this, fun _ => this⟩
    · intro e n _ q; exact q
    · intro e d _ q; exact q
    · intro e q
      have key : ∀ (l : List Int) (e : Env), (e.diskSet = true → e.start ≠ none) →
          (e.infer ≠ none → e.start ≠ none) →
          ((assignAll l e).1.diskSet = true → (assignAll l e).1.start ≠ none) ∧
          ((assignAll l e).1.infer ≠ none → (assignAll l e).1.start ≠ none) := by
        intro l
        induction l with
        | nil => intro e h1 h2; exact ⟨h1, h2⟩
        | cons d l ih =>
          intro e h1 h2
          have hk : ((assignSeries d e).1.diskSet = true → (assignSeries d e).1.start ≠ none) ∧
              ((assignSeries d e).1.infer ≠ none → (assignSeries d e).1.start ≠ none) := by
            unfold assignSeries
            split
            · cases h : (e.start == some d)
              · exact ⟨h1, h2⟩
              · rw [check_true, andThen_none]
                rcases addSeries_cases d e with ⟨_, h⟩ | ⟨_, h⟩ <;> rw [h] <;> exact ⟨h1, h2⟩
            · rcases addSeries_cases d { e with start := some d } with ⟨_, h⟩ | ⟨_, h⟩ <;>
                rw [h] <;> simp
            · rcases addSeries_cases d e with ⟨_, h⟩ | ⟨_, h⟩ <;> rw [h] <;> exact ⟨h1, h2⟩
            · exact ⟨h1, h2⟩
          unfold assignAll andThen
          split
          · exact ih _ hk.1 hk.2
          · exact hk
      unfold build
      let P : Env → Prop := fun e => (e.timeframeSet = true → e.adaptive = true) ∧
        e.solver ≠ some .heun ∧ (e.diskSet = true → e.start ≠ none) ∧
        (e.infer ≠ none → e.start ≠ none)
      refine andThen_inv P q fun q => andThen_inv P q fun q => andThen_inv P ?_ fun q =>
        andThen_inv P q fun q => andThen_inv P q fun q => q
      have hk := key e.series { e with cells := e.cells + e.parts.sum } q.2.2.1 q.2.2.2
      obtain ⟨s, t, h⟩ := assignAll_cases e.series { e with cells := e.cells + e.parts.sum }
      refine ⟨?_, ?_, hk⟩
      · change (assignAll e.series { e with cells := e.cells + e.parts.sum }).1.timeframeSet = true →
          (assignAll e.series { e with cells := e.cells + e.parts.sum }).1.adaptive = true
        rw [h]; exact q.1
      · change (assignAll e.series { e with cells := e.cells + e.parts.sum }).1.solver ≠ some .heun
        rw [h]; exact q.2.1
    · intro e q
      rcases reset_cases e with ⟨hb, _⟩ | ⟨_, _, hb⟩ <;> rw [hb] <;> exact q
    · intro e q
      rcases initArrays_cases e with ⟨hb, _⟩ | ⟨_, _, _, _, hb⟩ <;> rw [hb] <;> exact q
  have hi := hs.initialized ha
  have i := hs.inv
  obtain ⟨h2, _⟩ := i.ini hi
  have h3 := i.sol (i.cl h2).2.1
  refine ⟨e.topology, !e.save || e.storeReady, ?_⟩
  have h4 : (e.diskSet && e.start.isNone) = false := by
    cases h5 : e.diskSet
    · rfl
    · have := q.2.2.1 h5
      cases h6 : e.start
      · exact absurd h6 this
      · rfl
  have h5 : e.solver = some .heunAdaptive := by
    rcases h6 : e.solver with _ | m
    · simp [h6] at h3
    · cases m
      · exact absurd h6 q.2.1
      · rfl
  simp [call, startSim, hi, h4, h5]

/-- A script with adaptive steps that meets the assumptions of `C91_adaptive_partial`. -/
example : ∃ h e, Script h e ∧ (∀ x ∈ h, ∀ a, x.1 = .setTimeframe a → a = true) ∧
    (∀ x ∈ h, ∀ s d f, x.1 = .setDisk s d f → d ≠ none) ∧
    Accepted h fun c => ∃ b r, c = .initSim b r := by
  refine ⟨_, _, play_script [.setTimeframe true, .setSolver "heun" (some false), .addPart 10,
    .setDisk true (some 7) true, .addSeries 7, .initSim true false], ?_, ?_, ?_⟩
  · simp [play]
  · simp [play]
  · exact ⟨(.initSim true false, .returned), by decide +kernel, ⟨true, false, rfl⟩, rfl⟩

/-- A script with constant steps only. -/
example : ∃ h e, Script h e ∧ (∀ x ∈ h, ∀ a, x.1 = .setTimeframe a → a = false) ∧
    Accepted h IsTimeframe ∧ Accepted h IsSolver ∧ Accepted h IsDisk ∧ Accepted h IsNumericPart := by
  refine ⟨_, _, play_script [.setTimeframe false, .setSolver "heun" (some false), .addPart 10,
    .setDisk true (some 7) true, .initSim true false], ?_, ?_, ?_, ?_, ?_⟩
  · simp [play]
  · exact ⟨(.setTimeframe false, .returned), by decide +kernel, ⟨false, rfl⟩, rfl⟩
  · exact ⟨(.setSolver "heun" (some false), .returned), by decide +kernel, ⟨_, _, rfl⟩, rfl⟩
  · exact ⟨(.setDisk true (some 7) true, .returned), by decide +kernel, ⟨_, _, _, rfl⟩, rfl⟩
  · exact ⟨(.addPart 10, .returned), by decide +kernel, ⟨10, by decide, rfl⟩, rfl⟩

end Verif.Protocol
