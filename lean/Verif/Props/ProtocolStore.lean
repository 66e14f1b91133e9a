import Verif.Props.ProtocolRun

/-!
# C92–C93: start date and results of a simulation
-/

namespace Verif.Protocol

/-! ## C92 -/

theorem addSeries_ok {d : Int} {e : Env} (h : (addSeries d e).2 = none) :
    (e.timevec = none ∨ e.timevec = some d) ∧ (addSeries d e).1 = { e with timevec := some d } := by
  rcases addSeries_cases d e with ⟨_, h'⟩ | ⟨h', _⟩
  · refine ⟨?_, h'⟩
    unfold addSeries check andThen at h
    cases ht : e.timevec
    · left; rfl
    · rename_i x
      right
      by_contra hne
      have : (some x == some d) = false := by simpa using hne
      simp [ht, this] at h
  · exact absurd h h'

theorem assignSeries_ok {d : Int} {e : Env} (hd : e.diskSet = true)
    (h : (assignSeries d e).2 = none) :
    (e.timevec = none ∨ e.timevec = some d) ∧
      (assignSeries d e).1 = { e with start := some d, timevec := some d } := by
  unfold assignSeries at h ⊢
  split at h
  · cases hs : (e.start == some d)
    · rw [hs] at h; simp [check, andThen] at h
    · rw [hs, check_true, andThen_none] at h
      obtain ⟨h1, h2⟩ := addSeries_ok h
      refine ⟨h1, ?_⟩
      rw [check_true, andThen_none, h2]
      have : e.start = some d := by simpa using hs
      cases e
      simp_all
  · obtain ⟨h1, h2⟩ := addSeries_ok h
    exact ⟨h1, h2⟩
  · simp_all
  · simp at h

theorem assignAll_ok (l : List Int) {e : Env} (hd : e.diskSet = true)
    (h : (assignAll l e).2 = none) :
    ∀ d ∈ l, (assignAll l e).1.start = some d := by
  have key : ∀ (l : List Int) (e : Env) (c : Int), e.diskSet = true → e.timevec = some c →
      e.start = some c → (assignAll l e).2 = none →
      (∀ d ∈ l, d = c) ∧ (assignAll l e).1.start = some c := by
    intro l
    induction l with
    | nil => intro e c _ _ h3 _; exact ⟨by simp, h3⟩
    | cons d l ih =>
      intro e c h1 h2 h3 h4
      unfold assignAll andThen at h4 ⊢
      split at h4
      · rename_i hn
        obtain ⟨h5, h6⟩ := assignSeries_ok h1 hn
        have hdc : d = c := by
          rcases h5 with h5 | h5
          · simp [h2] at h5
          · rw [h2] at h5; exact (Option.some.inj h5).symm
        subst hdc
        rw [h6] at h4 ⊢
        obtain ⟨h7, h8⟩ := ih { e with start := some d, timevec := some d } d h1 rfl rfl h4
        refine ⟨?_, h8⟩
        intro x hx
        rcases List.mem_cons.1 hx with hx | hx
        · exact hx
        · exact h7 x hx
      · simp at h4
  cases l with
  | nil => simp
  | cons d l =>
    unfold assignAll andThen at h ⊢
    split at h
    · rename_i hn
      obtain ⟨h5, h6⟩ := assignSeries_ok hd hn
      rw [h6] at h ⊢
      obtain ⟨h7, h8⟩ := key l { e with start := some d, timevec := some d } d hd rfl rfl h
      intro x hx
      rcases List.mem_cons.1 hx with hx | hx
      · rw [hx]; exact h8
      · rw [h7 x hx]; exact h8
    · simp at h

/-- After a successful build with disk saving set, the start date is the first time stamp of every
series. -/
theorem build_start {e : Env} (h : (build e).2 = none) :
    ∀ d ∈ e.series, (build e).1.start = some d := by
  have hdisk : e.diskSet = true := by
    rcases build_cases e with ⟨_, hb⟩ | ⟨_, _, _, _, _, _, _, hb, _⟩
    · exact absurd h hb
    · exact (hb h).2
  intro d hd
  unfold build at h ⊢
  cases h1 : (!e.parts.isEmpty)
  · rw [h1] at h; simp [check, andThen] at h
  cases h2 : (e.solverSet && e.timeframeSet)
  · rw [h1] at h; simp [check, andThen, h2] at h
  rw [h1, check_true, andThen_none, h2, check_true, andThen_none] at h
  rw [check_true, andThen_none, h2, check_true, andThen_none]
  have hok := assignAll_ok e.series (e := { e with cells := e.cells + e.parts.sum }) hdisk
  generalize assignAll e.series { e with cells := e.cells + e.parts.sum } = r at h hok ⊢
  obtain ⟨e', x⟩ := r
  rcases x with _ | x
  · have h3 : e'.start = some d := hok rfl d hd
    rw [andThen_none] at h ⊢
    cases h4 : (!e'.linked)
    · rw [h4] at h; simp [check, andThen] at h
    rw [h4, check_true, andThen_none] at h
    rw [check_true, andThen_none]
    cases h5 : (e'.solverSet && e'.timeframeSet && e'.diskSet)
    · simp [check, andThen, h5] at h
    · simp [check, andThen, h3]
  · simp [andThen] at h

/-- Accepted calls of `add_open_port`/pumps with a series are remembered. -/
theorem Script.series {h : List (Call × Result)} {e : Env} (hs : Script h e) {d : Int} {r : Result}
    (hx : (Call.addSeries d, r) ∈ h) : d ∈ e.series := by
  have keepB : ∀ e' : Env, (build e').1.series = e'.series := fun e' => by
    rcases build_cases e' with ⟨hb, _⟩ | ⟨_, _, _, _, _, _, hb, _⟩ <;> rw [hb]
  have keepR : ∀ e' : Env, (reset e').1.series = e'.series := fun e' => by
    rcases reset_cases e' with ⟨hb, _⟩ | ⟨_, _, hb⟩ <;> rw [hb]
  have keepI : ∀ e' : Env, (initArrays e').1.series = e'.series := fun e' => by
    rcases initArrays_cases e' with ⟨hb, _⟩ | ⟨_, _, _, _, hb⟩ <;> rw [hb]
  induction hs with
  | nil => simp at hx
  | @snoc h e c hs ih =>
    rcases List.mem_append.1 hx with hx | hx
    · have q := ih hx
      cases c with
      | setTimeframe a => exact q
      | setSolver n a =>
        have hf : (call e (.setSolver n a)).1 = (setSolver n a e).1 := ofRes_fst _
        rcases setSolver_cases n a e with ⟨_, hb⟩ | ⟨_, _, hb⟩ | ⟨_, _, _, hb⟩ <;>
          rw [hf, hb] <;> exact q
      | setDisk s d f =>
        have hf : (call e (.setDisk s d f)).1 = (setDisk s d f e).1 := ofRes_fst _
        rcases setDisk_cases s d f e with ⟨_, _, hb⟩ | ⟨_, hb⟩ <;> rw [hf, hb] <;> exact q
      | addPart n => exact q
      | addSeries d => exact List.mem_append_left _ q
      | start => exact q
      | initSim b r =>
        have hf : (call e (.initSim b r)).1 = (initSim b r e).1 := ofRes_fst _
        rw [hf]
        exact initSim_inv (fun e => d ∈ e.series) (fun e h => by rw [keepB]; exact h)
          (fun e h => by rw [keepR]; exact h) (fun e h => by rw [keepI]; exact h) b r e q
    · have hc := List.mem_singleton.1 hx
      have hc1 : c = .addSeries d := (congrArg Prod.fst hc).symm
      subst hc1
      exact List.mem_append_right _ (List.mem_singleton_self _)

/-- Calls that do not set disk saving and do not build again. -/
def Harmless (c : Call) : Prop :=
  (¬ IsDisk c) ∧ ∀ r, c ≠ .initSim true r

/-- Continue a script. -/
inductive Continued (e0 : Env) : List (Call × Result) → Env → Prop
  | nil : Continued e0 [] e0
  | snoc {h : List (Call × Result)} {e : Env} (c : Call) (hs : Continued e0 h e) :
      Continued e0 (h ++ [(c, (call e c).2)]) (call e c).1

theorem call_start {e : Env} {c : Call} (hc : Harmless c) : (call e c).1.start = e.start := by
  cases c with
  | setTimeframe a => rfl
  | setSolver n a =>
    have hf : (call e (.setSolver n a)).1 = (setSolver n a e).1 := ofRes_fst _
    rcases setSolver_cases n a e with ⟨_, hb⟩ | ⟨_, _, hb⟩ | ⟨_, _, _, hb⟩ <;> rw [hf, hb]
  | setDisk s d f => exact absurd ⟨s, d, f, rfl⟩ hc.1
  | addPart n => rfl
  | addSeries d => rfl
  | start => rfl
  | initSim b r =>
    cases b
    · have hf : (call e (.initSim false r)).1 = (initSim false r e).1 := ofRes_fst _
      rw [hf]
      have keepR : ∀ e' : Env, (reset e').1.start = e'.start := fun e' => by
        rcases reset_cases e' with ⟨hb, _⟩ | ⟨_, _, hb⟩ <;> rw [hb]
      have keepI : ∀ e' : Env, (initArrays e').1.start = e'.start := fun e' => by
        rcases initArrays_cases e' with ⟨hb, _⟩ | ⟨_, _, _, _, hb⟩ <;> rw [hb]
      unfold initSim
      refine andThen_inv (fun x => x.start = e.start) rfl fun h1 =>
        andThen_inv (fun x => x.start = e.start) ?_ fun h2 => (keepI _).trans h2
      cases r
      · exact h1
      · exact (keepR _).trans h1
    · exact absurd rfl (hc.2 r)

theorem Continued.start {e0 e : Env} {h : List (Call × Result)} (hs : Continued e0 h e)
    (hh : ∀ x ∈ h, Harmless x.1) : e.start = e0.start := by
  induction hs with
  | nil => rfl
  | @snoc h e c hs ih =>
    have h1 := ih fun x hx => hh x (List.mem_append_left _ hx)
    have h2 : Harmless c := hh _ (List.mem_append_right _ (List.mem_singleton_self _))
    rw [call_start h2, h1]

/-- **C92 (what holds).** Once `initialize_sim` has built the environment, and as long as disk saving
is not set again and nothing is built again, the start date of the stored results is the first time
stamp of every time series that was passed before, whether it was given or inferred. -/
theorem C92_start_date_partial {h1 h2 : List (Call × Result)} {e1 e : Env} {r : Bool}
    (hs : Script h1 e1) (hi : (call e1 (.initSim true r)).2 = .returned)
    (hc : Continued (call e1 (.initSim true r)).1 h2 e) (hh : ∀ x ∈ h2, Harmless x.1)
    {d : Int} {x : Result} (hd : (Call.addSeries d, x) ∈ h1) : e.start = some d := by
  rw [hc.start hh]
  have hf : (call e1 (.initSim true r)).1 = (initSim true r e1).1 := ofRes_fst _
  have hn : (initSim true r e1).2 = none := ofRes_returned.1 hi
  have hb := build_start (initSim_build hn) d (hs.series hd)
  rw [hf]
  have keepR : ∀ e' : Env, (reset e').1.start = e'.start := fun e' => by
    rcases reset_cases e' with ⟨hb, _⟩ | ⟨_, _, hb⟩ <;> rw [hb]
  have keepI : ∀ e' : Env, (initArrays e').1.start = e'.start := fun e' => by
    rcases initArrays_cases e' with ⟨hb, _⟩ | ⟨_, _, _, _, hb⟩ <;> rw [hb]
  unfold initSim
  refine andThen_inv (fun x => x.start = some d) hb fun h1 =>
    andThen_inv (fun x => x.start = some d) ?_ fun h2 => (keepI _).trans h2
  cases r
  · exact h1
  · exact (keepR _).trans h1

/-- A script that meets the assumptions of `C92_start_date_partial`, with inferred date. -/
example : ∃ h1 e1, Script h1 e1 ∧ (call e1 (.initSim true false)).2 = .returned ∧
    (Call.addSeries 7, Result.returned) ∈ h1 :=
  ⟨_, _, play_script [.setTimeframe true, .setSolver "heun" (some false), .addPart 10,
    .setDisk true none true, .addSeries 7], by decide +kernel, by decide +kernel⟩

/-- **C92 fails when disk saving is set again.** After the environment was built with a series that
starts at `d`, `set_disksaving` accepts any other date `d'`, and the simulation runs and dates its
results with `d'`. -/
theorem C92_fails_late_disksaving (n : Nat) (d d' : Int) :
    ∃ h e, Script h e ∧
      h = [(.setTimeframe true, .returned), (.setSolver "heun" (some false), .returned),
        (.addPart (n + 1), .returned), (.addSeries d, .returned),
        (.setDisk true (some d) true, .returned), (.initSim true false, .returned),
        (.setDisk true (some d') true, .returned)] ∧
      (call e .start).2 = .simulated .heunAdaptive true true ∧ e.start = some d' := by
  refine ⟨_, _, play_script [.setTimeframe true, .setSolver "heun" (some false),
    .addPart (n + 1), .addSeries d, .setDisk true (some d) true, .initSim true false,
    .setDisk true (some d') true], ?_, ?_, ?_⟩
  · simp [play, call, ofRes, setTimeframe, setSolver, setDisk, initSim, build, initArrays, check,
      andThen, assignAll, assignSeries, addSeries, chosen]
  · simp [play, call, ofRes, setTimeframe, setSolver, setDisk, initSim, build, initArrays, check,
      andThen, assignAll, assignSeries, addSeries, chosen, startSim]
  · simp [play, call, ofRes, setTimeframe, setSolver, setDisk, initSim, build, initArrays, check,
      andThen, assignAll, assignSeries, addSeries, chosen]

/-- **C92 fails without disk saving.** If nothing is saved to disk, the date is to be inferred and
there is no time series, the simulation is refused for lack of a date: every `start_sim` raises. -/
theorem C92_fails_no_saving {h : List (Call × Result)} {e : Env} (hs : Script h e)
    (hd : ∀ x ∈ h, ∀ s d f, x.1 = .setDisk s d f → s = false ∧ d = none)
    (hn : ∀ x ∈ h, ∀ d, x.1 ≠ .addSeries d) :
    (call e .start).2 = .raised .userWarning ∨ (call e .start).2 = .raised .type := by
  have q : e.start = none ∧ e.series = [] ∧ (e.saveEvery = true → e.diskSet = true) := by
    refine Script.keep
      (fun e => e.start = none ∧ e.series = [] ∧ (e.saveEvery = true → e.diskSet = true))
      (fun c => (∀ s d f, c = .setDisk s d f → s = false ∧ d = none) ∧ ∀ d, c ≠ .addSeries d)
      ?_ ?_ ?_ ?_ ?_ ?_ ?_ ?_ ?_ hs fun x hx => ⟨hd x hx, hn x hx⟩
    · simp
    · intro e a _ q; exact q
    · intro e n i _ q
      rcases setSolver_cases n i e with ⟨_, hb⟩ | ⟨_, _, hb⟩ | ⟨_, _, _, hb⟩ <;> rw [hb] <;> exact q
    · intro e s d f ha q
      obtain ⟨h1, h2⟩ := ha.1 s d f rfl
      subst h1
      subst h2
      simp [setDisk, q.2.1]
    · intro e n _ q; exact q
    · intro e d ha _; exact absurd rfl (ha.2 d)
    · intro e q
      unfold build
      let P : Env → Prop := fun e =>
        e.start = none ∧ e.series = [] ∧ (e.saveEvery = true → e.diskSet = true)
      refine andThen_inv P q fun q => andThen_inv P q fun q => andThen_inv P ?_ fun q =>
        andThen_inv P q fun q => andThen_inv P q fun q => q
      change P (assignAll e.series { e with cells := e.cells + e.parts.sum }).1
      have hnil : ∀ e' : Env, e'.series = [] →
          assignAll e'.series { e' with cells := e'.cells + e'.parts.sum } =
            ({ e' with cells := e'.cells + e'.parts.sum }, none) := fun e' h' => by rw [h']; rfl
      rw [hnil e q.2.1]
      exact q
    · intro e q
      rcases reset_cases e with ⟨hb, _⟩ | ⟨_, _, hb⟩ <;> rw [hb] <;> exact q
    · intro e q
      rcases initArrays_cases e with ⟨hb, _⟩ | ⟨_, _, _, _, hb⟩ <;> rw [hb] <;> exact q
  cases hi : e.initialized
  · left; simp [call, startSim, hi]
  · right
    have h1 := q.2.2 (hs.inv.ini hi).2.1
    simp [call, startSim, hi, h1, q.1]

/-- A completely set-up simulation that is refused by `C92_fails_no_saving`. -/
example : ∃ h e, Script h e ∧ (∀ x ∈ h, ∀ s d f, x.1 = .setDisk s d f → s = false ∧ d = none) ∧
    (∀ x ∈ h, ∀ d, x.1 ≠ .addSeries d) ∧ (Call.initSim true false, Result.returned) ∈ h := by
  refine ⟨_, _, play_script [.setTimeframe true, .setSolver "heun" (some false), .addPart 10,
    .setDisk false none true, .initSim true false], ?_, ?_, by decide +kernel⟩
  · simp [play]
  · simp [play]

/-! ## C93 -/

/-- **C93 (what holds).** If no `set_disksaving` was refused, a simulation that runs keeps its
results. -/
theorem C93_kept_partial {h : List (Call × Result)} {e : Env} (hs : Script h e)
    (hd : ∀ x ∈ h, IsDisk x.1 → x.2 = .returned)
    {m : Meth} {fl k : Bool} (hr : (call e .start).2 = .simulated m fl k) : k = true := by
  have q : e.save = true → e.storeReady = true := by
    clear hr
    induction hs with
    | nil => simp
    | @snoc h e c hs ih =>
      specialize ih fun x hx => hd x (List.mem_append_left _ hx)
      have hc := hd _ (List.mem_append_right _ (List.mem_singleton_self (c, (call e c).2)))
      cases c with
      | setTimeframe a => exact ih
      | setSolver n a =>
        have hf : (call e (.setSolver n a)).1 = (setSolver n a e).1 := ofRes_fst _
        rcases setSolver_cases n a e with ⟨_, hb⟩ | ⟨_, _, hb⟩ | ⟨_, _, _, hb⟩ <;>
          rw [hf, hb] <;> exact ih
      | setDisk s d f =>
        have hf : (call e (.setDisk s d f)).1 = (setDisk s d f e).1 := ofRes_fst _
        have hn : (setDisk s d f e).2 = none := ofRes_returned.1 (hc ⟨s, d, f, rfl⟩)
        rcases setDisk_cases s d f e with ⟨h', _, _⟩ | ⟨_, hb⟩
        · exact absurd hn h'
        · rw [hf, hb]; exact fun h => h
      | addPart n => exact ih
      | addSeries d => exact ih
      | start => exact ih
      | initSim b r =>
        have hf : (call e (.initSim b r)).1 = (initSim b r e).1 := ofRes_fst _
        rw [hf]
        refine initSim_inv (fun e => e.save = true → e.storeReady = true) ?_ ?_ ?_ b r e ih
        · intro e q
          rcases build_cases e with ⟨hb, _⟩ | ⟨_, _, _, _, _, _, hb, _⟩ <;> rw [hb] <;> exact q
        · intro e q
          rcases reset_cases e with ⟨hb, _⟩ | ⟨_, _, hb⟩ <;> rw [hb] <;> exact q
        · intro e q
          rcases initArrays_cases e with ⟨hb, _⟩ | ⟨_, _, _, _, hb⟩ <;> rw [hb] <;> exact q
  obtain ⟨_, _, _, _, hk, _⟩ := startSim_ran hr
  rw [hk]
  cases hsv : e.save
  · rfl
  · simp [q hsv]

/-- **C93 fails after a refused `set_disksaving`.** Disk saving was accepted; a second
`set_disksaving` with a folder that does not exist is refused, but it has already replaced the
description of the store.  Initialization and simulation still run, and only at the end the results
cannot be written. -/
theorem C93_fails_refused_call (n : Nat) (d : Int) :
    ∃ h e, Script h e ∧
      h = [(.setTimeframe true, .returned), (.setSolver "heun" (some false), .returned),
        (.addPart (n + 1), .returned), (.setDisk true (some d) true, .returned),
        (.setDisk true (some d) false, .raised .file), (.initSim true false, .returned)] ∧
      (call e .start).2 = .simulated .heunAdaptive true false := by
  refine ⟨_, _, play_script [.setTimeframe true, .setSolver "heun" (some false),
    .addPart (n + 1), .setDisk true (some d) true, .setDisk true (some d) false,
    .initSim true false], ?_, ?_⟩
  · simp [play, call, ofRes, setTimeframe, setSolver, setDisk, initSim, build, initArrays, check,
      andThen, assignAll, chosen]
  · simp [play, call, ofRes, setTimeframe, setSolver, setDisk, initSim, build, initArrays, check,
      andThen, assignAll, chosen, startSim]

/-- A run with disk saving that meets the assumptions of `C93_kept_partial`. -/
example : ∃ h e, Script h e ∧ (∀ x ∈ h, IsDisk x.1 → x.2 = .returned) ∧
    (call e .start).2 = .simulated .heunAdaptive true true := by
  refine ⟨_, _, play_script [.setTimeframe true, .setSolver "heun" (some false), .addPart 10,
    .setDisk true (some 3) true, .initSim true false], ?_, by decide +kernel⟩
  simp [play, IsDisk, call, ofRes, setTimeframe, setSolver, setDisk, initSim, build, initArrays,
    check, andThen, assignAll, chosen]

end Verif.Protocol
