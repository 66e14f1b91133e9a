import Verif.Lemmas.Protocol
import Mathlib.Algebra.BigOperators.Group.List.Basic

/-!
# C90–C93: setting up and starting a simulation

The statements speak about scripts, i.e. sequences of calls with their results, for calls in any
order and with any arguments, also going on after exceptions.
-/

namespace Verif.Protocol

/-- What a script guarantees about the environment it leaves. -/
structure Inv (h : List (Call × Result)) (e : Env) : Prop where
  tf : e.timeframeSet = true → Accepted h IsTimeframe
  sv : e.solverSet = true → Accepted h IsSolver
  dk : e.diskSet = true → Accepted h IsDisk
  pt : ∀ n ∈ e.parts, Accepted h (· = .addPart n)
  cl : 0 < e.cells → e.timeframeSet = true ∧ e.solverSet = true ∧ Accepted h IsNumericPart
  ini : e.initialized = true → 0 < e.cells ∧ e.saveEvery = true ∧ e.maxFactor = true
  sol : e.solverSet = true → e.solver.isSome = true
  se : e.saveEvery = true → ∃ x ∈ h, IsDisk x.1
  top : e.topology = true → e.diskSet = true

theorem Inv.mono {h : List (Call × Result)} {e : Env} (i : Inv h e) (x : Call × Result) :
    Inv (h ++ [x]) e where
  tf := fun q => accepted_mono x (i.tf q)
  sv := fun q => accepted_mono x (i.sv q)
  dk := fun q => accepted_mono x (i.dk q)
  pt := fun n hn => accepted_mono x (i.pt n hn)
  cl := fun q => ⟨(i.cl q).1, (i.cl q).2.1, accepted_mono x (i.cl q).2.2⟩
  ini := i.ini
  sol := i.sol
  se := fun q => by
    obtain ⟨y, hy, h'⟩ := i.se q
    exact ⟨y, List.mem_append_left _ hy, h'⟩
  top := i.top

theorem numericPart {h : List (Call × Result)} {e : Env} (i : Inv h e) (hp : 0 < e.parts.sum) :
    Accepted h IsNumericPart := by
  have : ∃ n ∈ e.parts, 0 < n := by
    by_contra hc
    push Not at hc
    have : e.parts.sum = 0 := List.sum_eq_zero fun n hn => by have := hc n hn; omega
    omega
  obtain ⟨n, hn, h0⟩ := this
  obtain ⟨x, hx, h1, h2⟩ := i.pt n hn
  exact ⟨x, hx, ⟨n, h0, h1⟩, h2⟩

theorem Inv.build {h : List (Call × Result)} {e : Env} (i : Inv h e) : Inv h (build e).1 := by
  rcases build_cases e with ⟨hb, _⟩ | ⟨h1, h2, s, t, l, p, hb, h3, h4, _⟩
  · rw [hb]; exact i
  · rw [hb]
    refine ⟨i.tf, i.sv, i.dk, i.pt, ?_, ?_, i.sol, i.se, ?_⟩
    · intro hc
      refine ⟨h2, h1, ?_⟩
      rcases Nat.eq_zero_or_pos e.cells with h0 | h0
      · apply numericPart i
        simp only [h0, Nat.zero_add] at hc
        exact hc
      · exact (i.cl h0).2.2
    · intro hi
      obtain ⟨q1, q2, q3⟩ := i.ini hi
      exact ⟨Nat.add_pos_left q1 _, q2, q3⟩
    · intro hp
      rcases h4 hp with h5 | h5
      · exact i.top h5
      · exact (h3 h5).2

theorem Inv.reset {h : List (Call × Result)} {e : Env} (i : Inv h e) : Inv h (reset e).1 := by
  rcases reset_cases e with ⟨hb, _⟩ | ⟨_, _, hb⟩
  · rw [hb]; exact i
  · rw [hb]
    refine ⟨i.tf, i.sv, i.dk, i.pt, i.cl, ?_, i.sol, i.se, i.top⟩
    intro hi
    obtain ⟨q1, q2, q3⟩ := i.ini hi
    exact ⟨q1, q2, by simp [q3]⟩

theorem Inv.initArrays {h : List (Call × Result)} {e : Env} (i : Inv h e) :
    Inv h (initArrays e).1 := by
  rcases initArrays_cases e with ⟨hb, _⟩ | ⟨h1, h2, h3, _, hb⟩
  · rw [hb]; exact i
  · rw [hb]
    exact ⟨i.tf, i.sv, i.dk, i.pt, i.cl, fun _ => ⟨h2, h1, h3⟩, i.sol, i.se, i.top⟩

theorem Inv.call {h : List (Call × Result)} {e : Env} (i : Inv h e) (c : Call) :
    Inv (h ++ [(c, (call e c).2)]) (call e c).1 := by
  have j := i.mono (c, (Protocol.call e c).2)
  cases c with
  | setTimeframe a =>
    refine ⟨fun _ => accepted_last ⟨a, rfl⟩ rfl, j.sv, j.dk, j.pt, ?_, ?_, j.sol, j.se, j.top⟩
    · intro hc
      exact ⟨rfl, (j.cl hc).2⟩
    · intro hi
      obtain ⟨q1, q2, q3⟩ := j.ini hi
      refine ⟨q1, q2, ?_⟩
      have q3' : e.maxFactor = true := q3
      simp [Protocol.call, setTimeframe, ofRes, q3']
  | setSolver n a =>
    have hf : (Protocol.call e (.setSolver n a)).1 = (setSolver n a e).1 := ofRes_fst _
    rcases setSolver_cases n a e with ⟨_, hb⟩ | ⟨_, _, hb⟩ | ⟨_, _, h0, hb⟩
    · rw [hf, hb]; exact j
    · rw [hf, hb]
      exact ⟨j.tf, j.sv, j.dk, j.pt, j.cl, j.ini, fun _ => rfl, j.se, j.top⟩
    · rw [hf, hb]
      refine ⟨j.tf, fun _ => ?_, j.dk, j.pt, ?_, j.ini, fun _ => rfl, j.se, j.top⟩
      · exact accepted_last ⟨n, a, rfl⟩ (ofRes_returned.2 h0)
      · intro hc
        exact ⟨(j.cl hc).1, rfl, (j.cl hc).2.2⟩
  | setDisk s d f =>
    have hf : (Protocol.call e (.setDisk s d f)).1 = (setDisk s d f e).1 := ofRes_fst _
    have hm : ∃ x ∈ h ++ [(Call.setDisk s d f, (Protocol.call e (.setDisk s d f)).2)], IsDisk x.1 :=
      ⟨_, List.mem_append_right _ (List.mem_singleton_self _), s, d, f, rfl⟩
    rcases setDisk_cases s d f e with ⟨_, _, hb⟩ | ⟨h0, hb⟩
    · rw [hf, hb]
      exact ⟨j.tf, j.sv, j.dk, j.pt, j.cl, fun q => ⟨(j.ini q).1, rfl, (j.ini q).2.2⟩, j.sol,
        fun _ => hm, j.top⟩
    · rw [hf, hb]
      exact ⟨j.tf, j.sv, fun _ => accepted_last ⟨s, d, f, rfl⟩ (ofRes_returned.2 h0), j.pt, j.cl,
        fun q => ⟨(j.ini q).1, rfl, (j.ini q).2.2⟩, j.sol, fun _ => hm, fun _ => rfl⟩
  | addPart n =>
    refine ⟨j.tf, j.sv, j.dk, ?_, j.cl, j.ini, j.sol, j.se, j.top⟩
    intro m hm
    rcases List.mem_append.1 hm with hm | hm
    · exact j.pt m hm
    · rw [List.mem_singleton.1 hm]
      exact accepted_last rfl rfl
  | addSeries d => exact ⟨j.tf, j.sv, j.dk, j.pt, j.cl, j.ini, j.sol, j.se, j.top⟩
  | initSim b r =>
    have hf : (Protocol.call e (.initSim b r)).1 = (initSim b r e).1 := ofRes_fst _
    rw [hf]
    exact initSim_inv (Inv _) (fun _ q => q.build) (fun _ q => q.reset) (fun _ q => q.initArrays)
      b r e j
  | start => exact j

theorem Script.inv {h : List (Call × Result)} {e : Env} (hs : Script h e) : Inv h e := by
  induction hs with
  | nil => exact ⟨by simp, by simp, by simp, by simp, by simp, by simp, by simp, by simp, by simp⟩
  | snoc c _ ih => exact ih.call c

/-- What a simulation that runs says about the environment. -/
theorem startSim_ran {e : Env} {m : Meth} {fl k : Bool} (h : startSim e = .simulated m fl k) :
    e.initialized = true ∧ e.solver = some .heunAdaptive ∧ m = .heunAdaptive ∧ fl = e.topology ∧
      k = (!e.save || e.storeReady) ∧ (e.diskSet = true → e.start ≠ none) := by
  unfold startSim at h
  cases h1 : e.initialized
  · simp [h1] at h
  cases h2 : (e.diskSet && e.start.isNone)
  · simp only [h1, h2, Bool.not_true, cond_false] at h
    rcases h3 : e.solver with _ | m'
    · simp [h3] at h
    · cases m'
      · simp [h3] at h
      · simp only [h3, Result.simulated.injEq] at h
        refine ⟨rfl, rfl, h.1.symm, h.2.1.symm, h.2.2.symm, ?_⟩
        intro hd hn
        simp [hd, hn] at h2
  · simp [h1, h2] at h

/-! ## C90 -/

/-- **C90 (what holds for every script).** A simulation runs only after an accepted
`set_timeframe`, an accepted `set_solver`, a call of `set_disksaving` and an accepted `add_part` for
a part that is solved numerically. -/
theorem C90_needs_setup_partial {h : List (Call × Result)} {e : Env} (hs : Script h e)
    {m : Meth} {fl k : Bool} (hr : (call e .start).2 = .simulated m fl k) :
    Accepted h IsTimeframe ∧ Accepted h IsSolver ∧ Accepted h IsNumericPart ∧
      ∃ x ∈ h, IsDisk x.1 := by
  have i := hs.inv
  obtain ⟨h1, _⟩ := startSim_ran hr
  obtain ⟨h2, h3, _⟩ := i.ini h1
  obtain ⟨h4, h5, h6⟩ := i.cl h2
  exact ⟨i.tf h4, i.sv h5, h6, i.se h3⟩

/-- With default arguments `initialize_sim` marks only built environments as initialized. -/
theorem Script.built {h : List (Call × Result)} {e : Env} (hs : Script h e)
    (hd : ∀ x ∈ h, ∀ r, x.1 ≠ .initSim false r) :
    (e.initialized = true → e.topology = true) := by
  induction hs with
  | nil => simp
  | @snoc h e c hs ih =>
    specialize ih fun x hx => hd x (List.mem_append_left _ hx)
    have hc : ∀ r, c ≠ .initSim false r :=
      hd _ (List.mem_append_right _ (List.mem_singleton_self _))
    cases c with
    | setTimeframe a => exact ih
    | setSolver n a =>
      have hf : (call e (.setSolver n a)).1 = (setSolver n a e).1 := ofRes_fst _
      rcases setSolver_cases n a e with ⟨_, hb⟩ | ⟨_, _, hb⟩ | ⟨_, _, _, hb⟩ <;>
        rw [hf, hb] <;> exact ih
    | setDisk s d f =>
      have hf : (call e (.setDisk s d f)).1 = (setDisk s d f e).1 := ofRes_fst _
      rcases setDisk_cases s d f e with ⟨_, _, hb⟩ | ⟨_, hb⟩ <;> rw [hf, hb] <;> exact ih
    | addPart n => exact ih
    | addSeries d => exact ih
    | start => exact ih
    | initSim b r =>
      have hf : (call e (.initSim b r)).1 = (initSim b r e).1 := ofRes_fst _
      rw [hf]
      cases b
      · exact absurd rfl (hc r)
      have keepR : ∀ e' : Env, e'.topology = true → (reset e').1.topology = true := fun e' q => by
        rcases reset_cases e' with ⟨hb, _⟩ | ⟨_, _, hb⟩ <;> rw [hb] <;> exact q
      have keepI : ∀ e' : Env, e'.topology = true → (initArrays e').1.topology = true :=
        fun e' q => by
          rcases initArrays_cases e' with ⟨hb, _⟩ | ⟨_, _, _, _, hb⟩ <;> rw [hb] <;> exact q
      have keepB : ∀ e' : Env, e'.topology = true → (build e').1.topology = true := fun e' q => by
        rcases build_cases e' with ⟨hb, _⟩ | ⟨_, _, _, _, _, _, hb, _, _, h5⟩
        · rw [hb]; exact q
        · rw [hb]; exact h5 q
      by_cases hn : (initSim true r e).2 = none
      · intro _
        have h1 := initSim_build hn
        have h2 : (build e).1.topology = true := by
          rcases build_cases e with ⟨_, hb⟩ | ⟨_, _, _, _, _, _, hb, h3, _⟩
          · exact absurd h1 hb
          · rw [hb]; exact (h3 h1).1
        unfold initSim
        refine andThen_inv (fun e => e.topology = true) h2 fun h1 =>
          andThen_inv (fun e => e.topology = true) ?_ fun h2 => keepI _ h2
        cases r
        · exact h1
        · exact keepR _ h1
      · intro hi
        rw [initSim_raised true r e hn] at hi
        exact initSim_inv (fun e => e.topology = true) keepB keepR keepI true r e (ih hi)

/-- **C90 (default initialization).** If the simulation was only ever initialized with the default
`build_simenv=True`, it runs only when time frame, solver and disk saving were accepted, and it
computes its mass flows with the flow net. -/
theorem C90_default_initialization_partial {h : List (Call × Result)} {e : Env} (hs : Script h e)
    (hd : ∀ x ∈ h, ∀ r, x.1 ≠ .initSim false r)
    {m : Meth} {fl k : Bool} (hr : (call e .start).2 = .simulated m fl k) :
    Accepted h IsTimeframe ∧ Accepted h IsSolver ∧ Accepted h IsDisk ∧ Accepted h IsNumericPart ∧
      fl = true := by
  obtain ⟨h1, h2, h3, _⟩ := C90_needs_setup_partial hs hr
  obtain ⟨h5, _, _, h6, _⟩ := startSim_ran hr
  have ht := hs.built hd h5
  exact ⟨h1, h2, hs.inv.dk (hs.inv.top ht), h3, by rw [h6, ht]⟩

/-- A script from a list of calls. -/
def play (cs : List Call) : List (Call × Result) × Env :=
  cs.foldl (fun s c => (s.1 ++ [(c, (call s.2 c).2)], (call s.2 c).1)) ([], {})

theorem play_script (cs : List Call) : Script (play cs).1 (play cs).2 := by
  have : ∀ (cs : List Call) (s : List (Call × Result) × Env), Script s.1 s.2 →
      Script (cs.foldl (fun s c => (s.1 ++ [(c, (call s.2 c).2)], (call s.2 c).1)) s).1
        (cs.foldl (fun s c => (s.1 ++ [(c, (call s.2 c).2)], (call s.2 c).1)) s).2 := by
    intro cs
    induction cs with
    | nil => intro s hs; exact hs
    | cons c cs ih => intro s hs; exact ih _ (hs.snoc c)
  exact this cs _ .nil

/-- **C90 fails with `build_simenv=False`.** `set_disksaving` was forgotten, so `initialize_sim()`
raises after the parts were built; a second `initialize_sim()` raises because the ports are already
connected.  Disk saving is set and `initialize_sim(build_simenv=False)` is called, which returns:
the simulation runs without a flow net, with the mass flows it started with. -/
theorem C90_fails_no_flow_net (n : Nat) (d : Int) :
    ∃ h e, Script h e ∧
      h = [(.addPart (n + 1), .returned), (.setTimeframe true, .returned),
        (.setSolver "heun" (some false), .returned), (.initSim true false, .raised .assertion),
        (.setDisk false (some d) true, .returned), (.initSim true false, .raised .assertion),
        (.initSim false false, .returned)] ∧
      (call e .start).2 = .simulated .heunAdaptive false true := by
  refine ⟨_, _, play_script [.addPart (n + 1), .setTimeframe true, .setSolver "heun" (some false),
    .initSim true false, .setDisk false (some d) true, .initSim true false, .initSim false false],
    ?_, ?_⟩
  · simp [play, call, ofRes, setTimeframe, setSolver, setDisk, initSim, build, initArrays, check,
      andThen, assignAll, chosen]
  · simp [play, call, ofRes, setTimeframe, setSolver, setDisk, initSim, build, initArrays, check,
      andThen, assignAll, chosen, startSim]

/-- A simulation that runs, with default initialization. -/
example : ∃ h e, Script h e ∧ (∀ x ∈ h, ∀ r, x.1 ≠ .initSim false r) ∧
    (call e .start).2 = .simulated .heunAdaptive true true :=
  ⟨_, _, play_script [.setTimeframe true, .setSolver "heun" (some false), .addPart 10,
    .setDisk true none true, .addSeries 7, .initSim true false], by
      simp [play], by decide +kernel⟩

end Verif.Protocol
