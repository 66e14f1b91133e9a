import Verif.Model.Report
import Verif.Lemmas.TimeLoop
import Verif.Props.TimeLoop
import Mathlib.Tactic.NormNum
import Mathlib.Tactic.FieldSimp
import Mathlib.Algebra.Order.BigOperators.Group.List

/-!
# C159: what the report of a simulation says

The full claim reads: the report says whether the simulation succeeded, in how many steps it was
solved, how these steps came about, and how long they were.  The counters of the four kinds of steps,
the repetitions and the simulated time are right for every run that the adaptive solver completes.
The success flag is not: it is set in every report the code can write.  The number of steps is one
too high, and the mean step counts the last step twice.
-/

namespace Verif.Report

open Verif.TimeLoop (Par Buf Holds Err)

section Buffers
variable {K : Type*} [Field K] [LinearOrder K]

omit [Field K] [LinearOrder K] in
theorem goOn_holds {p : Par (Row K)} {n : ℕ} (hn : 0 < n) (hb : 0 < p.base) (rs : List (Row K)) :
    ∀ {b : Buf (Row K)} {hist : List (Row K)}, Holds p n b hist → b.stepnum ≤ b.numSteps →
      ∃ b', goOn p b rs = .ok b' ∧ Holds p n b' (hist ++ rs) ∧ b'.stepnum ≤ b'.numSteps := by
  induction rs with
  | nil => intro b hist h hle; exact ⟨b, rfl, by simpa using h, hle⟩
  | cons r rs ih =>
    intro b hist h hle
    obtain ⟨b', h1, h2, h3⟩ := TimeLoop.write_more hn hb h hle r
    obtain ⟨b'', h4, h5, h6⟩ := ih h2 h3
    exact ⟨b'', by simp [goOn, h1, bind, Except.bind, h4], by simpa using h5, h6⟩

theorem solved_eq (p : Par (Row K)) {n : ℕ} (hn : 0 < n) (hbase : 0 < p.base) (r0 : Row K)
    {rs : List (Row K)} (hrs : rs ≠ []) :
    solved p n r0 rs = if p.disk = true ∧ n ∣ rs.length then .error .indexError
      else .ok (report (r0 :: rs) (rs.length + 1)) := by
  obtain ⟨b, h1, h2, _⟩ := TimeLoop.loop_holds hn hbase rs (TimeLoop.holds_init p n r0) hn
  have hlen := TimeLoop.holds_length h2
  have hrun := TimeLoop.C08_C09_run_result p hn hbase r0 hrs
  have hfin : TimeLoop.finalize p b = TimeLoop.run p n r0 rs := by
    simp [TimeLoop.run, h1, bind, Except.bind]
  have hst : b.totalStep + b.stepnum = rs.length + 1 := by
    rw [h2.total, ← hlen]; simp [Nat.add_comm]
  simp only [solved, h1, bind, Except.bind, finish, hfin, hrun, hst]
  split_ifs <;> rfl

theorem stopped_eq (p : Par (Row K)) {n : ℕ} (hn : 0 < n) (hbase : 0 < p.base) (r0 : Row K)
    (rs : List (Row K)) :
    stopped p n r0 rs =
      if p.disk = true ∧ n ≤ rs.length then
        if rs.length < 2 * n then .ok (report (r0 :: rs) (rs.length + 1)) else .error .indexError
      else .ok (report ({ r0 with state := 98 } :: rs) (rs.length + 1)) := by
  obtain ⟨b, h1, h2, h3⟩ := goOn_holds hn hbase rs (TimeLoop.holds_init p n r0) hn
  have hlen := TimeLoop.holds_length h2
  have hst : b.totalStep + b.stepnum = rs.length + 1 := by
    rw [h2.total, ← hlen]; simp [Nat.add_comm]
  have hpos := h2.step_pos
  simp only [stopped, h1, bind, Except.bind, mark]
  by_cases hfirst : p.disk = true ∧ n ≤ rs.length
  · obtain ⟨hs, k, hk⟩ := h2.disk_size hfirst.1
    have hk' : b.totalStep = k * n := by rw [h2.total, hk]
    rw [if_pos hfirst]
    have hk1 : 1 ≤ k := by
      rcases Nat.eq_zero_or_pos k with h0 | h0
      · rw [h0] at hk'; omega
      · exact h0
    by_cases hlt : rs.length < 2 * n
    · have hk2 : k = 1 := by
        by_contra hne
        have : 2 * n ≤ k * n := Nat.mul_le_mul_right n (by omega)
        omega
      rw [hk2, one_mul] at hk'
      rw [if_pos hlt, if_pos (by rw [h2.len]; omega)]
      have hH : Holds p n { b with rows := b.rows.modify b.totalStep fun r => { r with state := 98 } }
          ([r0] ++ rs) := by
        refine ⟨?_, ?_, h2.step_pos, h2.step_le, h2.total, h2.nodisk, h2.disk_size⟩
        · rw [h2.split]
          congr 1
          apply List.ext_getElem?
          intro i
          simp only [List.getElem?_take, List.getElem?_modify]
          split_ifs with h4 h5
          · omega
          · simp
          · rfl
        · simpa using h2.len
      have hf := TimeLoop.finalize_holds hH
      simp only [finish, bind, Except.bind, hf]
      rw [if_neg (by omega)]
      simp only [hst]
      rfl
    · have hk2 : 2 ≤ k := by
        by_contra hne
        have : k * n ≤ 1 * n := Nat.mul_le_mul_right n (by omega)
        omega
      have : 2 * n ≤ k * n := Nat.mul_le_mul_right n hk2
      rw [if_neg hlt, if_neg (by rw [h2.len]; omega)]
  · have h0 : b.stored = [] := by
      cases hd : p.disk with
      | false => exact h2.nodisk hd
      | true =>
        obtain ⟨hs, k, hk⟩ := h2.disk_size hd
        have hlt : rs.length < n := by
          by_contra h
          exact hfirst ⟨hd, by omega⟩
        rcases Nat.eq_zero_or_pos k with h0 | h0
        · rw [h0, zero_mul] at hk
          exact List.length_eq_zero_iff.mp hk
        · have : 1 * n ≤ k * n := Nat.mul_le_mul_right n h0
          have := h2.total
          omega
    have ht : b.totalStep = 0 := by rw [h2.total, h0]; rfl
    rw [if_neg hfirst, if_pos (by rw [h2.len]; omega)]
    have hH : Holds p n { b with rows := b.rows.modify b.totalStep fun r => { r with state := 98 } }
        ({ r0 with state := 98 } :: rs) := by
      refine ⟨?_, ?_, h2.step_pos, h2.step_le, h2.total, h2.nodisk, h2.disk_size⟩
      · have hsp := h2.split
        rw [h0] at hsp
        simp only [List.nil_append] at hsp
        simp only [ht, h0, List.nil_append]
        cases hr : b.rows with
        | nil => rw [hr] at hsp; simp at hsp
        | cons x xs =>
          rw [hr] at hsp
          obtain ⟨m, hm⟩ : ∃ m, b.stepnum = m + 1 := ⟨b.stepnum - 1, by omega⟩
          rw [hm] at hsp ⊢
          simp only [List.take_succ_cons, List.singleton_append, List.cons.injEq] at hsp
          simp [hsp.1, hsp.2]
      · simpa using h2.len
    have hf := TimeLoop.finalize_holds hH
    simp only [finish, bind, Except.bind, hf]
    have hne : ¬ (p.disk = true ∧ b.stepnum = n + 1) := by
      rintro ⟨hd, h⟩
      obtain ⟨hs, _⟩ := h2.disk_size hd
      omega
    rw [if_neg hne]
    simp only [hst]

end Buffers

/-! ## The steps of the adaptive solver -/

open Verif.StepControl (Cfg Env Step Sim Attempt Exec Call Pass pass Loop)

theorem pass_code {c : Cfg} {l l' : Loop} {a : Attempt} {code : ℕ} (h : pass c l a = .accept l' code) :
    code = 4 ∨ code = 5 ∨ code = 6 ∨ code = 7 := by
  unfold StepControl.pass at h
  repeat' (first | split at h | (dsimp only at h; split at h))
  all_goals simp_all

theorem report_failed (l : Loop) (xs : List ℝ) : (xs.foldl StepControl.report l).failed = l.failed := by
  induction xs generalizing l with
  | nil => rfl
  | cons x xs ih => rw [List.foldl_cons, ih]; rfl

theorem pass_accept_failed {c : Cfg} {l l' : Loop} {a : Attempt} {code : ℕ}
    (h : pass c l a = .accept l' code) : l'.failed = l.failed := by
  unfold StepControl.pass at h
  repeat' (first | split at h | (dsimp only at h; split at h))
  all_goals first | (simp at h; done) | skip
  all_goals
    simp only [Pass.accept.injEq] at h
    obtain ⟨rfl, _⟩ := h
    simp [report_failed]

theorem pass_retry_failed {c : Cfg} {l l' : Loop} {a : Attempt}
    (h : pass c l a = .retry l') : l'.failed = l.failed + 1 := by
  unfold StepControl.pass at h
  repeat' (first | split at h | (dsimp only at h; split at h))
  all_goals first | (simp at h; done) | skip
  all_goals
    simp only [Pass.retry.injEq] at h
    obtain rfl := h
    simp [report_failed, StepControl.report]

theorem exec_facts {c : Cfg} {l : Loop} {as : List Attempt} {r : StepControl.Result}
    (hx : Exec c l as r) : ∀ {h : ℝ} {code f : ℕ} {e : Env}, r = .accepted h code f e →
      (code = 4 ∨ code = 5 ∨ code = 6 ∨ code = 7) ∧ f + 1 = l.failed + as.length := by
  induction hx with
  | accept hp =>
    intro h code f e hr
    simp only [StepControl.Result.accepted.injEq] at hr
    obtain ⟨_, rfl, rfl, _⟩ := hr
    exact ⟨pass_code hp, by rw [pass_accept_failed hp]; rfl⟩
  | raise _ => intro h code f e hr; cases hr
  | retry hp _ ih =>
    intro h code f e hr
    obtain ⟨h1, h2⟩ := ih hr
    refine ⟨h1, ?_⟩
    rw [pass_retry_failed hp] at h2
    simp only [List.length_cons]; omega

theorem sim_facts {c : Cfg} {e e' : Env} {ss : List Step} (hs : Sim c e ss e') :
    ∀ s ∈ ss, (s.code = 4 ∨ s.code = 5 ∨ s.code = 6 ∨ s.code = 7) ∧ s.failed + 1 = s.attempts.length := by
  induction hs with
  | nil => simp
  | cons hc _ ih =>
    intro s hs
    rcases List.mem_cons.mp hs with rfl | hs
    · have := exec_facts hc rfl
      simpa [StepControl.Loop.start] using this
    · exact ih s hs

theorem rows_state (t : ℝ) (ss : List Step) : (adaptiveRows t ss).map (·.state) = ss.map (·.code) := by
  induction ss generalizing t with
  | nil => rfl
  | cons s ss ih => simp [adaptiveRows, ih]

theorem rows_failed (t : ℝ) (ss : List Step) : (adaptiveRows t ss).map (·.failed) = ss.map (·.failed) := by
  induction ss generalizing t with
  | nil => rfl
  | cons s ss ih => simp [adaptiveRows, ih]

theorem rows_length (t : ℝ) (ss : List Step) : (adaptiveRows t ss).length = ss.length := by
  induction ss generalizing t with
  | nil => rfl
  | cons s ss ih => simp [adaptiveRows, ih]

theorem rows_diff (t : ℝ) (ss : List Step) :
    diff (t :: (adaptiveRows t ss).map (·.time)) = ss.map (·.h) := by
  induction ss generalizing t with
  | nil => rfl
  | cons s ss ih => simp [adaptiveRows, diff, ih]

theorem rows_max (t : ℝ) (ss : List Step) (hp : ∀ s ∈ ss, 0 < s.h) :
    ((adaptiveRows t ss).map (·.time)).foldl max t = t + (ss.map (·.h)).sum := by
  induction ss generalizing t with
  | nil => simp [adaptiveRows]
  | cons s ss ih =>
    have h0 := hp s List.mem_cons_self
    simp only [adaptiveRows, List.map_cons, List.foldl_cons, List.sum_cons]
    rw [max_eq_right (by linarith), ih _ fun s hs => hp s (List.mem_cons_of_mem _ hs)]
    ring

theorem count_codes (l : List ℕ) (h : ∀ x ∈ l, x = 4 ∨ x = 5 ∨ x = 6 ∨ x = 7) :
    l.count 4 + l.count 5 + l.count 6 + l.count 7 = l.length := by
  induction l with
  | nil => rfl
  | cons x l ih =>
    have := ih fun y hy => h y (List.mem_cons_of_mem _ hy)
    rcases h x List.mem_cons_self with rfl | rfl | rfl | rfl <;>
      simp [List.count_cons] <;> omega

theorem sum_failed (ss : List Step) (h : ∀ s ∈ ss, s.failed + 1 = s.attempts.length) :
    (ss.map (·.failed)).sum + ss.length = (ss.map fun s => s.attempts.length).sum := by
  induction ss with
  | nil => rfl
  | cons s ss ih =>
    have h1 := h s List.mem_cons_self
    have h2 := ih fun s hs => h s (List.mem_cons_of_mem _ hs)
    simp only [List.map_cons, List.sum_cons, List.length_cons]
    omega

/-- **C159, counters.** The report of a run that the adaptive solver completes: every step is counted
once, under the kind of step it was; the number of repeated steps is the number of attempts that were
not accepted; the total time is the sum of the accepted steps; no failure is reported.  Partial: see
the theorems below. -/
theorem C159_counters_partial {c : Cfg} (hc : c.Valid) {mf : ℝ} (hmf : 1 ≤ mf) {ss : List Step}
    {e' : Env} (hs : Sim c (Env.init mf) ss e')
    (hh : ∀ s ∈ ss, StepControl.Honest c (StepControl.Loop.start s.env) s.attempts) (hne : ss ≠ [])
    (p : Par (Row ℝ)) {n : ℕ} (hn : 0 < n) (hbase : 0 < p.base) {rep : Info ℝ}
    (hr : solved p n row0 (adaptiveRows 0 ss) = .ok rep) :
    rep.normal = ss.countP (fun s => s.code == 4) ∧ rep.atMax = ss.countP (fun s => s.code == 5) ∧
      rep.atMin = ss.countP (fun s => s.code == 6) ∧ rep.roundoff = ss.countP (fun s => s.code == 7) ∧
      rep.normal + rep.atMax + rep.atMin + rep.roundoff = ss.length ∧
      rep.repeated + ss.length = (ss.map fun s => s.attempts.length).sum ∧
      rep.total = (ss.map (·.h)).sum ∧ rep.failed = false ∧ rep.success = true := by
  have hpos := TimeLoop.C07_solver_steps_positive hc hmf hs hh
  have hfacts := sim_facts hs
  have hnr : adaptiveRows 0 ss ≠ [] := by
    intro h
    have := rows_length 0 ss
    rw [h] at this
    exact hne (List.length_eq_zero_iff.mp this.symm)
  rw [solved_eq p hn hbase row0 hnr] at hr
  split_ifs at hr
  obtain rfl := (Except.ok.inj hr)
  have hst : ∀ k, k ≠ 0 → states (row0 :: adaptiveRows 0 ss) k = (ss.map (·.code)).count k := by
    intro k hk
    simp only [states, List.map_cons, rows_state, row0]
    rw [List.count_cons_of_ne (by omega)]
  have hcnt : ∀ k, (ss.map (·.code)).count k = ss.countP (fun s => s.code == k) := by
    intro k
    rw [List.count, List.countP_map]; rfl
  have hz : ∀ k, 90 < k → (ss.map (·.code)).count k = 0 := by
    intro k hk
    rw [List.count_eq_zero]
    intro hm
    obtain ⟨s, hs', rfl⟩ := List.mem_map.mp hm
    rcases (hfacts s hs').1 with h | h | h | h <;> omega
  have hsum := count_codes (ss.map (·.code)) (by
    intro x hx
    obtain ⟨s, hs', rfl⟩ := List.mem_map.mp hx
    exact (hfacts s hs').1)
  refine ⟨?_, ?_, ?_, ?_, ?_, ?_, ?_, ?_, ?_⟩
  · simp only [report]; rw [hst 4 (by omega), hcnt]
  · simp only [report]; rw [hst 5 (by omega), hcnt]
  · simp only [report]; rw [hst 6 (by omega), hcnt]
  · simp only [report]; rw [hst 7 (by omega), hcnt]
  · simp only [report]
    rw [hst 4 (by omega), hst 5 (by omega), hst 6 (by omega), hst 7 (by omega), hsum, List.length_map]
  · simp only [report, List.map_cons, rows_failed, row0, List.sum_cons, zero_add]
    exact sum_failed ss fun s hs => (hfacts s hs).2
  · simp only [report, List.map_cons, maxTime, row0]
    rw [rows_max 0 ss fun s hs => hpos _ (List.mem_map.mpr ⟨s, hs, rfl⟩)]
    simp
  · simp only [report]
    rw [hst 98 (by omega), hst 99 (by omega), hz 98 (by omega), hz 99 (by omega)]; rfl
  · simp only [report]
    rw [hst 99 (by omega), hz 99 (by omega)]; rfl

/-- **C159 is false of the code for the number of steps and the mean step**: in every completed run the
report gives one step more than were made, and a mean step that counts the last step twice. -/
theorem C159_fails_steps_mean {c : Cfg} {e e' : Env} {ss : List Step} {s : Step}
    (_hs : Sim c e (ss ++ [s]) e') (p : Par (Row ℝ)) {n : ℕ} (hn : 0 < n) (hbase : 0 < p.base)
    {rep : Info ℝ} (hr : solved p n row0 (adaptiveRows 0 (ss ++ [s])) = .ok rep) :
    rep.steps = (ss ++ [s]).length + 1 ∧
      rep.mean = (((ss ++ [s]).map (·.h)).sum + s.h) / ((ss ++ [s]).length + 1 : ℕ) := by
  have hnr : adaptiveRows 0 (ss ++ [s]) ≠ [] := by
    intro h
    have := rows_length 0 (ss ++ [s])
    rw [h] at this
    simp at this
  rw [solved_eq p hn hbase row0 hnr] at hr
  split_ifs at hr
  obtain rfl := (Except.ok.inj hr)
  have hv : stepVec ((row0 :: adaptiveRows 0 (ss ++ [s])).map (·.time)) =
      (ss ++ [s]).map (·.h) ++ [s.h] := by
    have := rows_diff 0 (ss ++ [s])
    simp only [List.map_cons, row0, stepVec]
    rw [this]
    simp
  refine ⟨by simp [report, rows_length], ?_⟩
  simp only [report]
  rw [hv]
  simp only [List.sum_append, List.length_append, List.length_map, List.sum_cons, List.sum_nil, add_zero,
    List.length_cons, List.length_nil, List.map_append, List.map_cons, List.map_nil]

/-- **C159 is false of the code for the mean step**: it is the simulated time divided by the number of
steps only if the last step happens to have that length. -/
theorem C159_fails_mean_iff {c : Cfg} {e e' : Env} {ss : List Step} {s : Step}
    (hs : Sim c e (ss ++ [s]) e') (p : Par (Row ℝ)) {n : ℕ} (hn : 0 < n) (hbase : 0 < p.base)
    {rep : Info ℝ} (hr : solved p n row0 (adaptiveRows 0 (ss ++ [s])) = .ok rep) :
    rep.mean = ((ss ++ [s]).map (·.h)).sum / (ss ++ [s]).length ↔
      s.h = ((ss ++ [s]).map (·.h)).sum / (ss ++ [s]).length := by
  rw [(C159_fails_steps_mean hs p hn hbase hr).2]
  have hl : (0 : ℝ) < ((ss ++ [s]).length : ℕ) := by
    have : 0 < (ss ++ [s]).length := by simp
    exact_mod_cast this
  generalize ((ss ++ [s]).map (·.h)).sum = S
  generalize (ss ++ [s]).length = m at *
  push_cast
  rw [div_eq_div_iff (by positivity) hl.ne', eq_div_iff hl.ne']
  constructor <;> intro h <;> linarith

/-- **C159 is false of the code for failed runs**: the report of a run stopped for invalid values, written
while the first block of results is in memory, names the failure and in the same breath calls the
simulation a success. -/
theorem C159_fails_success {c : Cfg} {e e' : Env} {ss : List Step} (hs : Sim c e ss e')
    (p : Par (Row ℝ)) {n : ℕ} (hn : 0 < n) (hbase : 0 < p.base) (h1 : p.disk = false ∨ ss.length < n) :
    ∃ rep, stopped p n row0 (adaptiveRows 0 ss) = .ok rep ∧ rep.failed = true ∧ rep.invalid = true ∧
      rep.success = true := by
  rw [stopped_eq p hn hbase, if_neg]
  · refine ⟨_, rfl, ?_⟩
    have h98 : states ({ (row0 : Row ℝ) with state := 98 } :: adaptiveRows 0 ss) 98 ≠ 0 := by
      simp [states]
    have h99 : states ({ (row0 : Row ℝ) with state := 98 } :: adaptiveRows 0 ss) 99 = 0 := by
      simp only [states, List.map_cons, rows_state]
      rw [List.count_eq_zero]
      intro hm
      rcases List.mem_cons.mp hm with h | h
      · omega
      · obtain ⟨s, hs', h⟩ := List.mem_map.mp h
        rcases (sim_facts hs s hs').1 with h' | h' | h' | h' <;> omega
    simp [report, h98, h99]
  · rintro ⟨h2, h3⟩
    rw [rows_length] at h3
    rcases h1 with h1 | h1
    · rw [h1] at h2; cases h2
    · omega

/-- **C159 is false of the code for failed runs, with results saved to disk**: once the first block has been
stored, the mark of a run stopped for invalid values lands behind the rows in use and is cut off; the
report equals that of a run that was solved. -/
theorem C159_fails_lost {c : Cfg} {e e' : Env} {ss : List Step} (hs : Sim c e ss e')
    (p : Par (Row ℝ)) (hd : p.disk = true) {n : ℕ} (hn : 0 < n) (hbase : 0 < p.base)
    (h1 : n ≤ ss.length) (h2 : ss.length < 2 * n) :
    ∃ rep, stopped p n row0 (adaptiveRows 0 ss) = .ok rep ∧ rep.failed = false ∧ rep.success = true ∧
      rep.steps = ss.length + 1 := by
  rw [stopped_eq p hn hbase, if_pos ⟨hd, by rw [rows_length]; exact h1⟩,
    if_pos (by rw [rows_length]; exact h2)]
  refine ⟨_, rfl, ?_⟩
  have hz : ∀ k, 90 < k → states (row0 :: adaptiveRows 0 ss) k = 0 := by
    intro k hk
    simp only [states, List.map_cons, rows_state, row0]
    rw [List.count_eq_zero]
    intro hm
    rcases List.mem_cons.mp hm with h | h
    · omega
    · obtain ⟨s, hs', h⟩ := List.mem_map.mp h
      rcases (sim_facts hs s hs').1 with h' | h' | h' | h' <;> omega
  simp [report, hz 98 (by omega), hz 99 (by omega), rows_length]

/-- **C159 is false of the code for failed runs, later blocks**: from the third block on, setting the mark
itself fails and no report is written. -/
theorem C159_fails_no_report (p : Par (Row ℝ)) (hd : p.disk = true) {n : ℕ} (hn : 0 < n)
    (hbase : 0 < p.base) (rs : List (Row ℝ)) (h : 2 * n ≤ rs.length) :
    stopped p n row0 rs = .error .indexError := by
  rw [stopped_eq p hn hbase, if_pos ⟨hd, by omega⟩, if_neg (by omega)]

/-! ## Examples -/

/-- Two steps: the first attempt is repeated with a fifth of the step, then the step doubles. -/
theorem two_steps : Sim StepControl.dflt (Env.init 2)
    [⟨Env.init 2, [StepControl.okAttempt none, StepControl.okAttempt (some 0)], 0.2, 7, 1⟩,
      ⟨⟨0.4, 2, 1⟩, [StepControl.okAttempt (some 0)], 0.4, 7, 0⟩] ⟨0.8, 2, 2⟩ := by
  have h1 : pass StepControl.dflt (Loop.start (Env.init 2)) (StepControl.okAttempt none) =
      .retry ⟨0.2, none, 2, 1, 0, 1⟩ := by
    norm_num [pass, StepControl.okAttempt, Loop.start, Env.init, StepControl.dflt, StepControl.shrink]
  have h2 : pass StepControl.dflt ⟨0.2, none, 2, 1, 0, 1⟩ (StepControl.okAttempt (some 0)) =
      .accept ⟨0.4, none, 2, 1, 0, 1⟩ 7 := by
    norm_num [pass, StepControl.okAttempt, StepControl.dflt]
  have h3 : pass StepControl.dflt (Loop.start ⟨0.4, 2, 1⟩) (StepControl.okAttempt (some 0)) =
      .accept ⟨0.8, none, 2, 2, 0, 0⟩ 7 := by
    norm_num [pass, StepControl.okAttempt, Loop.start, StepControl.dflt]
  exact .cons (.retry h1 (.accept h2)) (.cons (.accept h3) .nil)

/-- Example for the counters: two steps of 0.2 s and 0.4 s with one repetition, no saving to disk. -/
example : ∃ rep, solved ⟨row0, false, 10⟩ 10 row0 (adaptiveRows 0
      [⟨Env.init 2, [StepControl.okAttempt none, StepControl.okAttempt (some 0)], 0.2, 7, 1⟩,
        ⟨⟨0.4, 2, 1⟩, [StepControl.okAttempt (some 0)], 0.4, 7, 0⟩]) = .ok rep ∧
    rep.roundoff = 2 ∧ rep.repeated = 1 ∧ rep.total = 0.6 ∧ rep.steps = 3 ∧ rep.mean = 1 / 3 := by
  have hr := solved_eq (⟨row0, false, 10⟩ : Par (Row ℝ)) (n := 10) (by norm_num) (by norm_num) row0
    (rs := adaptiveRows 0
      [⟨Env.init 2, [StepControl.okAttempt none, StepControl.okAttempt (some 0)], 0.2, 7, 1⟩,
        ⟨⟨0.4, 2, 1⟩, [StepControl.okAttempt (some 0)], 0.4, 7, 0⟩]) (by simp [adaptiveRows])
  rw [if_neg (by simp)] at hr
  have hc := C159_counters_partial StepControl.dflt_valid (by norm_num) two_steps (by
    intro s hs
    rcases List.mem_pair.mp hs with rfl | rfl
    · simp [StepControl.Honest, StepControl.okAttempt]
    · simp [StepControl.Honest, StepControl.okAttempt]) (by simp) _ (by norm_num) (by norm_num) hr
  have hm := C159_fails_steps_mean (ss := [_]) two_steps _ (by norm_num) (by norm_num) hr
  refine ⟨_, hr, ?_, ?_, ?_, ?_, ?_⟩
  · rw [hc.2.2.2.1]; rfl
  · have := hc.2.2.2.2.2.1
    simpa using this
  · rw [hc.2.2.2.2.2.2.1]; norm_num
  · rw [hm.1]; rfl
  · rw [hm.2]; norm_num

/-- Example for the contradiction in the report of a failed run, and for the mark that is lost. -/
example : (∃ rep, stopped (⟨row0, false, 10⟩ : Par (Row ℝ)) 10 row0 (adaptiveRows 0
      [⟨Env.init 2, [StepControl.okAttempt none, StepControl.okAttempt (some 0)], 0.2, 7, 1⟩,
        ⟨⟨0.4, 2, 1⟩, [StepControl.okAttempt (some 0)], 0.4, 7, 0⟩]) = .ok rep ∧ rep.failed = true ∧
      rep.invalid = true ∧ rep.success = true) ∧
    ∃ rep, stopped (⟨row0, true, 2⟩ : Par (Row ℝ)) 2 row0 (adaptiveRows 0
      [⟨Env.init 2, [StepControl.okAttempt none, StepControl.okAttempt (some 0)], 0.2, 7, 1⟩,
        ⟨⟨0.4, 2, 1⟩, [StepControl.okAttempt (some 0)], 0.4, 7, 0⟩]) = .ok rep ∧ rep.failed = false ∧
      rep.success = true ∧ rep.steps = 3 :=
  ⟨C159_fails_success two_steps _ (by norm_num) (by norm_num) (.inl rfl),
    C159_fails_lost two_steps _ rfl (by norm_num) (by norm_num) (by simp) (by simp)⟩

end Verif.Report
