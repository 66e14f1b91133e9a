import Verif.Lemmas.TimeLoop
import Verif.Props.StepControl
import Mathlib.Algebra.BigOperators.Group.List.Basic

/-!
# Properties of the main loop and the result buffers: C07, C08, C09

The model is `Verif/Model/TimeLoop.lean`.
-/

namespace Verif.TimeLoop

section C07
variable {K : Type*} [Field K] [LinearOrder K] [IsStrictOrderedRing K]

/-- **C07, end of the run.** The loop ends at the sum of the step lengths, at or after the time
frame; before every executed step the time frame was not yet reached, so the end exceeds the time
frame by less than the last step. -/
theorem C07_ends_at_timeframe {tf t : K} {hs : List K} (h : Runs tf 0 hs t) :
    t = hs.sum ∧ tf ≤ t ∧
    (∀ pre x post, hs = pre ++ x :: post → pre.sum < tf) ∧
    (∀ pre x, hs = pre ++ [x] → t < tf + x) := by
  have key : ∀ {t0 t : K} {hs : List K}, Runs tf t0 hs t →
      t = t0 + hs.sum ∧ tf ≤ t ∧ (∀ pre x post, hs = pre ++ x :: post → t0 + pre.sum < tf) := by
    intro t0 t hs h
    induction h with
    | stop h => exact ⟨by simp, not_lt.mp h, by simp⟩
    | @step t0 h hs t' hlt _ ih =>
      obtain ⟨h1, h2, h3⟩ := ih
      refine ⟨by rw [h1, List.sum_cons, add_assoc], h2, ?_⟩
      intro pre x post heq
      cases pre with
      | nil => simpa using hlt
      | cons y pre =>
        simp only [List.cons_append, List.cons.injEq] at heq
        obtain ⟨rfl, heq⟩ := heq
        have := h3 pre x post heq
        rw [List.sum_cons, ← add_assoc]; exact this
  obtain ⟨h1, h2, h3⟩ := key h
  simp only [zero_add] at h1 h3
  refine ⟨h1, h2, h3, ?_⟩
  intro pre x heq
  have := h3 pre x [] heq
  rw [h1, heq, List.sum_append, List.sum_singleton]
  linarith

/-- **C07, strict advance.** With positive step lengths the recorded times are strictly increasing
and start above zero; the last one is the end of the run. -/
theorem C07_times_strictly_increasing {t : K} {hs : List K} (hpos : ∀ h ∈ hs, 0 < h) :
    (t :: times t hs).Pairwise (· < ·) ∧ (t :: times t hs).length = hs.length + 1 ∧
    (t :: times t hs).getLast (by simp) = t + hs.sum := by
  induction hs generalizing t with
  | nil => simp [times]
  | cons h hs ih =>
    have h0 := hpos h List.mem_cons_self
    obtain ⟨h1, h2, h3⟩ := ih (t := t + h) (fun x hx => hpos x (List.mem_cons_of_mem _ hx))
    refine ⟨?_, ?_, ?_⟩
    · simp only [times]
      rw [List.pairwise_cons]
      refine ⟨?_, h1⟩
      intro x hx
      rcases List.mem_cons.mp hx with rfl | hx
      · linarith
      · have := (List.pairwise_cons.mp h1).1 x hx
        linarith
    · simp only [times, List.length_cons] at *; omega
    · simp only [times, List.getLast_cons_cons, h3, List.sum_cons, add_assoc]

/-- **C07, termination.** If the step lengths are bounded below by a positive number the loop ends:
some prefix of the sequence of steps is executed and then the loop is left. -/
theorem C07_terminates [Archimedean K] {tf : K} (hs : ℕ → K) {δ : K} (hδ : 0 < δ)
    (hle : ∀ i, δ ≤ hs i) : ∃ n t, Runs tf 0 ((List.range n).map hs) t := by
  have key : ∀ (m : ℕ) (t : K) (k : ℕ), tf ≤ t + m * δ →
      ∃ n t', Runs tf t ((List.range n).map fun i => hs (k + i)) t' := by
    intro m
    induction m with
    | zero => intro t k h; exact ⟨0, t, .stop (by simpa using h)⟩
    | succ m ih =>
      intro t k h
      by_cases hlt : t < tf
      · obtain ⟨n, t', h'⟩ := ih (t + hs k) (k + 1) (by
          have := hle k
          push_cast at h
          linarith)
        refine ⟨n + 1, t', ?_⟩
        rw [List.range_succ_eq_map]
        simp only [List.map_cons, List.map_map, Nat.add_zero]
        refine .step hlt ?_
        convert h' using 2
        ext i; simp only [Function.comp_apply]; congr 1; omega
      · exact ⟨0, t, .stop hlt⟩
  obtain ⟨m, hm⟩ := Archimedean.arch tf hδ
  obtain ⟨n, t, h⟩ := key m 0 0 (by simpa [nsmul_eq_mul] using hm)
  exact ⟨n, t, by simpa using h⟩

/-- Example for C07: three steps of 0.5 s for a time frame of 1.2 s. -/
example : Runs (1.2 : ℚ) 0 [0.5, 0.5, 0.5] 1.5 := by
  refine .step (by norm_num) (.step (by norm_num) (.step (by norm_num) ?_))
  norm_num
  exact .stop (by norm_num)

end C07

/-- **C07, source of the positive steps.** Every step accepted by the adaptive solver is positive,
so `C07_times_strictly_increasing` applies to every simulation. -/
theorem C07_solver_steps_positive {c : StepControl.Cfg} (hc : c.Valid) {mf : ℝ} (hmf : 1 ≤ mf)
    {ss : List StepControl.Step} {e' : StepControl.Env}
    (hs : StepControl.Sim c (StepControl.Env.init mf) ss e')
    (hh : ∀ s ∈ ss, StepControl.Honest c (StepControl.Loop.start s.env) s.attempts) :
    ∀ h ∈ ss.map (·.h), 0 < h := by
  have key : ∀ {e : StepControl.Env} {ss : List StepControl.Step} {e' : StepControl.Env},
      StepControl.Sim c e ss e' → 1 ≤ e.maxFactor → 0 < e.newStep →
      (∀ s ∈ ss, StepControl.Honest c (StepControl.Loop.start s.env) s.attempts) →
      ∀ s ∈ ss, 0 < s.h := by
    intro e ss e' hs
    induction hs with
    | nil => simp
    | @cons e as h code f e' ss e'' hcall hs ih =>
      intro hmf h0 hh s hs
      have hp := StepControl.exec_pos hcall rfl (hh _ List.mem_cons_self) hc hmf h0
        (by simp [StepControl.Loop.start])
      rcases List.mem_cons.mp hs with rfl | hs
      · exact hp.1
      · exact ih (StepControl.exec_env hcall rfl hmf).1 hp.2
          (fun s hs => hh s (List.mem_cons_of_mem _ hs)) s hs
  intro h hh'
  obtain ⟨s, hs', rfl⟩ := List.mem_map.mp hh'
  exact key hs hmf (by norm_num [StepControl.Env.init]) hh s hs'

section C08
variable {R : Type*}

/-- **C08 and C09 in one statement.** A run with buffers of `n ≥ 1` steps and at least one executed
step ends with an index error exactly if results are saved to disk and the number of executed steps
is a multiple of the buffer size; in all other cases the stored rows are the initial row followed
by all executed rows in order. -/
theorem C08_C09_run_result (p : Par R) {n : ℕ} (hn : 0 < n) (hbase : 0 < p.base) (row0 : R)
    {rs : List R} (hrs : rs ≠ []) :
    run p n row0 rs =
      if p.disk = true ∧ n ∣ rs.length then .error .indexError else .ok (row0 :: rs) := by
  obtain ⟨b, h1, h2, h2'⟩ := loop_holds hn hbase rs (holds_init p n row0) hn
  have hfin := finalize_holds h2
  have hlen := holds_length h2
  have hres : run p n row0 rs = finalize p b := by simp [run, h1, bind, Except.bind]
  rw [hres, hfin]
  cases hd : p.disk with
  | false => simp
  | true =>
    obtain ⟨hs, k, hk⟩ := h2.disk_size hd
    have hpos := h2.step_pos
    have hle := h2.step_le
    have hl : rs.length + 1 = k * n + b.stepnum := by
      rw [← hk, ← hlen]; simp [Nat.add_comm]
    have hiff : b.stepnum = n + 1 ↔ n ∣ rs.length := by
      constructor
      · intro h; exact ⟨k + 1, by rw [Nat.mul_add, Nat.mul_comm n k]; omega⟩
      · rintro ⟨q, hq⟩
        have hle' : b.stepnum ≤ n + 1 := by omega
        -- rs.length = k*n + (stepnum - 1) with stepnum - 1 ≤ n
        have h3 : rs.length = k * n + (b.stepnum - 1) := by omega
        have h4 : n ∣ b.stepnum - 1 := by
          have : n ∣ k * n + (b.stepnum - 1) := h3 ▸ ⟨q, hq⟩
          exact (Nat.dvd_add_right (Dvd.intro_left k rfl)).mp this
        rcases Nat.eq_zero_or_pos (b.stepnum - 1) with h0 | h0
        · have := h2' hrs; omega
        · exact le_antisymm hle' (by have := Nat.le_of_dvd h0 h4; omega)
    by_cases h : n ∣ rs.length
    · simp [h, hiff.mpr h]
    · simp [h, mt hiff.mp h]

/-- **C08.** If the run ends without error, nothing is lost, repeated or reordered: the stored rows
are the initial row and one row per executed step.  Partial: see `C09_fails_full_buffer` for runs
that end with an error instead. -/
theorem C08_complete_history_partial (p : Par R) {n : ℕ} (hn : 0 < n) (hbase : 0 < p.base) (row0 : R)
    {rs : List R} (hrs : rs ≠ []) {out : List R} (h : run p n row0 rs = .ok out) :
    out = row0 :: rs := by
  rw [C08_C09_run_result p hn hbase row0 hrs] at h
  split_ifs at h
  exact (Except.ok.inj h).symm

/-- Example for C08: buffer of 2 steps, 5 executed steps, two flushes to disk. -/
example : run ⟨(0 : ℕ), true, 3⟩ 2 10 [11, 12, 13, 14, 15] = .ok [10, 11, 12, 13, 14, 15] := by
  decide

/-- **C09.** Without disk saving every run can be finalised; with disk saving every run whose number
of steps is not a multiple of the buffer size.  Partial: see `C09_fails_full_buffer`. -/
theorem C09_finalise_partial (p : Par R) {n : ℕ} (hn : 0 < n) (hbase : 0 < p.base) (row0 : R)
    {rs : List R} (hrs : rs ≠ []) (h : p.disk = false ∨ ¬ n ∣ rs.length) :
    ∃ out, run p n row0 rs = .ok out := by
  refine ⟨row0 :: rs, ?_⟩
  rw [C08_C09_run_result p hn hbase row0 hrs, if_neg]
  rintro ⟨h1, h2⟩
  rcases h with h | h
  · rw [h] at h1; cases h1
  · exact h h2

/-- Example for C09. -/
example : ∃ out, run ⟨(0 : ℕ), false, 3⟩ 2 10 [11, 12, 13, 14] = .ok out :=
  C09_finalise_partial _ (by decide) (by decide) _ (by simp) (Or.inl rfl)

/-- **C09 is false of the code**: with disk saving, every run that ends exactly when the buffer is
full fails with an index error when the results are finalised, for every buffer size
(`simenv.py:5086-5091` skips the flush, then `4882` reads row `num_steps + 1`). -/
theorem C09_fails_full_buffer (p : Par R) (hd : p.disk = true) (hbase : 0 < p.base) {n : ℕ}
    (hn : 0 < n) (k : ℕ) (row0 : R) {rs : List R} (hrs : rs.length = (k + 1) * n) :
    run p n row0 rs = .error .indexError := by
  rw [C08_C09_run_result p hn hbase row0, if_pos ⟨hd, Dvd.intro_left _ hrs.symm⟩]
  intro h
  rw [h] at hrs
  simp at hrs
  omega

/-- Example for the failure: a buffer of 2 steps and 4 executed steps. -/
example : run ⟨(0 : ℕ), true, 3⟩ 2 10 [11, 12, 13, 14] = .error .indexError := by
  decide

end C08

end Verif.TimeLoop
