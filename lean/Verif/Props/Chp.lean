import Verif.Lemmas.Chp
import Mathlib.Tactic.NormNum

/-! # Properties of the CHP plant: C43, C44, C45, C62, C63 -/

namespace Verif.Chp
variable {K : Type} [Field K] [LinearOrder K] [IsStrictOrderedRing K]

/-- **C44** (power range).  In every step of every history the operating state is 0 or at least the
lower modulation limit. -/
theorem C44_state_zero_or_above_lower (p : Par K) (hp : p.Valid) (b : Bool) (inp : ℕ → Input K)
    (hpos : ∀ n, 0 < (inp n).hFirst) (n : ℕ) :
    state p b inp n = 0 ∨ p.modLower ≤ state p b inp n := by
  induction n with
  | zero => left; cases b <;> rfl
  | succ n ih => exact step_inRange p hp _ _ _ (hpos n) ih

omit [IsStrictOrderedRing K] in
theorem inletHot_iff (p : Par K) (i : Input K) :
    inletHot p i = true ↔ ∃ T, i.T.head? = some T ∧ p.tInMax < T := by
  unfold inletHot
  cases hT : i.T.head? <;> simp

/-- The timer measures at most the time the inlet has been too hot without a break. -/
theorem timer_bound (p : Par K) (b : Bool) (inp : ℕ → Input K)
    (hfirst : ∀ n, (inp n).hFirst = (inp n).h) (n : ℕ) (hrun : state p b inp n ≠ 0) :
    ∃ i ≤ n, (∀ k, i ≤ k → k < n → ∃ T, (inp k).T.head? = some T ∧ p.tInMax < T) ∧
      (plant p b inp n).dtExc ≤ time inp n - time inp i := by
  induction n with
  | zero => exact absurd (by cases b <;> rfl) hrun
  | succ n ih =>
    have hzero : (plant p b inp (n + 1)).dtExc = 0 → ∃ i ≤ n + 1, (∀ k, i ≤ k → k < n + 1 →
        ∃ T, (inp k).T.head? = some T ∧ p.tInMax < T) ∧
        (plant p b inp (n + 1)).dtExc ≤ time inp (n + 1) - time inp i := fun h =>
      ⟨n + 1, le_rfl, fun k h1 h2 => absurd h2 (not_lt.2 h1), by rw [h]; simp⟩
    by_cases h0 : state p b inp n = 0
    · exact hzero (step_dtExc_off p _ _ _ h0)
    · obtain ⟨i, hi, hhot, hdt⟩ := ih h0
      rcases step_dtExc p (time inp n) (plant p b inp n) (inp n) with h | ⟨h1, h2⟩ | ⟨_, _, h⟩
      · exact hzero h
      · refine ⟨i, Nat.le_succ_of_le hi, fun k hk1 hk2 => ?_, ?_⟩
        · rcases (Nat.lt_succ_iff.1 hk2).lt_or_eq with h | rfl
          · exact hhot k hk1 h
          · exact (inletHot_iff p _).1 h1
        · simp only [plant, time]
          rw [h2, hfirst]; linarith
      · exact absurd h hrun

/-- **C43** (minimum running time, partial).  The plant is switched on in step `i+1`, runs up to step
`j` and is off in step `j+1`.  Then the minimum running time has passed, or a cell is above the
emergency temperature in that step, or the inlet has been too hot without a break for longer than the
permitted exceedance time.

Missing: histories in which the first attempt of a step is rejected (`hFirst ≠ h`), where the claim is
false, see `C43_fails_rejected_attempt`. -/
theorem C43_min_running_time_partial (p : Par K) (hp : p.Valid) (b : Bool) (inp : ℕ → Input K)
    (hpos : ∀ n, 0 < (inp n).h) (hfirst : ∀ n, (inp n).hFirst = (inp n).h)
    (i j : ℕ) (hij : i < j) (hoff : state p b inp i = 0)
    (hon : ∀ k, i < k → k ≤ j → state p b inp k ≠ 0) (hend : state p b inp (j + 1) = 0) :
    p.minOn ≤ time inp (j + 1) - time inp (i + 1) ∨
      (∃ T ∈ (inp j).T, p.tEmergency < T) ∨
      (∃ i' ≤ j, (∀ k, i' ≤ k → k ≤ j → ∃ T, (inp k).T.head? = some T ∧ p.tInMax < T) ∧
        p.maxExc < time inp j - time inp i') := by
  have hpos' : ∀ n, 0 < (inp n).hFirst := fun n => by rw [hfirst]; exact hpos n
  have hstart : ∀ k, i < k → k ≤ j → (plant p b inp k).startupAt = time inp (i + 1) := by
    intro k hk
    induction k, hk using Nat.le_induction with
    | base =>
      intro hj
      have := step_startup p (time inp i) (plant p b inp i) (inp i) hoff
        (hon (i + 1) (Nat.lt_succ_self i) hj)
      simpa [plant, time, hfirst] using this.1
    | succ k hk ih =>
      intro hj
      have hkj : k ≤ j := Nat.le_of_succ_le hj
      have := step_stay_on p (time inp k) (plant p b inp k) (inp k) (hon k hk hkj)
      rw [← ih hkj]; exact this
  have hr : p.modLower ≤ (plant p b inp j).state :=
    (C44_state_zero_or_above_lower p hp b inp hpos' j).resolve_left (hon j hij le_rfl)
  obtain ⟨_, h⟩ := step_shutdown p hp (time inp j) (plant p b inp j) (inp j) (hpos' j) hr hend
  rw [hstart j hij le_rfl] at h
  rcases h with h | h | h
  · right; left
    simpa [emergency] using h
  · right; right
    obtain ⟨i', hi', hhot, hdt⟩ := timer_bound p b inp hfirst j (hon j hij le_rfl)
    refine ⟨i', hi', fun k h1 h2 => ?_, h.2.trans_le hdt⟩
    rcases h2.lt_or_eq with h2 | rfl
    · exact hhot k h1 h2
    · exact (inletHot_iff p _).1 h.1
  · left
    have := h.1
    rwa [hfirst] at this

/-- **C43** (minimum pause, partial).  The plant is switched off in step `i+1`, stays off up to step `j`
and runs in step `j+1`.  Then the minimum pause has passed.  Missing: as above. -/
theorem C43_min_pause_partial (p : Par K) (hp : p.Valid) (b : Bool) (inp : ℕ → Input K)
    (hpos : ∀ n, 0 < (inp n).h) (hfirst : ∀ n, (inp n).hFirst = (inp n).h)
    (i j : ℕ) (hij : i < j) (hon : state p b inp i ≠ 0)
    (hoff : ∀ k, i < k → k ≤ j → state p b inp k = 0) (hend : state p b inp (j + 1) ≠ 0) :
    p.minOff ≤ time inp (j + 1) - time inp (i + 1) := by
  have hpos' : ∀ n, 0 < (inp n).hFirst := fun n => by rw [hfirst]; exact hpos n
  have hstop : ∀ k, i < k → k ≤ j → (plant p b inp k).shutdownAt = time inp (i + 1) := by
    intro k hk
    induction k, hk using Nat.le_induction with
    | base =>
      intro hj
      have hr : p.modLower ≤ (plant p b inp i).state :=
        (C44_state_zero_or_above_lower p hp b inp hpos' i).resolve_left hon
      have := step_shutdown p hp (time inp i) (plant p b inp i) (inp i) (hpos' i) hr
        (hoff (i + 1) (Nat.lt_succ_self i) hj)
      simpa [plant, time, hfirst] using this.1
    | succ k hk ih =>
      intro hj
      have hkj : k ≤ j := Nat.le_of_succ_le hj
      have := step_stay_off p (time inp k) (plant p b inp k) (inp k) (hoff k hk hkj)
      rw [← ih hkj]; exact this
  have h := (step_startup p (time inp j) (plant p b inp j) (inp j) (hoff j hij le_rfl) hend).2.2.1
  rw [hstop j hij le_rfl, hfirst] at h
  exact h

/-- A plant of the size of the default one. -/
def samplePar : Par ℚ := ⟨600, 600, 1 / 2, 1, 1 / 20, 75, 110, 120⟩

theorem samplePar_valid : samplePar.Valid := by constructor <;> norm_num [samplePar]

/-- A cool history: request 1 for ever, then nothing, steps of 400 s. -/
def sampleRun : ℕ → Input ℚ := fun n => ⟨400, 400, if n < 3 then 1 else 0, [60, 70]⟩

/-- The hypotheses of `C43_min_running_time_partial` are met with `i = 0`, `j = 3`. -/
example : state samplePar false sampleRun 0 = 0 ∧
    (∀ k, 0 < k → k ≤ 3 → state samplePar false sampleRun k ≠ 0) ∧
    state samplePar false sampleRun 4 = 0 := by
  refine ⟨by decide +kernel, fun k h1 h2 => ?_, by decide +kernel⟩
  have : k = 1 ∨ k = 2 ∨ k = 3 := by omega
  rcases this with rfl | rfl | rfl <;> decide +kernel

/-- A cool history: on, pause requested after 800 s, restart requested at once. -/
def sampleRun2 : ℕ → Input ℚ := fun n => ⟨400, 400, if n = 3 then 0 else 1, [60, 70]⟩

/-- The hypotheses of `C43_min_pause_partial` are met with `i = 3`, `j = 5`: the restart requested in
step 5 is delayed to step 6. -/
example : state samplePar false sampleRun2 3 ≠ 0 ∧
    (∀ k, 3 < k → k ≤ 5 → state samplePar false sampleRun2 k = 0) ∧
    state samplePar false sampleRun2 6 ≠ 0 := by
  refine ⟨by decide +kernel, fun k h1 h2 => ?_, by decide +kernel⟩
  have : k = 4 ∨ k = 5 := by omega
  rcases this with rfl | rfl <;> decide +kernel

/-- **C43 fails** if the first attempt of a step is rejected: switched on at 1 s, then a first attempt
of 600 s (rejected, 1 s is accepted in the end) with request 0.  The plant is off at 2 s although the
minimum running time is 600 s and no temperature is too high. -/
theorem C43_fails_rejected_attempt :
    ∃ (p : Par ℚ) (inp : ℕ → Input ℚ), p.Valid ∧ (∀ n, 0 < (inp n).h ∧ (inp n).h ≤ (inp n).hFirst) ∧
      (∀ n, ∀ T ∈ (inp n).T, T < p.tInMax ∧ T < p.tEmergency) ∧
      state p false inp 0 = 0 ∧ state p false inp 1 ≠ 0 ∧ state p false inp 2 = 0 ∧
      time inp 2 - time inp 1 < p.minOn := by
  refine ⟨samplePar, fun n => if n = 0 then ⟨1, 1, 1, [60]⟩ else ⟨600, 1, 0, [60]⟩, samplePar_valid,
    fun n => ?_, fun n T hT => ?_, by decide +kernel, by decide +kernel, by decide +kernel,
    by decide +kernel⟩
  · by_cases h : n = 0 <;> norm_num [h]
  · by_cases h : n = 0 <;> simp [h] at hT <;> subst hT <;> norm_num [samplePar]

/-- **C44** (ramp, partial).  Between two running steps the modulation changes by at most the maximum
ramp times the step length.

Missing: steps in which the request is below the lower limit (the plant is held at the lower limit
without ramp, `C44_fails_forced_minimum`) and steps whose first attempt was rejected
(`C44_fails_rejected_attempt`). -/
theorem C44_ramp_partial (p : Par K) (hp : p.Valid) (b : Bool) (inp : ℕ → Input K)
    (n : ℕ) (hpos : ∀ n, 0 < (inp n).h) (hfirst : (inp n).hFirst = (inp n).h)
    (hreq : p.modLower ≤ (inp n).req)
    (h0 : state p b inp n ≠ 0) (h1 : state p b inp (n + 1) ≠ 0) :
    |state p b inp (n + 1) - state p b inp n| ≤ p.maxRamp * (inp n).h := by
  have hpos' : 0 < (inp n).hFirst := by rw [hfirst]; exact hpos n
  have key : state p b inp (n + 1) = ramp p (state p b inp n) (inp n).req (inp n).hFirst := by
    unfold state at *
    simp only [plant] at *
    unfold step switch at *
    simp only [not_lt.2 hreq] at *
    split_ifs at * <;> simp_all
  rw [key, ← hfirst]
  exact (ramp_spec p hp hpos').2.2

/-- The hypotheses are met and the bound is attained: request 1 after running at 1/2. -/
example :
    let inp : ℕ → Input ℚ := fun n => ⟨4, 4, if n = 0 then 1 / 2 else 1, [60]⟩
    state samplePar false inp 1 = 1 / 2 ∧ state samplePar false inp 2 = 1 / 2 + 1 / 20 * 4 := by
  decide +kernel

/-- **C44 fails** (ramp): a running plant at full power is taken to the lower limit in one step of 1 s if
it is asked to stop before its minimum running time. -/
theorem C44_fails_forced_minimum :
    ∃ (p : Par ℚ) (inp : ℕ → Input ℚ), p.Valid ∧ (∀ n, 0 < (inp n).h ∧ (inp n).hFirst = (inp n).h) ∧
      state p false inp 1 = 1 ∧ state p false inp 2 = 1 / 2 ∧
      p.maxRamp * (inp 1).h < |state p false inp 2 - state p false inp 1| := by
  refine ⟨samplePar, fun n => ⟨1, 1, if n = 0 then 1 else 0, [60]⟩, samplePar_valid,
    fun n => by norm_num, by decide +kernel, by decide +kernel, by decide +kernel⟩

/-- **C44 fails** (ramp): a rejected first attempt of 10 s allows a change of half the power in 1 s. -/
theorem C44_fails_rejected_attempt :
    ∃ (p : Par ℚ) (inp : ℕ → Input ℚ), p.Valid ∧ (∀ n, 0 < (inp n).h ∧ (inp n).h ≤ (inp n).hFirst) ∧
      (∀ n, p.modLower ≤ (inp n).req) ∧
      state p false inp 1 = 1 / 2 ∧ state p false inp 2 = 1 ∧
      p.maxRamp * (inp 1).h < |state p false inp 2 - state p false inp 1| := by
  refine ⟨samplePar, fun n => ⟨10, 1, if n = 0 then 1 / 2 else 1, [60]⟩, samplePar_valid,
    fun n => by norm_num, fun n => ?_, by decide +kernel, by decide +kernel, by decide +kernel⟩
  by_cases h : n = 0 <;> norm_num [h, samplePar]

omit [IsStrictOrderedRing K] in
/-- **C45** (emergency).  If any cell is above the emergency temperature, the plant is off in the same
step, whatever the request, the times and the history are. -/
theorem C45_emergency_stop (p : Par K) (b : Bool) (inp : ℕ → Input K) (n : ℕ)
    (hot : ∃ T ∈ (inp n).T, p.tEmergency < T) : state p b inp (n + 1) = 0 := by
  have he : emergency p (inp n) = true := by simpa [emergency] using hot
  unfold state
  simp only [plant]
  unfold step
  simp only [he]
  by_cases hm : (switch p (plant p b inp n) (inp n) (time inp n + (inp n).hFirst)).on = true
  · simp [hm]
  · simp [hm]

example : ∃ T ∈ ([60, 111] : List ℚ), samplePar.tEmergency < T := ⟨111, by simp, by norm_num [samplePar]⟩

omit [IsStrictOrderedRing K] in
/-- From a hot inlet the plant is not started. -/
theorem hot_off_stays_off (p : Par K) (t : K) (pl : Plant K) (i : Input K) (h0 : pl.state = 0)
    (hot : inletHot p i = true) : (step p t pl i).state = 0 := by
  by_contra h
  have := (step_startup p t pl i h0 h).2.2.2.1
  simp [hot] at this

/-- **C45** (inlet temperature).  If the inlet has been too hot in the steps `i+1 … j+1` without a break
and the time passed in the steps `i+1 … j` exceeds the permitted exceedance time, then the plant is off
in step `j+1`, whatever the requests are.  Rejected attempts are allowed: they only make the first
evaluation longer than the accepted step. -/
theorem C45_inlet_temperature_stop (p : Par K) (b : Bool) (inp : ℕ → Input K)
    (hpos : ∀ n, 0 < (inp n).h ∧ (inp n).h ≤ (inp n).hFirst)
    (i j : ℕ) (hij : i ≤ j)
    (hot : ∀ k, i ≤ k → k ≤ j → ∃ T, (inp k).T.head? = some T ∧ p.tInMax < T)
    (hlong : p.maxExc < time inp j - time inp i) : state p b inp (j + 1) = 0 := by
  have hot' : ∀ k, i ≤ k → k ≤ j → inletHot p (inp k) = true := by
    intro k h1 h2
    obtain ⟨T, hT, h⟩ := hot k h1 h2
    simp [inletHot, hT, h]
  have hdt : ∀ n, 0 ≤ (plant p b inp n).dtExc := by
    intro n
    induction n with
    | zero => cases b <;> simp [plant, Plant.init]
    | succ n ih => exact step_dtExc_nonneg p _ _ _ ((hpos n).1.trans_le (hpos n).2) ih
  have key : ∀ k, i ≤ k → k ≤ j → state p b inp k = 0 ∨
      time inp k - time inp i ≤ (plant p b inp k).dtExc := by
    intro k hk
    induction k, hk using Nat.le_induction with
    | base => intro _; right; simpa using hdt i
    | succ k hk ih =>
      intro hj
      have hkj : k ≤ j := Nat.le_of_succ_le hj
      by_cases h0 : state p b inp (k + 1) = 0
      · exact Or.inl h0
      · right
        obtain ⟨h1, h2⟩ := step_hot_running p (time inp k) (plant p b inp k) (inp k) (hot' k hk hkj) h0
        have hrun : state p b inp k ≠ 0 := fun h =>
          h0 (hot_off_stays_off p _ _ _ h (hot' k hk hkj))
        have h3 := (ih hkj).resolve_left hrun
        have h4 := (hpos k).2
        simp only [plant, time] at *
        rw [h1]; linarith
  by_contra h0
  obtain ⟨_, h2⟩ := step_hot_running p (time inp j) (plant p b inp j) (inp j) (hot' j hij le_rfl) h0
  rcases key j hij le_rfl with h | h
  · exact h0 (hot_off_stays_off p _ _ _ h (hot' j hij le_rfl))
  · exact h2 (hlong.trans_le h)

/-- The hypotheses are met and the plant was running before: inlet too hot from the second step on. -/
example :
    let inp : ℕ → Input ℚ := fun n => ⟨50, 50, 1, [if n = 0 then 60 else 80]⟩
    samplePar.maxExc < time inp 4 - time inp 1 ∧ state samplePar false inp 4 ≠ 0 ∧
      state samplePar false inp 5 = 0 := by
  decide +kernel

/-- **C62 fails**: a plant that is declared to run at the start (`chp_on_at_start=True`), is asked for full
power and is cool is nevertheless off after the first step, and stays off, if its minimum pause exceeds
its minimum running time by more than a second and the step length. -/
theorem C62_fails_on_at_start (p : Par K) (i : ℕ → Input K)
    (h : (i 0).hFirst + p.minOn + 1 < p.minOff) : state p true i 1 = 0 := by
  unfold state
  simp only [plant]
  by_contra h0
  have := (step_startup p (time i 0) (Plant.init p true) (i 0) rfl h0).2.2.1
  simp [time, Plant.init] at this
  linarith

example : (1 : ℚ) + (60 : ℚ) + 1 < 600 := by norm_num

/-- **C62** (partial): otherwise the plant runs with the requested modulation after the first step, but it
is treated as started in that step (its start-up time is the end of the first step).
Missing: see `C62_fails_on_at_start`. -/
theorem C62_on_at_start_partial (p : Par K) (hp : p.Valid) (i : ℕ → Input K)
    (hoff : p.minOff ≤ (i 0).hFirst + p.minOn + 1) (hreq : p.modLower ≤ (i 0).req)
    (hcool : ∀ T ∈ (i 0).T, T ≤ p.tInMax ∧ T ≤ p.tEmergency) :
    state p true i 1 = (i 0).req ∧ state p true i 1 ≠ 0 ∧
      (plant p true i 1).startupAt = (i 0).hFirst := by
  have h1 : inletHot p (i 0) = false := by
    rw [Bool.eq_false_iff, ne_eq, inletHot_iff]
    rintro ⟨T, hT, h⟩
    exact absurd h (not_lt.2 (hcool T (List.mem_of_mem_head? hT)).1)
  have h2 : emergency p (i 0) = false := by
    rw [Bool.eq_false_iff, ne_eq]
    intro h
    obtain ⟨T, hT, h⟩ := by simpa [emergency] using h
    exact absurd h (not_lt.2 (hcool T hT).2)
  have h3 : ¬((i 0).hFirst - (-p.minOn - 1) < p.minOff) := by
    rw [not_lt]; linarith
  have h4 := inRange_ne p hp hreq
  have h5 : plant p true i 1 = ⟨(i 0).req, (i 0).hFirst, -p.minOn - 1, 0⟩ := by
    simp [plant, time, Plant.init, step, switch, not_lt.2 hreq, h1, h2, h3]
  exact ⟨by simp [state, h5], by simpa [state, h5] using h4, by simp [h5]⟩

/-- **C63 fails**: the upper end of `modulation_range` is not respected.  For every parameter set and
every start there is a history in which the plant runs at full power although its range ends below. -/
theorem C63_fails_upper_limit (p : Par K) (hp : p.Valid) (hu : p.modUpper < 1)
    (htemp : 20 < p.tInMax ∧ 20 < p.tEmergency) :
    ∃ inp : ℕ → Input K, (∀ n, 0 < (inp n).h ∧ (inp n).hFirst = (inp n).h) ∧
      p.modUpper < state p false inp 1 := by
  refine ⟨fun _ => ⟨1, 1, 1, [20]⟩, fun n => by simp, ?_⟩
  have h : ¬((1 : K) < p.modLower) := by
    have := hp.modLower_lt; rw [not_lt]; linarith
  have h2 : ¬((1 : K) - (-p.minOff - 1) < p.minOff) := by rw [not_lt]; linarith
  simp [state, plant, time, Plant.init, step, switch, h, h2, inletHot, emergency, not_lt.2 htemp.1.le,
    not_lt.2 htemp.2.le, hu]

example : ({samplePar with modUpper := 4 / 5} : Par ℚ).modUpper < 1 := by norm_num

/-- **C63** (partial): the state never exceeds the largest request (and the lower limit). Missing: see
`C63_fails_upper_limit`. -/
theorem C63_bounded_by_requests_partial (p : Par K) (hp : p.Valid) (b : Bool) (inp : ℕ → Input K)
    (hpos : ∀ n, 0 < (inp n).hFirst) (u : K) (hu : p.modLower ≤ u) (hreq : ∀ n, (inp n).req ≤ u)
    (n : ℕ) : state p b inp n ≤ u := by
  have h0 : 0 ≤ u := hp.modLower_pos.le.trans hu
  induction n with
  | zero => cases b <;> simpa [state, plant, Plant.init] using h0
  | succ n ih =>
    have hsw : (switch p (plant p b inp n) (inp n) (time inp n + (inp n).hFirst)).on = true →
        (switch p (plant p b inp n) (inp n) (time inp n + (inp n).hFirst)).mod ≤ u := by
      have hr := (ramp_spec p hp (last := (plant p b inp n).state) (req := (inp n).req)
        (hpos n)).2.1.trans (max_le ih (hreq n))
      have hq := hreq n
      unfold switch
      simp only
      split_ifs <;> simp_all
    unfold state
    simp only [plant]
    unfold step
    simp only
    split_ifs with h1 h2 h3
    · simpa using h0
    · simpa using hsw h1.1
    · simpa using hsw h3
    · simpa using h0

end Verif.Chp
