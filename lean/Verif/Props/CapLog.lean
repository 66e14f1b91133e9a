import Verif.Model.CapLog
import Verif.Props.ModelPred

/-!
# C201: the table of storage capacities
-/

set_option linter.unusedSectionVars false

namespace Verif.ModelPred

variable {K : Type*} [Field K] [LinearOrder K]

/-- Specification: the capacities which a table of changes tells after its last row, `a` if there is none. -/
def told (a : K × K) (rs : List (Row K)) : K × K :=
  match rs.getLast? with
  | none => a
  | some r => (r.lo, r.hi)

theorem told_append (a : K × K) (l m : List (Row K)) : told a (l ++ m) = told (told a l) m := by
  unfold told
  rw [List.getLast?_append]
  cases m.getLast? <;> simp

theorem told_adapt (b : Bool) (i : Inp K) (s s' : St K) (h1 : s'.cnsctv = s.cnsctv) (h2 : s'.lo = s.lo)
    (h3 : s'.hi = s.hi) :
    told (s.lo.cur, s.hi.cur) (adaptRow b i s) = ((adaptCap b i s').lo.cur, (adaptCap b i s').hi.cur) := by
  unfold adaptRow adaptCap told
  by_cases hc : s.cnsctv = true
  · simp [hc, h1, h2, h3]
  · cases b <;> simp [hc, h1, h2, h3]

theorem told_emergency (c : Cfg K) (i : Inp K) (s : St K) :
    told (s.lo.cur, s.hi.cur) (emergencyRows c i s) = ((emergency c i s).lo.cur, (emergency c i s).hi.cur) := by
  have ha : told (s.lo.cur, s.hi.cur) (if on c i s then adaptRow c.two.actLower i s else []) =
      ((activate c i s).lo.cur, (activate c i s).hi.cur) := by
    unfold activate
    by_cases h : on c i s
    · rw [if_pos h, if_pos h]
      exact told_adapt _ i s _ rfl rfl rfl
    · rw [if_neg h, if_neg h]
      rfl
  unfold emergencyRows emergency
  rw [told_append, ha]
  show _ = ((deactivate c i (activate c i s)).lo.cur, (deactivate c i (activate c i s)).hi.cur)
  generalize activate c i s = s1
  unfold deactivate
  by_cases h : c.two.off i.base
  · rw [if_pos h, if_pos h]
    exact told_adapt _ i s1 _ rfl rfl rfl
  · rw [if_neg h, if_neg h]
    rfl

theorem told_restore (c : Cfg K) (i : Inp K) (s : St K) :
    told (s.lo.cur, s.hi.cur) (restoreRow c i s) = ((restoreCaps c i s).lo.cur, (restoreCaps c i s).hi.cur) := by
  unfold restoreRow
  by_cases ha : s.adapted = true
  · rw [if_pos ha]
    by_cases hf : 1 ≤ restFactor c i.time s.lo ∧ 1 ≤ restFactor c i.time s.hi
    · rw [if_pos hf]
      unfold restoreCaps
      rw [if_pos ha, if_pos hf]
      rfl
    · rw [if_neg hf]
      rfl
  · rw [if_neg ha]
    unfold restoreCaps
    rw [if_neg ha]
    rfl

theorem run_caps (c : Cfg K) (i : Inp K) (s : St K) :
    ((run c i s).lo.cur, (run c i s).hi.cur) =
      if i.due then ((restoreCaps c i (emergency c i s)).lo.cur, (restoreCaps c i (emergency c i s)).hi.cur)
      else ((emergency c i s).lo.cur, (emergency c i s).hi.cur) := by
  have ht : ∀ (e : Bool) (s : St K), (third i e s).lo = s.lo ∧ (third i e s).hi = s.hi := by
    intro e s
    unfold third
    split_ifs <;> exact ⟨rfl, rfl⟩
  unfold run final
  dsimp only
  rw [(ht _ _).1, (ht _ _).2]
  generalize emergency c i s = s1
  have hr : ∀ x : K, (restoreCaps c i { s1 with opt := x }).lo.cur = (restoreCaps c i s1).lo.cur ∧
      (restoreCaps c i { s1 with opt := x }).hi.cur = (restoreCaps c i s1).hi.cur := by
    intro x
    unfold restoreCaps
    by_cases ha : s1.adapted = true
    · rw [if_pos ha, if_pos (show ({ s1 with opt := x } : St K).adapted = true from ha)]
      by_cases hf : 1 ≤ restFactor c i.time s1.lo ∧ 1 ≤ restFactor c i.time s1.hi
      · rw [if_pos hf, if_pos hf]
        exact ⟨rfl, rfl⟩
      · rw [if_neg hf, if_neg hf]
        exact ⟨rfl, rfl⟩
    · rw [if_neg ha, if_neg (show ¬ ({ s1 with opt := x } : St K).adapted = true from ha)]
      exact ⟨rfl, rfl⟩
  unfold second finalizeStep
  by_cases hd : i.due = true
  · rw [if_pos hd, if_pos hd]
    cases emerg c i s
    · exact Prod.ext (hr _).1 (hr _).2
    · rfl
  · rw [if_neg hd, if_neg hd]

theorem told_run (c : Cfg K) (i : Inp K) (s : St K) :
    told (s.lo.cur, s.hi.cur) (runRows c i s) = ((run c i s).lo.cur, (run c i s).hi.cur) := by
  unfold runRows
  rw [told_append, told_emergency, run_caps]
  by_cases hd : i.due = true
  · rw [if_pos hd, if_pos hd, told_restore]
  · rw [if_neg hd, if_neg hd]
    rfl

theorem told_rows (c : Cfg K) (is : List (Inp K)) : ∀ s : St K,
    told (s.lo.cur, s.hi.cur) (rows c s is) = ((calls c s is).lo.cur, (calls c s is).hi.cur) := by
  induction is with
  | nil => intro s; rfl
  | cons i is ih =>
    intro s
    show told _ (runRows c i s ++ rows c (run c i s) is) = _
    rw [told_append, told_run, ih]
    rfl

theorem runRows_time (c : Cfg K) (i : Inp K) (s : St K) : ∀ r ∈ runRows c i s, r.time = i.time := by
  intro r hr
  have ha : ∀ (b : Bool) (s : St K), r ∈ adaptRow b i s → r.time = i.time := by
    intro b s h
    unfold adaptRow at h
    split_ifs at h <;> simp at h <;> rw [h]
  unfold runRows emergencyRows restoreRow at hr
  rw [List.mem_append, List.mem_append] at hr
  rcases hr with (h | h) | h
  · split_ifs at h
    · exact ha _ _ h
    · simp at h
  · split_ifs at h
    · exact ha _ _ h
    · simp at h
  · split_ifs at h <;> simp at h <;> rw [h]

theorem rows_time (c : Cfg K) (is : List (Inp K)) : ∀ s : St K, ∀ r ∈ rows c s is, ∃ i ∈ is, r.time = i.time := by
  induction is with
  | nil => intro s r hr; simp [rows] at hr
  | cons i is ih =>
    intro s r hr
    rcases List.mem_append.1 hr with h | h
    · exact ⟨i, by simp, runRows_time c i s r h⟩
    · obtain ⟨j, hj, e⟩ := ih _ r h
      exact ⟨j, by simp [hj], e⟩

theorem firstRows_nodup (rs : List (Row K)) : ∀ seen : List K, (∀ r ∈ rs, r.time ∉ seen) →
    rs.Pairwise (fun r q => r.time ≠ q.time) → firstRows seen rs = rs := by
  induction rs with
  | nil => intro seen _ _; rfl
  | cons r rs ih =>
    intro seen h hp
    rw [List.pairwise_cons] at hp
    unfold firstRows
    rw [if_neg (h r (by simp)), ih]
    · intro q hq
      simp only [List.mem_cons, not_or]
      exact ⟨fun e => hp.1 q hq e.symm, h q (by simp [hq])⟩
    · exact hp.2

theorem firstRows_seen (rs : List (Row K)) : ∀ seen : List K, (firstRows seen rs).Pairwise
    (fun r q => r.time ≠ q.time) ∧ ∀ r ∈ firstRows seen rs, r.time ∉ seen := by
  induction rs with
  | nil => intro seen; exact ⟨List.Pairwise.nil, by simp [firstRows]⟩
  | cons r rs ih =>
    intro seen
    unfold firstRows
    by_cases h : r.time ∈ seen
    · rw [if_pos h]
      exact ih seen
    · rw [if_neg h]
      obtain ⟨h1, h2⟩ := ih (r.time :: seen)
      refine ⟨List.pairwise_cons.2 ⟨?_, h1⟩, ?_⟩
      · intro q hq e
        exact h2 q hq (by rw [e]; simp)
      · intro q hq
        rcases List.mem_cons.1 hq with rfl | hq
        · exact h
        · exact fun hs => h2 q hq (by simp [hs])

/-- **C201**: the rows the controller records tell its capacities: after every sequence of calls the last one holds
the two capacities the controller goes on with; without any row these are the original ones. -/
theorem C201_recorded (c : Cfg K) (is : List (Inp K)) :
    told (c.capLo, c.capHi) (rows c (St.init c) is) =
      ((calls c (St.init c) is).lo.cur, (calls c (St.init c) is).hi.cur) :=
  told_rows c is (St.init c)

theorem firstRows_mem (rs : List (Row K)) : ∀ seen : List K, (∀ q ∈ firstRows seen rs, q ∈ rs) ∧
    ∀ r ∈ rs, r.time ∉ seen → ∃ q ∈ firstRows seen rs, q.time = r.time := by
  induction rs with
  | nil => intro seen; simp [firstRows]
  | cons r rs ih =>
    intro seen
    unfold firstRows
    by_cases h : r.time ∈ seen
    · rw [if_pos h]
      refine ⟨fun q hq => List.mem_cons_of_mem _ ((ih seen).1 q hq), fun q hq hs => ?_⟩
      rcases List.mem_cons.1 hq with rfl | hq
      · exact absurd h hs
      · exact (ih seen).2 q hq hs
    · rw [if_neg h]
      refine ⟨fun q hq => ?_, fun q hq hs => ?_⟩
      · rcases List.mem_cons.1 hq with rfl | hq
        · simp
        · exact List.mem_cons_of_mem _ ((ih _).1 q hq)
      · rcases List.mem_cons.1 hq with rfl | hq
        · exact ⟨q, by simp, rfl⟩
        · by_cases he : q.time = r.time
          · exact ⟨r, by simp, he.symm⟩
          · obtain ⟨w, hw, e⟩ := (ih (r.time :: seen)).2 q hq (by simp [he, hs])
            exact ⟨w, List.mem_cons_of_mem _ hw, e⟩

/-- **C201**: the stored table has exactly one row, a recorded one, for every time at which a row was recorded; if none
was recorded it has one row with the original capacities. -/
theorem C201_one_row (c : Cfg K) (is : List (Inp K)) :
    (storedRows c is).Pairwise (fun r q => r.time ≠ q.time) ∧
    (∀ r ∈ rows c (St.init c) is, ∃ q ∈ storedRows c is, q.time = r.time) ∧
    (rows c (St.init c) is ≠ [] → ∀ q ∈ storedRows c is, q ∈ rows c (St.init c) is) ∧
    (rows c (St.init c) is = [] → storedRows c is = [⟨0, 0, c.capLo, c.capHi⟩]) := by
  refine ⟨(firstRows_seen _ []).1, fun r hr => ?_, fun h q hq => ?_, fun h => ?_⟩
  · have h : rows c (St.init c) is ≠ [] := List.ne_nil_of_mem hr
    unfold storedRows
    dsimp only
    rw [if_neg h]
    exact (firstRows_mem _ []).2 r hr (by simp)
  · unfold storedRows at hq
    dsimp only at hq
    rw [if_neg h] at hq
    exact (firstRows_mem _ []).1 q hq
  · unfold storedRows
    dsimp only
    rw [if_pos h]
    simp [firstRows]

theorem rows_pairwise (c : Cfg K) (is : List (Inp K)) (ht : (is.map (·.time)).Pairwise (· < ·)) :
    ∀ s : St K, (∀ pre i post, is = pre ++ i :: post → (runRows c i (calls c s pre)).length ≤ 1) →
    (rows c s is).Pairwise (fun r q => r.time ≠ q.time) := by
  induction is with
  | nil => intro s _; exact List.Pairwise.nil
  | cons i is ih =>
    intro s h1
    rw [List.map_cons, List.pairwise_cons] at ht
    show (runRows c i s ++ rows c (run c i s) is).Pairwise _
    rw [List.pairwise_append]
    refine ⟨?_, ih ht.2 (run c i s) ?_, ?_⟩
    · have := h1 [] i is rfl
      have h2 : (runRows c i s).length ≤ 1 := this
      match hr : runRows c i s, h2 with
      | [], _ => exact List.Pairwise.nil
      | [r], _ => exact List.pairwise_singleton _ r
      | _ :: _ :: _, h2 => simp at h2
    · intro pre j post e
      have := h1 (i :: pre) j post (by rw [e]; rfl)
      exact this
    · intro r hr q hq
      obtain ⟨j, hj, e⟩ := rows_time c is _ q hq
      rw [runRows_time c i s r hr, e]
      exact (ht.1 j.time (List.mem_map_of_mem hj)).ne

/-- **C201**, partial: if time increases from call to call and no call records more than one row, then the stored table
tells the capacities the controller goes on with.  Missing: calls which both adapt and restore a capacity
(`C201_fails_same_time`). -/
theorem C201_stored_partial (c : Cfg K) (is : List (Inp K)) (ht : (is.map (·.time)).Pairwise (· < ·))
    (h1 : ∀ pre i post, is = pre ++ i :: post → (runRows c i (calls c (St.init c) pre)).length ≤ 1) :
    told (c.capLo, c.capHi) (storedRows c is) =
      ((calls c (St.init c) is).lo.cur, (calls c (St.init c) is).hi.cur) := by
  rw [← C201_recorded]
  unfold storedRows
  dsimp only
  by_cases h : rows c (St.init c) is = []
  · rw [if_pos h, h]
    rfl
  · rw [if_neg h, firstRows_nodup _ [] (by simp) (rows_pairwise c is ht _ h1)]

/-- Three calls for the examples: at 100 s the emergency switches the plant off and adapts the upper capacity to 40 kWh; at
43300 s it switches it on, adapts the lower capacity to 20 kWh and, with `due`, there is an
optimisation. -/
def exampleCalls (due : Bool) : List (Inp ℚ) :=
  [⟨⟨60, 80, 81, 0, 70, false⟩, 100, 40, false, some 0, 1 / 2⟩, ⟨⟨60, 80, 70, 0, 70, false⟩, 200, 30, false, some 0, 1 / 2⟩,
    ⟨⟨60, 80, 70, 0, 59, false⟩, 43300, 20, due, some 0, 1 / 2⟩]

example : told (10, 50) (storedRows exCfg (exampleCalls false)) = (20, 40) := by
  have h := C201_stored_partial exCfg (exampleCalls false) (by decide +kernel) (by
    intro pre i post e
    rcases pre with _ | ⟨a, _ | ⟨b, _ | ⟨d, pre⟩⟩⟩ <;> simp [exampleCalls] at e
    · rw [← e.1]; decide +kernel
    · rw [← e.1, ← e.2.1]; decide +kernel
    · rw [← e.1, ← e.2.1, ← e.2.2.1]; decide +kernel)
  exact h.trans (by decide +kernel)

/-- **C201** is false of the code when a call both adapts and restores: of the two rows with the same time the first one
is kept, and it holds the other capacity before it was restored.  Here the table ends with an upper capacity of
40 kWh, the controller goes on with 45 kWh.  The table also has no row for the time before the first adaption. -/
theorem C201_fails_same_time :
    let s := calls exCfg (St.init exCfg) (exampleCalls true)
    storedRows exCfg (exampleCalls true) = [⟨100, -1, 10, 40⟩, ⟨43300, -2, 20, 40⟩] ∧
    (s.lo.cur, s.hi.cur) = (20, 45) := by
  decide +kernel

end Verif.ModelPred
