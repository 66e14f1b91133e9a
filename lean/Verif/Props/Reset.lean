import Verif.Model.Reset
import Mathlib.Tactic.NormNum

/-!
# C67: a reset restores the initial conditions of the parts
-/

namespace Verif.Reset

variable {K : Type*} [Field K]

omit [Field K] in
theorem writeAll_of_mem {m : Mem K} {l : List ℕ} {v : ℕ → K} {a : ℕ} (h : a ∈ l) :
    writeAll m l v a = v a := if_pos h

omit [Field K] in
theorem writeAll_of_notMem {m : Mem K} {l : List ℕ} {v : ℕ → K} {a : ℕ} (h : a ∉ l) :
    writeAll m l v a = m a := if_neg h

/-- A part cannot touch a cell that it does not know. -/
theorem resetPart_other (m : Mem K) (p : RPart K) (a : ℕ)
    (h1 : a ∉ p.temps) (h2 : a ∉ p.dm) (h3 : a ∉ p.pf) : resetPart m p a = m a := by
  unfold resetPart
  cases p.kind <;> dsimp only
  · rw [writeAll_of_notMem h1, writeAll_of_notMem h2]
  · rw [writeAll_of_notMem h1]
  · exact writeAll_of_notMem fun h => h2 (List.mem_of_mem_take h)
  · exact writeAll_of_notMem h3

theorem resetAll_other (parts : List (RPart K)) (m : Mem K) (a : ℕ)
    (h : ∀ p ∈ parts, a ∉ p.temps ∧ a ∉ p.dm ∧ a ∉ p.pf) : resetAll parts m a = m a := by
  induction parts generalizing m with
  | nil => rfl
  | cons p l ih =>
    rw [resetAll, List.foldl_cons]
    have := ih (resetPart m p) fun q hq => h q (List.mem_cons_of_mem _ hq)
    rw [resetAll] at this
    rw [this]
    obtain ⟨h1, h2, h3⟩ := h p List.mem_cons_self
    exact resetPart_other m p a h1 h2 h3

theorem resetAll_split (pre post : List (RPart K)) (p : RPart K) (m : Mem K) :
    resetAll (pre ++ p :: post) m = resetAll post (resetPart (resetAll pre m) p) := by
  simp [resetAll, List.foldl_append]

/-- **C67** (temperatures, partial): pipes, storages and heat exchangers get their initial temperatures back,
whatever happened before.  A part owns its temperature array, so no other part knows its cells. -/
theorem C67_temperatures_restored_partial (pre post : List (RPart K)) (p : RPart K) (m : Mem K)
    (hk : p.kind = .pipe ∨ p.kind = .hex)
    (own : ∀ a ∈ p.temps, ∀ q ∈ post, a ∉ q.temps ∧ a ∉ q.dm ∧ a ∉ q.pf) :
    ∀ a ∈ p.temps, resetAll (pre ++ p :: post) m a = p.tInit a := by
  intro a ha
  rw [resetAll_split, resetAll_other _ _ _ (own a ha)]
  unfold resetPart
  rcases hk with h | h <;> rw [h] <;> exact writeAll_of_mem ha

example : ∃ (p q : RPart ℚ), p.kind = .pipe ∧ p.temps = [0, 1] ∧
    ∀ a ∈ p.temps, ∀ r ∈ [q], a ∉ r.temps ∧ a ∉ r.dm ∧ a ∉ r.pf :=
  ⟨⟨.pipe, [0, 1], fun _ => 50, [2], 0, [], fun _ => 0⟩, ⟨.pump, [3], fun _ => 0, [2], 1, [], fun _ => 0⟩,
    rfl, rfl, by simp⟩

/-- **C67** (valve): a mixing or splitting valve gets its initial openings back. -/
theorem C67_valve_openings_restored (pre post : List (RPart K)) (p : RPart K) (m : Mem K)
    (hk : p.kind = .valve)
    (own : ∀ a ∈ p.pf, ∀ q ∈ post, a ∉ q.temps ∧ a ∉ q.dm ∧ a ∉ q.pf) :
    ∀ a ∈ p.pf, resetAll (pre ++ p :: post) m a = p.pfInit a := by
  intro a ha
  rw [resetAll_split, resetAll_other _ _ _ (own a ha)]
  unfold resetPart
  rw [hk]; exact writeAll_of_mem ha

example : ∃ (p q : RPart ℚ), p.kind = .valve ∧ p.pf = [4, 5] ∧
    ∀ a ∈ p.pf, ∀ r ∈ [q], a ∉ r.temps ∧ a ∉ r.dm ∧ a ∉ r.pf :=
  ⟨⟨.valve, [0, 1], fun _ => 0, [2], 0, [4, 5], fun _ => 1 / 2⟩,
    ⟨.pump, [3], fun _ => 0, [2], 1, [], fun _ => 0⟩, rfl, rfl, by simp⟩

/-- The flow cell of a pump is not a temperature or an opening of any part, and no other pump writes it. -/
def FlowCell (c : ℕ) (l : List (RPart K)) : Prop :=
  ∀ q ∈ l, c ∉ q.temps ∧ c ∉ q.pf ∧ (q.kind = .pump → c ∉ q.dm)

theorem resetAll_zero (post : List (RPart K)) (c : ℕ) (m : Mem K) (hc : FlowCell c post)
    (h0 : m c = 0) : resetAll post m c = 0 := by
  induction post generalizing m with
  | nil => exact h0
  | cons q l ih =>
    rw [resetAll, List.foldl_cons]
    refine ih _ (fun r hr => hc r (List.mem_cons_of_mem _ hr)) ?_
    obtain ⟨h1, h3, h4⟩ := hc q List.mem_cons_self
    unfold resetPart
    cases hk : q.kind <;> dsimp only
    · rw [writeAll_of_notMem h1]
      by_cases h : c ∈ q.dm
      · exact writeAll_of_mem h
      · rw [writeAll_of_notMem h, h0]
    · rw [writeAll_of_notMem h1, h0]
    · exact h0
    · rw [writeAll_of_notMem fun h => h4 hk (List.mem_of_mem_take h), h0]
    · rw [writeAll_of_notMem h3, h0]

/-- **C67** (pumps, exact): a pump gets its initial flow back exactly if no pipe or storage that was added
after it shares its flow array.  So what a reset does to a pump depends on the order of registration. -/
theorem C67_pump_flow_restored_iff (pre post : List (RPart K)) (p : RPart K) (m : Mem K) (c : ℕ)
    (hk : p.kind = .pump) (hdm : p.dm = [c]) (hne : p.dmInit ≠ 0) (hc : FlowCell c post) :
    resetAll (pre ++ p :: post) m c = p.dmInit ↔ ∀ q ∈ post, q.kind = .pipe → c ∉ q.dm := by
  rw [resetAll_split]
  have h0 : resetPart (resetAll pre m) p c = p.dmInit := by
    unfold resetPart
    rw [hk, hdm]
    exact writeAll_of_mem (by simp)
  generalize resetPart (resetAll pre m) p = m' at h0
  induction post generalizing m' with
  | nil => simpa [resetAll] using h0
  | cons q l ih =>
    have hcl : FlowCell c l := fun r hr => hc r (List.mem_cons_of_mem _ hr)
    obtain ⟨h1, h3, h4⟩ := hc q List.mem_cons_self
    rw [resetAll, List.foldl_cons]
    by_cases hq : q.kind = .pipe ∧ c ∈ q.dm
    · have hz : resetPart m' q c = 0 := by
        unfold resetPart
        rw [hq.1]
        show writeAll (writeAll m' q.dm fun _ => 0) q.temps q.tInit c = 0
        rw [writeAll_of_notMem h1, writeAll_of_mem hq.2]
      have := resetAll_zero l c _ hcl hz
      rw [resetAll] at this
      rw [this]
      constructor
      · intro h; exact absurd h.symm hne
      · intro h; exact absurd hq.2 (h q List.mem_cons_self hq.1)
    · have hs : resetPart m' q c = p.dmInit := by
        rw [← h0]
        unfold resetPart
        cases hk' : q.kind <;> dsimp only
        · rw [writeAll_of_notMem h1, writeAll_of_notMem fun h => hq ⟨hk', h⟩]
        · rw [writeAll_of_notMem h1]
        · exact writeAll_of_notMem fun h => h4 hk' (List.mem_of_mem_take h)
        · exact writeAll_of_notMem h3
      refine (ih hcl _ hs).trans ?_
      constructor
      · intro h r hr
        rcases List.mem_cons.1 hr with rfl | hr
        · intro h5 h6; exact hq ⟨h5, h6⟩
        · exact h r hr
      · intro h r hr; exact h r (List.mem_cons_of_mem _ hr)

/-- A pump with constant flow 1/2 kg/s. -/
def exPump : RPart ℚ := ⟨.pump, [0, 1], fun _ => 0, [2], 1 / 2, [], fun _ => 0⟩

/-- A pipe behind the pump; its flow array is a view of the array of the pump. -/
def exPipe : RPart ℚ := ⟨.pipe, [3, 4], fun _ => 50, [2], 0, [], fun _ => 0⟩

example : exPump.kind = .pump ∧ exPump.dm = [2] ∧ exPump.dmInit ≠ 0 ∧ FlowCell 2 [exPipe] := by
  refine ⟨rfl, rfl, by norm_num [exPump], ?_⟩
  intro q hq
  rw [List.mem_singleton.1 hq]
  simp [exPipe]

/-- A pump with constant flow, followed by a pipe: after the reset the pump stands still. -/
theorem C67_fails_pump_flow (m : Mem ℚ) :
    resetAll [exPump, exPipe] m 2 = 0 ∧ exPump.dmInit = 1 / 2 := by
  constructor
  · norm_num [resetAll, resetPart, exPump, exPipe, writeAll]
  · rfl

/-- A pipe with pump always loses its start flow: it inherits the reset of the pipe. -/
theorem C67_fails_pipe_with_pump (m : Mem K) (p : RPart K) (hk : p.kind = .pipe) (c : ℕ) (hc : c ∈ p.dm)
    (ht : c ∉ p.temps) : resetAll [p] m c = 0 := by
  simp only [resetAll, List.foldl_cons, List.foldl_nil, resetPart, hk]
  rw [writeAll_of_notMem ht, writeAll_of_mem hc]

example : exPipe.kind = .pipe ∧ 2 ∈ exPipe.dm ∧ 2 ∉ exPipe.temps := by simp [exPipe]

/-- Temperatures of connectors, pumps and valves survive the reset, and so do the openings of a pipe with
valve. -/
theorem C67_fails_not_reset (m : Mem K) (p : RPart K) :
    (p.kind = .connector → resetAll [p] m = m) ∧
    (p.kind = .pump ∨ p.kind = .valve → (∀ a ∈ p.temps, a ∉ p.dm ∧ a ∉ p.pf) →
      ∀ a ∈ p.temps, resetAll [p] m a = m a) ∧
    (p.kind = .pipe → (∀ a ∈ p.pf, a ∉ p.dm ∧ a ∉ p.temps) → ∀ a ∈ p.pf, resetAll [p] m a = m a) := by
  refine ⟨fun h => ?_, fun h ho a ha => ?_, fun h ho a ha => ?_⟩
  · simp [resetAll, resetPart, h]
  · rcases h with h | h <;> simp only [resetAll, List.foldl_cons, List.foldl_nil, resetPart, h]
    · exact writeAll_of_notMem fun h' => (ho a ha).1 (List.mem_of_mem_take h')
    · exact writeAll_of_notMem (ho a ha).2
  · simp only [resetAll, List.foldl_cons, List.foldl_nil, resetPart, h]
    rw [writeAll_of_notMem (ho a ha).2, writeAll_of_notMem (ho a ha).1]

example : (∀ a ∈ exPump.temps, a ∉ exPump.dm ∧ a ∉ exPump.pf) := by simp [exPump]

end Verif.Reset
