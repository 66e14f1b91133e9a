import Verif.Lemmas.TopologyFlow

/-!
# C97, C98: the topology analysis ends, and its flow net can be evaluated
-/

namespace Verif.Topology

open Verif.FlowNet
open Verif.Topology.Spec
open Verif.FlowNet.Spec (Causal sources Holds)

variable {K : Type*} [Field K]

/-! ## Example plants -/

/-- A part with two ports. -/
def twoPorts (k : Kind) : Part := ⟨k, "part".toList, ["in".toList, "out".toList], [true, false], [], true, false⟩

/-- A part all of whose ports count inwards. -/
def inwards (k : Kind) (n : ℕ) : Part :=
  ⟨k, "part".toList, (List.range n).map fun i => (List.replicate i 'p'), List.replicate n true, [], true, false⟩

/-- A plant from a list of parts and a list of connections. -/
def plant (parts : List Part) (links : List (Port × Port)) : Net where
  n := parts.length
  part := fun i => parts.getD i (twoPorts .pipe)
  link := fun p => ((links ++ links.map Prod.swap).find? fun l => l.1 = p).map Prod.snd

/-- The conditions of `WellFormed` as a computation. -/
def checkPlant (parts : List Part) (links : List (Port × Port)) : Bool :=
  ((links ++ links.map Prod.swap).map Prod.fst).Nodup ∧
    (∀ l ∈ links ++ links.map Prod.swap, l.1.1 < parts.length ∧ l.1.2 < ((parts.getD l.1.1 (twoPorts .pipe)).ports.length)) ∧
    ∀ t ∈ parts, (t.channels ≠ [] ↔ t.kind = .hex ∨ t.kind = .hexNum) ∧
      (t.channels ≠ [] → ∀ k < t.ports.length, ∃ c ∈ t.channels, ∀ d ∈ t.channels, d <:+: t.ports.getD k [] ↔ d = c) ∧
      (t.kind = .pump ∨ t.kind = .pipe → t.ports.length = 2) ∧
      (t.kind = .connector ∨ t.kind = .mixing ∨ t.kind = .splitting ∨ t.kind = .pipeValve → t.ports.length = 3) ∧
      (t.kind = .storage ∨ t.kind = .branched → 2 ≤ t.ports.length)

theorem find_of_mem {l : List (Port × Port)} (hl : (l.map Prod.fst).Nodup) {p q : Port} (h : (p, q) ∈ l) :
    l.find? (fun e => e.1 = p) = some (p, q) := by
  induction l with
  | nil => simp at h
  | cons e l ih =>
    rw [List.map_cons, List.nodup_cons] at hl
    rcases List.mem_cons.mp h with rfl | h
    · rw [List.find?_cons_of_pos (by simp)]
    · have hne : ¬ e.1 = p := by
        rintro rfl
        exact hl.1 (List.mem_map.mpr ⟨_, h, rfl⟩)
      rw [List.find?_cons_of_neg (by simpa using hne)]
      exact ih hl.2 h

theorem plant_link {parts : List Part} {links : List (Port × Port)} {p q : Port}
    (h : (plant parts links).link p = some q) : (p, q) ∈ links ++ links.map Prod.swap := by
  simp only [plant, Option.map_eq_some_iff] at h
  obtain ⟨e, h1, h2⟩ := h
  have h3 := List.find?_some h1
  have h4 := List.mem_of_find?_eq_some h1
  simp only [decide_eq_true_eq] at h3
  rw [← h2, ← h3]
  exact h4

theorem plant_wellFormed {parts : List Part} {links : List (Port × Port)} (h : checkPlant parts links = true) :
    WellFormed (plant parts links) := by
  unfold checkPlant at h
  simp only [decide_eq_true_eq] at h
  obtain ⟨h1, h2, h3⟩ := h
  have hpart : ∀ i < (plant parts links).n, (plant parts links).part i ∈ parts := by
    intro i hi
    have hi' : i < parts.length := hi
    simp only [plant, List.getD_eq_getElem?_getD, List.getElem?_eq_getElem hi', Option.getD_some]
    exact List.getElem_mem hi'
  have hsymm : ∀ p q, (p, q) ∈ links ++ links.map Prod.swap → (q, p) ∈ links ++ links.map Prod.swap := by
    intro p q hm
    rcases List.mem_append.mp hm with hm | hm
    · exact List.mem_append_right _ (List.mem_map.mpr ⟨_, hm, rfl⟩)
    · obtain ⟨e, he, he'⟩ := List.mem_map.mp hm
      apply List.mem_append_left
      have : e = (q, p) := by rw [← Prod.swap_swap e, he']; rfl
      rw [← this]; exact he
  refine ⟨?_, ?_, ?_, ?_, ?_, ?_, ?_⟩
  · intro p q hl
    have := find_of_mem h1 (hsymm p q (plant_link hl))
    simp only [plant]
    rw [this]
    rfl
  · intro p q hl
    exact h2 _ (hsymm p q (plant_link hl))
  · exact fun i hi => (h3 _ (hpart i hi)).2.2.1
  · exact fun i hi => (h3 _ (hpart i hi)).2.2.2.1
  · exact fun i hi => (h3 _ (hpart i hi)).2.2.2.2
  · exact fun i hi => (h3 _ (hpart i hi)).1
  · intro p hp hc
    exact (h3 _ (hpart p.1 hp.1)).2.1 hc p.2 hp.2

/-- A pump, a splitting valve, two pipes in parallel, a connector and a pipe back to the pump. -/
def mixingCircuit : Net := plant
  [twoPorts .pump, ⟨.splitting, "valve".toList, ["A".toList, "B".toList, "AB".toList], [false, false, true], [], false, false⟩,
    twoPorts .pipe, twoPorts .pipe, inwards .connector 3, twoPorts .pipe, twoPorts .pipe]
  [((0, 1), (6, 0)), ((6, 1), (1, 2)), ((1, 0), (2, 0)), ((1, 1), (3, 0)), ((2, 1), (4, 0)), ((3, 1), (4, 1)), ((4, 2), (5, 0)),
    ((5, 1), (0, 0))]

theorem mixingCircuit_wellFormed : WellFormed mixingCircuit := plant_wellFormed (by decide +kernel)

/-- Two circuits with a pump each, coupled by a storage with four ports; a third pump feeds one of the circuits. -/
def storageCircuits : Net := plant
  [twoPorts .pump, twoPorts .pump, inwards .storage 4, twoPorts .pipe, twoPorts .pipe]
  [((0, 1), (2, 0)), ((2, 1), (3, 0)), ((3, 1), (0, 0)), ((1, 1), (2, 2)), ((2, 3), (4, 0)), ((4, 1), (1, 0))]

theorem storageCircuits_wellFormed : WellFormed storageCircuits := plant_wellFormed (by decide +kernel)

/-! ## C97 -/

/-- **C97** (every call ends): in every plant, the analysis has a result, an exception or a flow net, -/
theorem C97_has_result {G : Net} (wf : WellFormed G) : ∃ r, Analysed G r := analysed_exists wf

/-- … every single call of the recursion ends, whichever ports have been solved before, -/
theorem C97_call_ends {G : Net} (wf : WellFormed G) {s : State}
    (hs : (∀ i, (s.solved i).Nodup) ∧ ∀ p, isSolved s p → Valid G p) {root : ℕ} (hr : root < G.n) (sub : Bool) :
    ∃ m, (∃ s', steps G root sub m (start G root s) = .ok ⟨[], s'⟩) ∨
      ∃ e, steps G root sub m (start G root s) = .error e := by
  rcases run_or_raises (sub := sub) wf ⟨hs.1, hs.2⟩ hr with ⟨s', m, h⟩ | ⟨e, m, h⟩
  · exact ⟨m, .inl ⟨s', h⟩⟩
  · exact ⟨m, .inr ⟨e, h⟩⟩

/-- … and the loops over the sub nets end in whatever order they take the parts: there is no infinite sequence of
sub nets, as each of them solves a port. -/
theorem C97_no_endless_loop {G : Net} (wf : WellFormed G) :
    ¬ ∃ σ : ℕ → State, ((∀ i, ((σ 0).solved i).Nodup) ∧ ∀ p, isSolved (σ 0) p → Valid G p) ∧
      ∀ m, ∃ i < G.n, (eligible1 G (σ m) i ∨ eligible2 G (σ m) i) ∧ Run G i true (σ m) (σ (m + 1)) := by
  rintro ⟨σ, h0, h⟩
  have hc : ∀ m, Clean G (σ m) := by
    intro m
    induction m with
    | zero => exact ⟨h0.1, h0.2⟩
    | succ m ih =>
      obtain ⟨i, hi, _, hr⟩ := h m
      exact run_clean wf ih hi hr
  have hd : ∀ m, openPorts G (σ m) + m ≤ openPorts G (σ 0) := by
    intro m
    induction m with
    | zero => simp
    | succ m ih =>
      obtain ⟨i, hi, he, hr⟩ := h m
      have he2 : eligible2 G (σ m) i := he.elim (eligible1_eligible2 _ _) id
      have := eligible_decreases wf (hc m) hi he2 hr
      omega
  have := hd (openPorts G (σ 0) + 1)
  omega

/-- **C97** (the net can be evaluated): after one evaluation from top to bottom, whatever the values before, the
equations of all routines hold at the same time, flows of pumps and openings of valves are unchanged, and a second
evaluation changes nothing. -/
theorem C97_one_pass {G : Net} (wf : WellFormed G) {s : State} (h : Analysed G (.ok s)) (v : ℕ → K) :
    (∀ r ∈ s.net, Holds (evalNet s.net v) r) ∧
      (∀ i k, G.kind i = .pump → evalNet s.net v (own G (i, k)) = v (own G (i, k))) ∧
      (∀ i k, evalNet s.net v (pfCell i k) = v (pfCell i k)) ∧
      evalNet s.net (evalNet s.net v) = evalNet s.net v := by
  have hg := analysed_good wf h
  have ht := analysed_targets wf h
  have he := C17_equations_hold (effective s.net) v hg.causal
  have hi := C17_idempotent (effective s.net) v hg.causal
  simp only [evalNet_effective] at he hi
  refine ⟨?_, ?_, ?_, hi⟩
  · intro r hr
    by_cases hc : SelfCopy r
    · unfold SelfCopy at hc
      unfold Holds
      rw [hc]
    · exact he.1 r (by unfold effective; rw [List.mem_filter]; exact ⟨hr, by simpa using hc⟩)
  · intro i k hk
    refine evalNet_other _ _ _ ?_
    intro r hr hrt
    obtain ⟨p, _, h2, h3⟩ := ht r hr
    rw [h3] at hrt
    have := own_part hrt
    simp only at this
    rw [this] at h2
    exact h2 hk
  · intro i k
    refine evalNet_other _ _ _ ?_
    intro r hr hrt
    obtain ⟨p, _, _, h3⟩ := ht r hr
    rw [h3] at hrt
    unfold own dmCell pfCell at hrt
    omega

/-- The analysis of the circuit with the splitting valve: both pipes get the part of the flow that the opening gives
them, and all ports are solved. -/
example : ∃ s, Accepted mixingCircuit s ∧ s.net.length = 6 := by
  obtain ⟨s, h1, h2, h3⟩ := succeeds_sound (G := mixingCircuit) (m := 100) (o₁ := []) (o₂ := [])
    (P := fun s => Passes mixingCircuit s ∧ s.net.length = 6) (by decide +kernel)
  exact ⟨s, ⟨h1, h2⟩, h3⟩

/-! ## C98 -/

/-- The storage feeds two ports that lead to boundary conditions. -/
def openStorage : Net := plant [twoPorts .pump, inwards .storage 3] [((0, 1), (1, 0))]

theorem openStorage_wellFormed : WellFormed openStorage := plant_wellFormed (by decide +kernel)

/-- **C98**, partial: if the analysis accepts a plant, then the flow at every port of every part is determined by the
flows of the pumps and the openings of the valves, except for storages of which at least two ports were not reached.
Missing: those storages (`C98_fails_open_storage`). -/
theorem C98_flows_determined_partial {G : Net} (wf : WellFormed G) {s : State} (h : Accepted G s) {v v' : ℕ → K}
    (hp : ∀ i < G.n, G.kind i = .pump → v (own G (i, 0)) = v' (own G (i, 0)))
    (hv : ∀ i k, v (pfCell i k) = v' (pfCell i k)) {i : ℕ} (hi : i < G.n) :
    (∀ k < G.nports i, evalNet s.net v (s.addr (i, k)) = evalNet s.net v' (s.addr (i, k))) ∨
      (G.kind i = .storage ∧ ∃ j < G.nports i, ∃ k < G.nports i, j ≠ k ∧ ¬ isSolved s (i, j) ∧ ¬ isSolved s (i, k)) := by
  have hg := analysed_good wf h.1
  by_cases hall : ∀ k < G.nports i, isSolved s (i, k)
  · left
    intro k hk
    exact solved_determined wf h.1 hp hv (hall k hk)
  · right
    push Not at hall
    obtain ⟨j, hj, hjn⟩ := hall
    have hopen := open_of_unsolved hg.clean hjn ⟨hi, hj⟩
    simp only at hopen
    have hst : G.kind i = .storage := h.2 i hi (.inr hopen)
    refine ⟨hst, j, hj, ?_⟩
    by_contra hno
    push Not at hno
    have hcl : Clean G (apply s (i, j) none ⟨none, none, true, false⟩) := clean_apply hg.clean hjn ⟨hi, hj⟩
    have hzero : cnt G (apply s (i, j) none ⟨none, none, true, false⟩) i = 0 := by
      by_contra hne
      obtain ⟨k, hk, hkn⟩ := exists_open hcl (i := i) (Nat.pos_of_ne_zero hne)
      rw [isSolved_apply] at hkn
      push Not at hkn
      exact hkn.1 (hno k hk (by rintro rfl; exact hkn.2 rfl rfl) hjn)
    rw [cnt_apply, if_pos ⟨rfl, rfl⟩] at hzero
    refine analysed_done h.1 i hi ⟨?_, by omega⟩
    unfold breaks
    rw [hst]
    exact hopen

/-- The coupled circuits meet the hypotheses, with all four ports of the storage determined. -/
example : ∃ s, Accepted storageCircuits s ∧ ∀ k < 4, isSolved s (2, k) := by
  obtain ⟨s, h1, h2, h3⟩ := succeeds_sound (G := storageCircuits) (m := 100) (o₁ := []) (o₂ := [])
    (P := fun s => Passes storageCircuits s ∧ ∀ k : ℕ, k < 4 → isSolved s (2, k)) (by decide +kernel)
  exact ⟨s, ⟨h1, h2⟩, h3⟩

/-- **C98** (ports which were not reached): their flow keeps the value it had before. -/
theorem C98_unreached_stuck {G : Net} (wf : WellFormed G) {s : State} (h : Analysed G (.ok s)) {i k : ℕ}
    (hst : G.kind i = .storage) (hn : ¬ isSolved s (i, k)) (v : ℕ → K) :
    evalNet s.net v (s.addr (i, k)) = v (s.addr (i, k)) := by
  have hg := analysed_good wf h
  rw [hg.addr (i, k) (by simp only; rw [hst]; simp)]
  refine evalNet_other _ _ _ ?_
  intro r hr hrt
  obtain ⟨p, h1, _, h3⟩ := analysed_targets wf h r hr
  rw [h3] at hrt
  have hpart := own_part hrt
  have hslot := own_slot hrt
  unfold slot at hslot
  simp only at hpart hslot
  rw [hpart] at hslot
  simp only [hst] at hslot
  apply hn
  rw [show ((i, k) : Port) = p from Prod.ext hpart.symm hslot.symm]
  exact h1

/-- **C98** is false of the code: a storage of which one port is fed by a pump and two lead to boundary conditions is
accepted; what enters never leaves, as the flow of the two ports stays 0. -/
theorem C98_fails_open_storage : ∃ s, Accepted openStorage s ∧ ∀ x : ℚ, ∃ v : ℕ → ℚ,
    v (own openStorage (0, 0)) = x ∧ (∀ c, c ≠ own openStorage (0, 0) → v c = 0) ∧
      evalNet s.net v (s.addr (1, 0)) = x ∧ evalNet s.net v (s.addr (1, 1)) = 0 ∧
      evalNet s.net v (s.addr (1, 2)) = 0 := by
  obtain ⟨s, h1, h2, h3, h4, h5, h6⟩ := succeeds_sound (G := openStorage) (m := 100) (o₁ := []) (o₂ := [])
    (P := fun s => Passes openStorage s ∧ s.net = [⟨own openStorage (1, 0), .pass (own openStorage (0, 0))⟩] ∧
      s.addr (1, 0) = own openStorage (1, 0) ∧ s.addr (1, 1) = own openStorage (1, 1) ∧
      s.addr (1, 2) = own openStorage (1, 2)) (by decide +kernel)
  refine ⟨s, ⟨h1, h2⟩, fun x => ⟨fun c => if c = own openStorage (0, 0) then x else 0, by simp, ?_, ?_, ?_, ?_⟩⟩
  · intro c hc; simp [hc]
  · rw [h3, h4]
    simp [evalNet, exec, write]
  · rw [h3, h5, evalNet_other _ _ _ (by simp; decide)]
    rw [if_neg (by decide)]
  · rw [h3, h6, evalNet_other _ _ _ (by simp; decide)]
    rw [if_neg (by decide)]

end Verif.Topology
