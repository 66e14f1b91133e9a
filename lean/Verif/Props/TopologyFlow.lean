import Verif.Props.Topology
import Verif.Lemmas.TopologyBalance
import Verif.Lemmas.TopologyName
import Mathlib.Algebra.BigOperators.Group.Finset.Sigma

/-!
# C99: both sides of a connection carry the same flow
-/

set_option synthInstance.maxSize 2000
set_option synthInstance.maxHeartbeats 400000

namespace Verif.Topology

open Finset
open Verif.FlowNet (Routine evalNet inflow passOn)
open Verif.Topology.Spec
open Verif.FlowNet.Spec (Holds)

variable {K : Type*} [Field K]

/-- Specification: the mass flow into a part at one of its ports, for given contents of the memory. -/
def into (G : Net) (s : State) (u : ℕ → K) (p : Port) : K := inflow (G.inward p) (u (s.addr p))

/-- **C99**, partial: over every connection on which the analysis has handed on a flow, exactly the flow that leaves
the one part enters the other.  Missing: connections that close a loop of the net, whose two sides are calculated
independently (`C99_circuit_partial`, `C99_fails_two_valves`), and parts that have the name of a flow channel in
their name (`C100_fails_name`). -/
theorem C99_handed_partial {G : Net} (wf : WellFormed G) (hnm : PlainNames G) {s : State} (h : Analysed G (.ok s))
    {q p : Port} (hv : (q, p) ∈ s.via) (v : ℕ → K) :
    G.link q = some p ∧ into G s (evalNet s.net v) q + into G s (evalNet s.net v) p = 0 := by
  obtain ⟨h1, _, _, h4⟩ := analysed_via wf hnm h q p hv
  refine ⟨h1, ?_⟩
  have he := (C97_one_pass wf h v).1
  unfold into
  rcases h4 with h4 | ⟨h4, h5⟩
  · have hr := he _ h4
    cases hq : G.inward q <;> cases hp : G.inward p <;> rw [hq, hp] at hr <;>
      simp [passOn, Holds, inflow] at hr ⊢ <;> first | linear_combination hr | linear_combination -hr
  · rw [h4]
    cases hq : G.inward q <;> cases hp : G.inward p <;> simp_all [inflow]

theorem own_two {G : Net} {i : ℕ} (hk : G.kind i = .pump ∨ G.kind i = .pipe) (j k : ℕ) :
    own G (i, j) = own G (i, k) := by
  unfold own slot
  rcases hk with hk | hk <;> simp only [hk]

/-- The two ports of a flow channel of a heat exchanger. -/
theorem hex_balanced {G : Net} (wf : WellFormed G) (hd : Directed G) {s : State} (hg : Good G s) (u : ℕ → K) {i : ℕ}
    (hi : i < G.n) (hkk : G.kind i = .hex ∨ G.kind i = .hexNum) :
    into G s u (i, 0) + into G s u (i, 1) = 0 ∧ into G s u (i, 2) + into G s u (i, 3) = 0 := by
  obtain ⟨h4, d0, d1, d2, d3, hch⟩ := hd.hex i hi hkk
  have hkp : G.kind i ≠ .pipe := by rcases hkk with hkk | hkk <;> rw [hkk] <;> simp
  have haddr : ∀ k, s.addr (i, k) = own G (i, k) := fun k => hg.addr (i, k) (fun h => absurd h hkp)
  have hne : (G.part i).channels ≠ [] := (wf.channels i hi).mpr hkk
  have same : ∀ j k, j < 4 → k < 4 →
      (∀ c ∈ (G.part i).channels, (c <:+: G.portName (i, j) ↔ c <:+: G.portName (i, k))) →
      own G (i, j) = own G (i, k) := by
    intro j k hj hk4 hjk
    obtain ⟨c, hc1, hc2⟩ := wf.channel (i, k) ⟨hi, by rw [h4]; exact hk4⟩ hne
    have hck : c <:+: G.portName (i, k) := (hc2 c hc1).mpr rfl
    have := slot_eq_of_channel wf (p := (i, k)) (q := (i, j)) ⟨hi, by rw [h4]; exact hk4⟩ ⟨hi, by rw [h4]; exact hj⟩
      rfl hkk hc1 hck ((hjk c hc1).mpr hck)
    unfold own
    rw [this]
  unfold into
  rw [haddr, haddr, haddr, haddr, same 0 1 (by norm_num) (by norm_num) (fun c hc => (hch c hc).1),
    same 2 3 (by norm_num) (by norm_num) (fun c hc => (hch c hc).2), d0, d1, d2, d3]
  simp [inflow]

/-- **C99** (parts): in an accepted plant, the flows into every part other than storages and branched pipes add up to
zero, if the openings of each valve add up to one, and are not zero for valves inside of pipes. -/
theorem C99_parts_balanced {G : Net} (wf : WellFormed G) (hd : Directed G) {s : State} (h : Accepted G s) {v : ℕ → K}
    (hv : ∀ i, v (pfCell i 0) + v (pfCell i 1) = 1)
    (hv0 : ∀ i, G.kind i = .pipeValve → v (pfCell i 0) ≠ 0 ∧ v (pfCell i 1) ≠ 0) {i : ℕ} (hi : i < G.n)
    (hk : G.kind i ≠ .storage ∧ G.kind i ≠ .branched) :
    ∑ k ∈ range (G.nports i), into G s (evalNet s.net v) (i, k) = 0 := by
  obtain ⟨he, _, hpf, _⟩ := C97_one_pass wf h.1 v
  have hg := analysed_good wf h.1
  have hp := analysed_parts (K := K) wf h.1
  have hc : cnt G s i = 0 := by
    by_contra hne
    exact hk.1 (h.2 i hi (.inr (Nat.pos_of_ne_zero hne)))
  have hsol : ∀ k < G.nports i, isSolved s (i, k) := by
    intro k hkn
    by_contra hn
    have := open_of_unsolved hg.clean hn ⟨hi, hkn⟩
    simp only at this
    omega
  have haddr : G.kind i ≠ .pipe → ∀ k, s.addr (i, k) = own G (i, k) :=
    fun hk k => hg.addr (i, k) (fun h => absurd h hk)
  generalize evalNet s.net v = u at he hpf ⊢
  have hexc : G.kind i = .hex ∨ G.kind i = .hexNum → ∑ k ∈ range (G.nports i), into G s u (i, k) = 0 := by
    intro hkk
    obtain ⟨e0, e1⟩ := hex_balanced wf hd hg u hi hkk
    rw [(hd.hex i hi hkk).1, sum_range_succ, sum_range_succ, sum_range_succ, sum_range_succ, sum_range_zero]
    linear_combination e0 + e1
  unfold into at hexc ⊢
  have two : G.kind i = .pump ∨ G.kind i = .pipe → s.addr (i, 0) = s.addr (i, 1) →
      ∑ k ∈ range (G.nports i), inflow (G.inward (i, k)) (u (s.addr (i, k))) = 0 := by
    intro hk ha
    rw [wf.two i hi hk, sum_range_succ, sum_range_succ, sum_range_zero, ha]
    have := hd.two i hi hk
    cases h0 : G.inward (i, 0) <;> cases h1 : G.inward (i, 1) <;> simp_all [inflow]
  have three : G.nports i = 3 →
      ∑ k ∈ range (G.nports i), inflow (G.inward (i, k)) (u (s.addr (i, k))) =
        inflow (G.inward (i, 0)) (u (s.addr (i, 0))) + inflow (G.inward (i, 1)) (u (s.addr (i, 1))) +
          inflow (G.inward (i, 2)) (u (s.addr (i, 2))) := by
    intro h3
    rw [h3, sum_range_succ, sum_range_succ, sum_range_succ, sum_range_zero, zero_add]
  have hopen : u (pfCell i 0) + u (pfCell i 1) = 1 := by rw [hpf, hpf]; exact hv i
  cases hkk : G.kind i with
  | pump => exact two (.inl hkk) (by rw [haddr (by rw [hkk]; simp), haddr (by rw [hkk]; simp)]; exact own_two (.inl hkk) _ _)
  | pipe => exact two (.inr hkk) (hg.same i 0 1 hkk)
  | storage => exact absurd hkk hk.1
  | branched => exact absurd hkk hk.2
  | connector =>
    have hkp : G.kind i ≠ .pipe := by rw [hkk]; simp
    have h3 := wf.three i hi (by rw [hkk]; simp)
    have ho := hd.others i hi (.inl hkk)
    rw [three h3, ho 0 (by norm_num), ho 1 (by norm_num), ho 2 (by norm_num), haddr hkp, haddr hkp, haddr hkp]
    simpa [inflow] using hp.connector u he i hkk h3 hc
  | mixing =>
    have hkp : G.kind i ≠ .pipe := by rw [hkk]; simp
    have h3 := wf.three i hi (by rw [hkk]; simp)
    obtain ⟨d0, d1, d2⟩ := hd.mixing i hi hkk
    have e0 := hp.valve u he i (.inl hkk) 0 (hsol 0 (by omega)) (by norm_num)
    have e1 := hp.valve u he i (.inl hkk) 1 (hsol 1 (by omega)) (by norm_num)
    rw [three h3, d0, d1, d2, haddr hkp, haddr hkp, haddr hkp, e0, e1]
    simp only [inflow, if_true, Bool.false_eq_true, if_false]
    linear_combination u (own G (i, 2)) * hopen
  | splitting =>
    have hkp : G.kind i ≠ .pipe := by rw [hkk]; simp
    have h3 := wf.three i hi (by rw [hkk]; simp)
    obtain ⟨d0, d1, d2⟩ := hd.splitting i hi hkk
    have e0 := hp.valve u he i (.inr hkk) 0 (hsol 0 (by omega)) (by norm_num)
    have e1 := hp.valve u he i (.inr hkk) 1 (hsol 1 (by omega)) (by norm_num)
    rw [three h3, d0, d1, d2, haddr hkp, haddr hkp, haddr hkp, e0, e1]
    simp only [inflow, if_true, Bool.false_eq_true, if_false]
    linear_combination -u (own G (i, 2)) * hopen
  | pipeValve =>
    have hkp : G.kind i ≠ .pipe := by rw [hkk]; simp
    have h3 := wf.three i hi (by rw [hkk]; simp)
    have ho := hd.others i hi (.inr hkk)
    have hz := hv0 i hkk
    rw [← hpf i 0, ← hpf i 1] at hz
    have e0 := hp.pipeValve u he i hkk hz.1 hz.2 0 2 (hsol 0 (by omega)) (hsol 2 (by omega))
    have e1 := hp.pipeValve u he i hkk hz.1 hz.2 1 2 (hsol 1 (by omega)) (hsol 2 (by omega))
    rw [three h3, ho 0 (by norm_num), ho 1 (by norm_num), ho 2 (by norm_num), haddr hkp, haddr hkp, haddr hkp]
    simp [share] at e0 e1
    simp only [inflow, if_true]
    linear_combination e0 + e1 - u (own G (i, 2)) * hopen
  | hex => exact hexc (.inl hkk)
  | hexNum => exact hexc (.inr hkk)

/-- **C99**, partial: in every closed circuit without storages and branched pipes in which the analysis has handed on
the flow over all connections but one, the flows on the two sides of that connection agree as well. -/
theorem C99_circuit_partial {G : Net} (wf : WellFormed G) (hd : Directed G) (hnm : PlainNames G) {s : State}
    (h : Accepted G s) {v : ℕ → K} (hv : ∀ i, v (pfCell i 0) + v (pfCell i 1) = 1)
    (hv0 : ∀ i, G.kind i = .pipeValve → v (pfCell i 0) ≠ 0 ∧ v (pfCell i 1) ≠ 0) {S : Finset Port}
    (hS : Circuit G S) (hk : ∀ p ∈ S, G.kind p.1 ≠ .storage ∧ G.kind p.1 ≠ .branched) {p₀ q₀ : Port} (hp₀ : p₀ ∈ S)
    (hpq : G.link p₀ = some q₀)
    (hvia : ∀ p ∈ S, ∀ q, G.link p = some q → p ≠ p₀ → p ≠ q₀ → (p, q) ∈ s.via ∨ (q, p) ∈ s.via) :
    into G s (evalNet s.net v) p₀ + into G s (evalNet s.net v) q₀ = 0 := by
  have hg := analysed_good wf h.1
  have htotal : ∑ p ∈ S, into G s (evalNet s.net v) p = 0 := by
    rw [sum_finset_product S (range G.n) (fun i => (range (G.nports i)).filter fun k => (i, k) ∈ S)
      (by
        intro p
        rw [mem_range, mem_filter, mem_range]
        exact ⟨fun hp => ⟨(hS.valid p hp).1, (hS.valid p hp).2, hp⟩, fun hp => hp.2.2⟩)]
    apply sum_eq_zero
    intro i hi
    have hi := mem_range.mp hi
    rw [sum_filter]
    by_cases hne : ∃ k < G.nports i, (i, k) ∈ S
    · obtain ⟨k, hkn, hks⟩ := hne
      by_cases hkk : G.kind i = .hex ∨ G.kind i = .hexNum
      · obtain ⟨e0, e1⟩ := hex_balanced wf hd hg (evalNet s.net v) hi hkk
        obtain ⟨c0, c1⟩ := hS.channel _ hks hkk
        rw [(hd.hex i hi hkk).1, sum_range_succ, sum_range_succ, sum_range_succ, sum_range_succ, sum_range_zero]
        simp only at c0 c1
        by_cases m0 : (i, 0) ∈ S <;> by_cases m2 : (i, 2) ∈ S
        · rw [if_pos m0, if_pos (c0.mp m0), if_pos m2, if_pos (c1.mp m2)]
          linear_combination e0 + e1
        · rw [if_pos m0, if_pos (c0.mp m0), if_neg m2, if_neg (fun m => m2 (c1.mpr m))]
          linear_combination e0
        · rw [if_neg m0, if_neg (fun m => m0 (c0.mpr m)), if_pos m2, if_pos (c1.mp m2)]
          linear_combination e1
        · rw [if_neg m0, if_neg (fun m => m0 (c0.mpr m)), if_neg m2, if_neg (fun m => m2 (c1.mpr m))]
          ring
      · push Not at hkk
        rw [← C99_parts_balanced wf hd h hv hv0 hi (hk _ hks)]
        apply sum_congr rfl
        intro j hj
        rw [if_pos (hS.whole _ hks hkk.1 hkk.2 j (mem_range.mp hj))]
    · apply sum_eq_zero
      intro k hkr
      rw [if_neg fun hm => hne ⟨k, mem_range.mp hkr, hm⟩]
  obtain ⟨q, hqs, h1, hne⟩ := hS.closed p₀ hp₀
  rw [hpq, Option.some.injEq] at h1
  subst h1
  have hrest : ∑ p ∈ (S.erase p₀).erase q₀, into G s (evalNet s.net v) p = 0 := by
    refine sum_involution (fun p _ => (G.link p).getD p) ?_ ?_ ?_ ?_
    · intro p hp
      simp only [mem_erase] at hp
      obtain ⟨hp1, hp2, hp3⟩ := hp
      obtain ⟨q, _, h1, _⟩ := hS.closed p hp3
      rw [h1, Option.getD_some]
      rcases hvia p hp3 q h1 hp2 hp1 with hm | hm
      · exact (C99_handed_partial wf hnm h.1 hm v).2
      · rw [add_comm]; exact (C99_handed_partial wf hnm h.1 hm v).2
    · intro p hp _
      simp only [mem_erase] at hp
      obtain ⟨q, _, h1, h2⟩ := hS.closed p hp.2.2
      rw [h1, Option.getD_some]
      exact h2
    · intro p hp
      simp only [mem_erase] at hp ⊢
      obtain ⟨q, hq, h1, _⟩ := hS.closed p hp.2.2
      rw [h1, Option.getD_some]
      have hb := wf.symm _ _ h1
      refine ⟨?_, ?_, hq⟩
      · rintro rfl
        rw [wf.symm _ _ hpq, Option.some.injEq] at hb
        exact hp.2.1 hb.symm
      · rintro rfl
        rw [hpq, Option.some.injEq] at hb
        exact hp.1 hb.symm
    · intro p hp
      simp only [mem_erase] at hp
      obtain ⟨q, _, h1, _⟩ := hS.closed p hp.2.2
      simp only [h1, Option.getD_some, wf.symm _ _ h1]
  have e1 := add_sum_erase S (into G s (evalNet s.net v)) hp₀
  have e2 := add_sum_erase (S.erase p₀) (into G s (evalNet s.net v)) (mem_erase.mpr ⟨hne, hqs⟩)
  rw [hrest, add_zero] at e2
  rw [← e2, htotal] at e1
  exact e1

/-! ## Two circuits, coupled by a heat exchanger -/

/-- A heat exchanger. -/
def hexPart (name : String) : Part :=
  ⟨.hex, name.toList, ["sup_in".toList, "sup_out".toList, "dmd_in".toList, "dmd_out".toList],
    [true, false, true, false], ["sup".toList, "dmd".toList], true, false⟩

/-- A circuit with pump, splitting valve, connector and pipes on the supply side of a heat exchanger, and a circuit
with pump and pipe on the demand side. -/
def twoSides (name : String) : Net := plant
  [twoPorts .pump, ⟨.splitting, "valve".toList, ["A".toList, "B".toList, "AB".toList], [false, false, true], [], false, false⟩,
    twoPorts .pipe, hexPart name, inwards .connector 3, twoPorts .pipe, twoPorts .pipe, twoPorts .pump]
  [((0, 1), (6, 0)), ((6, 1), (1, 2)), ((1, 0), (2, 0)), ((2, 1), (3, 0)), ((3, 1), (4, 0)), ((1, 1), (4, 1)),
    ((4, 2), (0, 0)), ((7, 1), (5, 0)), ((5, 1), (3, 2)), ((3, 3), (7, 0))]

theorem twoSides_wellFormed : WellFormed (twoSides "hex") := plant_wellFormed (by decide +kernel)

/-- The conditions on the directions of flows as a computation. -/
def checkDirections (G : Net) : Bool :=
  decide (∀ i < G.n, G.kind i = .pump ∨ G.kind i = .pipe → G.inward (i, 0) ≠ G.inward (i, 1)) &&
  decide (∀ i < G.n, G.kind i = .mixing → G.inward (i, 0) = true ∧ G.inward (i, 1) = true ∧ G.inward (i, 2) = false) &&
  decide (∀ i < G.n, G.kind i = .splitting → G.inward (i, 0) = false ∧ G.inward (i, 1) = false ∧ G.inward (i, 2) = true) &&
  decide (∀ i < G.n, G.kind i = .connector ∨ G.kind i = .pipeValve → ∀ k : ℕ, k < 3 → G.inward (i, k) = true) &&
  decide (∀ i < G.n, (G.kind i = .hex ∨ G.kind i = .hexNum) → G.nports i = 4 ∧ G.inward (i, 0) = true ∧
    G.inward (i, 1) = false ∧ G.inward (i, 2) = true ∧ G.inward (i, 3) = false ∧
    ∀ c ∈ (G.part i).channels, (c <:+: G.portName (i, 0) ↔ c <:+: G.portName (i, 1)) ∧
      (c <:+: G.portName (i, 2) ↔ c <:+: G.portName (i, 3))) &&
  decide (∀ i < G.n, ∀ c ∈ (G.part i).channels, ';' ∉ c ∧ ¬ c <:+: (G.part i).name)

theorem directions {G : Net} (h : checkDirections G = true) : Directed G ∧ PlainNames G := by
  unfold checkDirections at h
  simp only [Bool.and_eq_true, decide_eq_true_eq] at h
  obtain ⟨⟨⟨⟨⟨h1, h2⟩, h3⟩, h4⟩, h5⟩, h6⟩ := h
  exact ⟨⟨h1, h2, h3, h4, h5⟩, h6⟩

/-- The ports on the supply side. -/
def supplySide : Finset Port :=
  {(0, 0), (0, 1), (1, 0), (1, 1), (1, 2), (2, 0), (2, 1), (3, 0), (3, 1), (4, 0), (4, 1), (4, 2), (6, 0), (6, 1)}

/-- The supply side meets the hypotheses with the connection from the valve to the connector left. -/
example : ∃ s, Accepted (twoSides "hex") s ∧ Directed (twoSides "hex") ∧ PlainNames (twoSides "hex") ∧
    Circuit (twoSides "hex") supplySide ∧ (∀ p ∈ supplySide, (twoSides "hex").kind p.1 ≠ .storage ∧
      (twoSides "hex").kind p.1 ≠ .branched) ∧ (twoSides "hex").link (1, 1) = some (4, 1) ∧
    ∀ p ∈ supplySide, ∀ q, (twoSides "hex").link p = some q → p ≠ (1, 1) → p ≠ (4, 1) →
      (p, q) ∈ s.via ∨ (q, p) ∈ s.via := by
  obtain ⟨s, h1, h2, h3⟩ := succeeds_sound (G := twoSides "hex") (m := 100) (o₁ := []) (o₂ := [])
    (P := fun s => Passes (twoSides "hex") s ∧ ∀ p ∈ supplySide, ∀ q ∈ supplySide, (twoSides "hex").link p = some q →
      p ≠ (1, 1) → p ≠ (4, 1) → (p, q) ∈ s.via ∨ (q, p) ∈ s.via) (by decide +kernel)
  have hc : Circuit (twoSides "hex") supplySide := by
    refine ⟨?_, ?_, ?_, ?_⟩
    · unfold Valid; decide +kernel
    · decide +kernel
    · decide +kernel
    · decide +kernel
  refine ⟨s, ⟨h1, h2⟩, (directions (by decide +kernel)).1, (directions (by decide +kernel)).2, hc, by decide +kernel,
    by decide +kernel, ?_⟩
  intro p hp q hq
  obtain ⟨q', hq', h4, _⟩ := hc.closed p hp
  rw [hq, Option.some.injEq] at h4
  subst h4
  exact h3 p hp q hq' hq

/-- Pump and two valves inside of pipes, one of which splits the flow and one of which joins it. -/
def twoValves : Net := plant [twoPorts .pump, inwards .pipeValve 3, inwards .pipeValve 3]
  [((0, 1), (1, 2)), ((1, 0), (2, 0)), ((1, 1), (2, 1)), ((2, 2), (0, 0))]

/-- **C99** is false of the code: two valves in the same circuit with openings of 25 % and 50 % are accepted.  The
pump delivers 1 kg/s, but 2 kg/s enter the first valve. -/
theorem C99_fails_two_valves : WellFormed twoValves ∧ Directed twoValves ∧ ∃ s, Accepted twoValves s ∧
    ∃ v : ℕ → ℚ, (∀ i, v (pfCell i 0) + v (pfCell i 1) = 1) ∧ (∀ i, v (pfCell i 0) ≠ 0 ∧ v (pfCell i 1) ≠ 0) ∧
      twoValves.link (0, 1) = some (1, 2) ∧ into twoValves s (evalNet s.net v) (0, 1) = -1 ∧
      into twoValves s (evalNet s.net v) (1, 2) = 2 := by
  refine ⟨plant_wellFormed (by decide +kernel), (directions (by decide +kernel)).1, ?_⟩
  obtain ⟨s, h1, h2, h3, h4⟩ := succeeds_sound (G := twoValves) (m := 100) (o₁ := []) (o₂ := [])
    (P := fun s => Passes twoValves s ∧
      into twoValves s (evalNet s.net fun c : ℕ => if c = pfCell 1 0 then (1 / 4 : ℚ) else if c = pfCell 1 1 then 3 / 4
        else if c = own twoValves (0, 0) then 1 else 1 / 2) (0, 1) = -1 ∧
      into twoValves s (evalNet s.net fun c : ℕ => if c = pfCell 1 0 then (1 / 4 : ℚ) else if c = pfCell 1 1 then 3 / 4
        else if c = own twoValves (0, 0) then 1 else 1 / 2) (1, 2) = 2) (by decide +kernel)
  have hne : ∀ i k, pfCell i k ≠ own twoValves (0, 0) := by
    intro i k; unfold pfCell own dmCell; omega
  have hp : ∀ i k j l, pfCell i k = pfCell j l ↔ i = j ∧ k = l := by
    intro i k j l
    unfold pfCell
    rw [show (2 * Nat.pair i k + 1 = 2 * Nat.pair j l + 1) ↔ Nat.pair i k = Nat.pair j l by omega]
    exact Nat.pair_eq_pair
  refine ⟨s, ⟨h1, h2⟩, _, ?_, ?_, by decide +kernel, h3, h4⟩
  · intro i
    simp only [hp, hne]
    by_cases hi : i = 1 <;> simp [hi] <;> norm_num
  · intro i
    simp only [hp, hne]
    by_cases hi : i = 1 <;> simp [hi]

/-! ## C100: names -/

/-- **C100** is false of the code: the plant with the heat exchanger called "hex" is accepted, with the heat exchanger
called "dmd_hex" it is refused, as if there were two pumps in one circuit. -/
theorem C100_fails_name : (∃ s, Accepted (twoSides "hex") s) ∧ Analysed (twoSides "dmd_hex") (.error .twoPumps) := by
  refine ⟨?_, fails_sound (m := 100) (o₁ := []) (o₂ := []) (by decide +kernel)⟩
  obtain ⟨s, h1, h2⟩ := succeeds_sound (G := twoSides "hex") (m := 100) (o₁ := []) (o₂ := [])
    (P := fun s => Passes (twoSides "hex") s) (by decide +kernel)
  exact ⟨s, h1, h2⟩

/-- **C100**, partial: as long as no part has the name of one of its flow channels in its name, the outcome of the
analysis, whether it is an error or the list of routines, does not depend on the names of the parts. -/
theorem C100_names_partial {G : Net} (wf : WellFormed G) {ν : ℕ → List Char} (h : PlainNames G)
    (h' : PlainNames (rename G ν)) (r : Except Err State) : Analysed G r ↔ Analysed (rename G ν) r :=
  analysed_rename wf h h' r

/-- The plant with the heat exchanger under another name. -/
example : WellFormed (twoSides "hex") ∧ PlainNames (twoSides "hex") ∧
    PlainNames (rename (twoSides "hex") fun i => if i = 3 then "district heat".toList else "x".toList) ∧
    ((rename (twoSides "hex") fun i => if i = 3 then "district heat".toList else "x".toList).part 3).name ≠
      ((twoSides "hex").part 3).name :=
  ⟨twoSides_wellFormed, (directions (by decide +kernel)).2, (directions (by decide +kernel)).2, by decide +kernel⟩

/-! ## C101: order of the open parts -/

/-- **C101**, partial: with at most one storage or branched pipe, the outcome of the analysis does not depend on the
order in which open parts are taken up. -/
theorem C101_unique_partial {G : Net} (h1 : OneJunction G) {r r' : Except Err State} (h : Analysed G r)
    (h' : Analysed G r') : r = r' :=
  analysed_unique h1 h h'

/-- The plant with two circuits. -/
example : OneJunction storageCircuits ∧ (∃ i, i < storageCircuits.n ∧ storageCircuits.kind i = .storage) ∧
    ∃ r, Analysed storageCircuits r := by
  refine ⟨?_, by decide +kernel, ?_⟩
  · unfold OneJunction
    have : ∀ i < storageCircuits.n, ∀ j < storageCircuits.n,
        (storageCircuits.kind i = .storage ∨ storageCircuits.kind i = .branched) →
        (storageCircuits.kind j = .storage ∨ storageCircuits.kind j = .branched) → i = j := by decide +kernel
    exact fun i j hi hj => this i hi j hj
  · obtain ⟨s, h1, _⟩ := succeeds_sound (G := storageCircuits) (m := 100) (o₁ := []) (o₂ := [])
      (P := fun s => Passes storageCircuits s) (by decide +kernel)
    exact ⟨_, h1⟩

/-- Two pumps, each followed by a branched pipe, which lead to the ports A and AB of a valve. -/
def race : Net := plant [twoPorts .pump, twoPorts .pump, inwards .branched 2, inwards .branched 2,
    ⟨.splitting, "valve".toList, ["A".toList, "B".toList, "AB".toList], [false, false, true], [], false, false⟩]
  [((0, 1), (2, 0)), ((1, 1), (3, 0)), ((2, 1), (4, 0)), ((3, 1), (4, 2))]

/-- **C101** is false of the code: whether the plant is accepted depends on the order of the set of open parts, which
changes from one Python process to the next. -/
theorem C101_fails_order : WellFormed race ∧ (∃ s, Accepted race s) ∧ Analysed race (.error .valve) := by
  refine ⟨plant_wellFormed (by decide +kernel), ?_, fails_sound (m := 100) (o₁ := [2]) (o₂ := []) (by decide +kernel)⟩
  obtain ⟨s, h1, h2⟩ := succeeds_sound (G := race) (m := 100) (o₁ := [3]) (o₂ := [])
    (P := fun s => Passes race s) (by decide +kernel)
  exact ⟨s, h1, h2⟩

end Verif.Topology
