import Verif.Lemmas.Topology
import Mathlib.Tactic.NormNum
import Mathlib.Tactic.Push

/-!
# The flow net that the topology analysis collects
-/

namespace Verif.Topology

open Verif.FlowNet
open Verif.Topology.Spec
open Verif.FlowNet.Spec (Causal sources Holds)

variable {G : Net} {root : ℕ} {sub : Bool}

/-! ## Cells -/

theorem dmCell_inj {i j a b : ℕ} (h : dmCell i a = dmCell j b) : i = j ∧ a = b := by
  unfold dmCell at h
  exact Nat.pair_eq_pair.mp (by omega)

theorem dmCell_ne_pfCell (i j a b : ℕ) : dmCell i a ≠ pfCell j b := by
  unfold dmCell pfCell; omega

theorem own_ne_pfCell (p : Port) (i k : ℕ) : own G p ≠ pfCell i k := dmCell_ne_pfCell _ _ _ _

theorem own_part {p q : Port} (h : own G p = own G q) : p.1 = q.1 := (dmCell_inj h).1

theorem own_slot {p q : Port} (h : own G p = own G q) : slot G p = slot G q := (dmCell_inj h).2

theorem lastChannel_mem {l : List (List Char)} {s c : List Char} (h : lastChannel l s = some c) :
    c ∈ l ∧ c <:+: s := by
  unfold lastChannel at h
  have := List.mem_of_getLast? h
  simpa using this

/-- The channel found in a name with one channel. -/
theorem lastChannel_unique {l : List (List Char)} {s c : List Char} (hc : c ∈ l)
    (h : ∀ d ∈ l, d <:+: s ↔ d = c) : lastChannel l s = some c := by
  cases hl : lastChannel l s with
  | none =>
    unfold lastChannel at hl
    rw [List.getLast?_eq_none_iff, List.filter_eq_nil_iff] at hl
    exact absurd (by simpa using (h c hc).mpr rfl) (hl c hc)
  | some d =>
    obtain ⟨h1, h2⟩ := lastChannel_mem hl
    rw [(h d h1).mp h2]

theorem hex_slot (wf : WellFormed G) {p : Port} (hp : Valid G p) (hk : G.kind p.1 = .hex ∨ G.kind p.1 = .hexNum)
    {c : List Char} (hc : c ∈ (G.part p.1).channels) (hcp : c <:+: G.portName p) :
    (G.part p.1).channels.idxOf? c = some (slot G p) := by
  obtain ⟨d, hd, hu⟩ := wf.channel p hp ((wf.channels p.1 hp.1).mpr hk)
  have hcd := (hu c hc).mp hcp
  subst hcd
  have hl := lastChannel_unique hd hu
  have hi : ∃ x, (G.part p.1).channels.idxOf? c = some x := by
    rw [← Option.isSome_iff_exists, List.isSome_idxOf?]; exact hd
  obtain ⟨x, hx⟩ := hi
  rw [hx]
  unfold slot
  rcases hk with hk | hk <;> rw [hk] <;> simp only [hl, Option.getD_some, hx]

theorem channel_eq_of_slot (wf : WellFormed G) {p q : Port} (hp : Valid G p) (hq : Valid G q) (hpq : q.1 = p.1)
    (hk : G.kind p.1 = .hex ∨ G.kind p.1 = .hexNum) {c : List Char} (hc : c ∈ (G.part p.1).channels)
    (hcp : c <:+: G.portName p) (hs : slot G q = slot G p) : c <:+: G.portName q := by
  obtain ⟨d, hd, hu⟩ := wf.channel q hq (by rw [hpq]; exact (wf.channels p.1 hp.1).mpr hk)
  have hdq := (hu d hd).mpr rfl
  have h1 := hex_slot wf hq (by rw [hpq]; exact hk) hd hdq
  have h2 := hex_slot wf hp hk hc hcp
  rw [hpq, hs] at h1
  have : c = d := by
    rw [hpq] at hd
    have e1 := List.of_findIdx?_eq_some (p := (· == c)) h2
    have e2 := List.of_findIdx?_eq_some (p := (· == d)) h1
    cases hx : (G.part p.1).channels[slot G p]? with
    | none => rw [hx] at e1; simp at e1
    | some x =>
      rw [hx] at e1 e2
      simp only [beq_iff_eq] at e1 e2
      rw [← e1, ← e2]
  rw [this]; exact hdq

theorem slot_eq_of_channel (wf : WellFormed G) {p q : Port} (hp : Valid G p) (hq : Valid G q) (hpq : q.1 = p.1)
    (hk : G.kind p.1 = .hex ∨ G.kind p.1 = .hexNum) {c : List Char} (hc : c ∈ (G.part p.1).channels)
    (hcp : c <:+: G.portName p) (hcq : c <:+: G.portName q) : slot G q = slot G p := by
  have h1 := hex_slot wf hq (by rw [hpq]; exact hk) (by rw [hpq]; exact hc) hcq
  have h2 := hex_slot wf hp hk hc hcp
  rw [hpq, h2] at h1
  simpa using h1.symm

/-! ## What a part answers -/

/-- No solved port has the cell of `p`. -/
def Fresh (G : Net) (s : State) (p : Port) : Prop := ∀ q, isSolved s q → own G q ≠ own G p

/-- The routine from ports of the same part. -/
inductive Compute (G : Net) (s : State) (p : Port) : Op → Prop
  | connector {a rest} : G.kind p.1 = .connector → cnt G s p.1 = 1 →
      (((List.range (G.nports p.1)).filter fun k => k ≠ p.2).map fun k => s.addr (p.1, k)) = a :: rest →
      Compute G s p (.negSum a rest)
  | storage {a rest} : G.kind p.1 = .storage ∨ G.kind p.1 = .branched → cnt G s p.1 = 1 →
      ((s.solved p.1).map fun k => s.addr (p.1, k)) = a :: rest → Compute G s p (.negSum a rest)
  | valve : G.kind p.1 = .mixing ∨ G.kind p.1 = .splitting → 2 ∈ s.solved p.1 →
      Compute G s p (.mul (s.addr (p.1, 2)) (pfCell p.1 p.2))
  | negMul : G.kind p.1 = .pipeValve → p.2 ≠ 2 → 2 ∈ s.solved p.1 →
      Compute G s p (.negMul (s.addr (p.1, 2)) (pfCell p.1 p.2))
  | negDiv {k} : G.kind p.1 = .pipeValve → p.2 = 2 → k ≠ 2 → k ∈ s.solved p.1 →
      Compute G s p (.negDiv (s.addr (p.1, k)) (pfCell p.1 k))
  | mulDiv {k} : G.kind p.1 = .pipeValve → p.2 ≠ 2 → k ≠ 2 → k ∈ s.solved p.1 →
      Compute G s p (.mulDiv (s.addr (p.1, k)) (pfCell p.1 p.2) (pfCell p.1 k))

/-- All the answers of parts. -/
inductive Ans (G : Net) (s : State) (p : Port) (parent : Option Port) : Answer → Prop
  | reenter : Ans G s p parent ⟨none, none, false, false⟩
  | pump : G.kind p.1 = .pump → Ans G s p parent ⟨none, none, true, false⟩
  | pipe {k} : G.kind p.1 = .pipe → isSolved s (p.1, k) → Ans G s p parent ⟨none, none, true, false⟩
  | hexNum {k} : G.kind p.1 = .hexNum → isSolved s (p.1, k) → own G (p.1, k) = own G p →
      Ans G s p parent ⟨none, none, true, false⟩
  | view {q} : G.kind p.1 = .pipe → s.solved p.1 = [] → parent = some q → G.inward p ≠ G.inward q →
      Ans G s p parent ⟨none, some (s.addr q), true, true⟩
  | copy {k} : G.kind p.1 = .hex → isSolved s (p.1, k) → own G (p.1, k) = own G p →
      Ans G s p parent ⟨some ⟨s.addr p, .pass (s.addr (p.1, k))⟩, none, true, false⟩
  | handed {q} : G.kind p.1 ≠ .pump → (G.kind p.1 = .connector → cnt G s p.1 ≠ 1) →
      (G.kind p.1 = .pipeValve → s.solved p.1 = []) → Fresh G s p → (G.kind p.1 = .pipe → s.solved p.1 = []) →
      ((G.kind p.1 = .mixing ∨ G.kind p.1 = .splitting) → p.2 = 2) → parent = some q →
      Ans G s p parent ⟨some (passOn (s.addr p) (s.addr q) (G.inward p == G.inward q)), none, true, true⟩
  | compute {op} : Fresh G s p → Compute G s p op → Ans G s p parent ⟨some ⟨s.addr p, op⟩, none, true, false⟩

/-- For most parts the cells of the ports are different. -/
theorem fresh_of_slot {s : State} {p : Port} (hn : ¬ isSolved s p)
    (h : ∀ k, slot G (p.1, k) = k) : Fresh G s p := by
  intro q hq he
  have h1 := own_part he
  have h2 := own_slot he
  have h3 : slot G q = q.2 := by
    have := h q.2
    rw [← h1] at this
    exact this
  have h4 : slot G p = p.2 := h p.2
  rw [h3, h4] at h2
  apply hn
  rw [show p = q from Prod.ext h1.symm h2.symm]
  exact hq

theorem solved_nil_of_cnt {s : State} {i n : ℕ} (hn : G.nports i = n) (hc : cnt G s i = n)
    (h0 : 0 < n) : s.solved i = [] := by
  unfold cnt at hc
  rw [hn] at hc
  exact List.length_eq_zero_iff.mp (by omega)

theorem solved_ne_nil_of_cnt {s : State} {i n : ℕ} (hn : G.nports i = n) (hc : cnt G s i ≠ n) :
    s.solved i ≠ [] := by
  intro h
  apply hc
  unfold cnt
  rw [h, hn]; simp

/-- Ports of valves are solved from AB. -/
def ValveOK (G : Net) (s : State) : Prop :=
  ∀ i, (G.kind i = .mixing ∨ G.kind i = .splitting) → s.solved i ≠ [] → 2 ∈ s.solved i

theorem pass_ok {s : State} {p : Port} {parent : Option Port} {a : Answer} (h : pass G s p parent = .ok a)
    (hf : Fresh G s p) (hk : G.kind p.1 ≠ .pipe ∧ G.kind p.1 ≠ .pump)
    (hv : (G.kind p.1 = .mixing ∨ G.kind p.1 = .splitting) → p.2 = 2)
    (hc : G.kind p.1 = .connector → cnt G s p.1 ≠ 1) (hpv : G.kind p.1 = .pipeValve → s.solved p.1 = []) :
    Ans G s p parent a := by
  cases parent with
  | none => simp [pass] at h
  | some q =>
    simp only [pass, Except.ok.injEq] at h
    subst h
    exact .handed hk.2 hc hpv hf (fun h => absurd h hk.1) hv rfl

theorem sameChannel_some {s : State} {i k : ℕ} {c : List Char} (h : sameChannel G s i c = some k) :
    k ∈ s.solved i ∧ c <:+: G.portName (i, k) := by
  unfold sameChannel at h
  have := List.mem_of_getLast? h
  simpa using this

theorem sameChannel_none {s : State} {i k : ℕ} {c : List Char} (h : sameChannel G s i c = none)
    (hk : k ∈ s.solved i) : ¬ c <:+: G.portName (i, k) := by
  unfold sameChannel at h
  rw [List.getLast?_eq_none_iff, List.filter_eq_nil_iff] at h
  simpa using h k hk

theorem hex_fresh (wf : WellFormed G) {s : State} (hs : Clean G s) {p : Port} (hv : Valid G p)
    (hk : G.kind p.1 = .hex ∨ G.kind p.1 = .hexNum) {c : List Char} (hc : c ∈ (G.part p.1).channels)
    (hcp : c <:+: G.portName p) (h : sameChannel G s p.1 c = none) : Fresh G s p := by
  intro q hq he
  have h1 := own_part he
  have h2 := channel_eq_of_slot wf hv (hs.valid q hq) h1 hk hc hcp (own_slot he)
  have hq' : q.2 ∈ s.solved p.1 := by
    unfold isSolved at hq; rw [h1] at hq; exact hq
  apply sameChannel_none h hq'
  rw [← h1]; exact h2

theorem hex_own (wf : WellFormed G) {s : State} (hs : Clean G s) {p : Port} (hv : Valid G p)
    (hk : G.kind p.1 = .hex ∨ G.kind p.1 = .hexNum) {c : List Char} (hc : c ∈ (G.part p.1).channels)
    (hcp : c <:+: G.portName p) {k : ℕ} (h : sameChannel G s p.1 c = some k) : own G (p.1, k) = own G p := by
  obtain ⟨h1, h2⟩ := sameChannel_some h
  have := slot_eq_of_channel wf hv (hs.valid (p.1, k) h1) rfl hk hc hcp h2
  unfold own
  rw [this]

theorem answer (wf : WellFormed G) {s : State} (hs : Clean G s) (hval : ValveOK G s) {f : Frame} {k : ℕ}
    {side : Side} {a : Answer} (hv : Valid G (f.part, k)) (hn : ¬ isSolved s (f.part, k))
    (hch : f.parent ≠ none → (G.part f.part).channels ≠ [] → f.channel ∈ (G.part f.part).channels)
    (hcp : (G.part f.part).channels ≠ [] → f.channel <:+: G.portName (f.part, k))
    (h : flowRoutine G root s f side k = .ok a) : Ans G s (f.part, k) f.parent a := by
  unfold flowRoutine at h
  cases hk : G.kind f.part with
  | pump =>
    rw [hk] at h
    simp only [pumpRoutine] at h
    split at h
    · simp only [Except.ok.injEq] at h; subst h; exact .pump hk
    · split_ifs at h
      simp only [Except.ok.injEq] at h; subst h; exact .reenter
  | pipe =>
    rw [hk] at h
    simp only [pipeRoutine] at h
    have h2 := wf.two f.part hv.1 (.inr hk)
    split at h
    · simp at h
    · rename_i q hq
      by_cases hc : cnt G s f.part = 2
      · rw [if_pos hc] at h
        have hnil := solved_nil_of_cnt h2 hc (by norm_num)
        by_cases hi : G.inward (f.part, k) ≠ G.inward q
        · rw [if_pos hi] at h
          simp only [Except.ok.injEq] at h; subst h
          exact .view hk hnil hq hi
        · rw [if_neg hi] at h
          simp only [Except.ok.injEq] at h; subst h
          push Not at hi
          have hfr : Fresh G s (f.part, k) := by
            intro q' hq' he
            have := own_part he
            unfold isSolved at hq'
            rw [this] at hq'
            simp only at hq'
            rw [hnil] at hq'
            simp at hq'
          have := Ans.handed (parent := f.parent) (by simp only; rw [hk]; simp) (by simp only; rw [hk]; simp)
            (by simp only; rw [hk]; simp) hfr (fun _ => hnil)
            (by simp only; rw [hk]; simp) hq
          simpa [hi, passOn] using this
      · rw [if_neg hc] at h
        simp only [Except.ok.injEq] at h; subst h
        have hne := solved_ne_nil_of_cnt h2 hc
        obtain ⟨j, hj⟩ := List.exists_mem_of_ne_nil _ hne
        exact .pipe (k := j) hk hj
  | storage =>
    rw [hk] at h
    have hfr : Fresh G s (f.part, k) := fresh_of_slot hn (fun j => by simp only [slot]; rw [hk])
    simp only [storageAnswer] at h
    split_ifs at h with hc
    · unfold balance at h
      split at h
      · rename_i a' rest hl
        simp only [Except.ok.injEq] at h; subst h
        exact .compute hfr (.storage (.inl hk) hc.1 hl)
      · simp at h
    · exact pass_ok h hfr (by simp only; rw [hk]; simp) (by simp only; rw [hk]; simp) (by simp only; rw [hk]; simp)
        (by simp only; rw [hk]; simp)
  | branched =>
    rw [hk] at h
    have hfr : Fresh G s (f.part, k) := fresh_of_slot hn (fun j => by simp only [slot]; rw [hk])
    simp only [storageAnswer] at h
    split_ifs at h with hc
    · unfold balance at h
      split at h
      · rename_i a' rest hl
        simp only [Except.ok.injEq] at h; subst h
        exact .compute hfr (.storage (.inr hk) hc.1 hl)
      · simp at h
    · exact pass_ok h hfr (by simp only; rw [hk]; simp) (by simp only; rw [hk]; simp) (by simp only; rw [hk]; simp)
        (by simp only; rw [hk]; simp)
  | connector =>
    rw [hk] at h
    have hfr : Fresh G s (f.part, k) := fresh_of_slot hn (fun j => by simp only [slot]; rw [hk])
    simp only [connectorAnswer] at h
    split_ifs at h with hc
    · unfold balance at h
      split at h
      · rename_i a' rest hl
        simp only [Except.ok.injEq] at h; subst h
        exact .compute hfr (.connector hk hc hl)
      · simp at h
    · exact pass_ok h hfr (by simp only; rw [hk]; simp) (by simp only; rw [hk]; simp) (fun _ => hc)
        (by simp only; rw [hk]; simp)
  | mixing =>
    rw [hk] at h
    have hfr : Fresh G s (f.part, k) := fresh_of_slot hn (fun j => by simp only [slot]; rw [hk])
    have h3 := wf.three f.part hv.1 (by rw [hk]; simp)
    simp only [valveAnswer] at h
    split at h
    · simp at h
    · rename_i q hq
      by_cases hc : cnt G s f.part = 3
      · rw [if_pos hc] at h
        split_ifs at h with hb
        rw [hq]
        exact pass_ok h hfr (by simp only; rw [hk]; simp) (fun _ => hb.2.1)
          (by simp only; rw [hk]; simp) (by simp only; rw [hk]; simp)
      · rw [if_neg hc] at h
        simp only [Except.ok.injEq] at h; subst h
        exact .compute hfr (.valve (.inl hk) (hval _ (.inl hk) (solved_ne_nil_of_cnt h3 hc)))
  | splitting =>
    rw [hk] at h
    have hfr : Fresh G s (f.part, k) := fresh_of_slot hn (fun j => by simp only [slot]; rw [hk])
    have h3 := wf.three f.part hv.1 (by rw [hk]; simp)
    simp only [valveAnswer] at h
    split at h
    · simp at h
    · rename_i q hq
      by_cases hc : cnt G s f.part = 3
      · rw [if_pos hc] at h
        split_ifs at h with hb
        rw [hq]
        exact pass_ok h hfr (by simp only; rw [hk]; simp) (fun _ => hb.2.1)
          (by simp only; rw [hk]; simp) (by simp only; rw [hk]; simp)
      · rw [if_neg hc] at h
        simp only [Except.ok.injEq] at h; subst h
        exact .compute hfr (.valve (.inr hk) (hval _ (.inr hk) (solved_ne_nil_of_cnt h3 hc)))
  | pipeValve =>
    rw [hk] at h
    have hfr : Fresh G s (f.part, k) := fresh_of_slot hn (fun j => by simp only [slot]; rw [hk])
    have h3 := wf.three f.part hv.1 (by rw [hk]; simp)
    simp only [pipeValveAnswer] at h
    split at h
    · simp at h
    · rename_i q hq
      by_cases hc : cnt G s f.part = 3
      · rw [if_pos hc] at h
        rw [hq]
        exact pass_ok h hfr (by simp only; rw [hk]; simp) (by simp only; rw [hk]; simp) (by simp only; rw [hk]; simp)
          (fun _ => solved_nil_of_cnt h3 hc (by norm_num))
      · rw [if_neg hc] at h
        have hne := solved_ne_nil_of_cnt h3 hc
        by_cases h2 : k ≠ 2 ∧ 2 ∈ s.solved f.part
        · rw [if_pos h2] at h
          simp only [Except.ok.injEq] at h; subst h
          exact .compute hfr (.negMul hk h2.1 h2.2)
        · rw [if_neg h2] at h
          have hno2 : 2 ∉ s.solved f.part := by
            intro hm
            by_cases hk2 : k = 2
            · apply hn; unfold isSolved; rw [hk2]; exact hm
            · exact h2 ⟨hk2, hm⟩
          obtain ⟨j, hj⟩ := List.exists_mem_of_ne_nil _ hne
          have hj3 : j < 3 := by rw [← h3]; exact (hs.valid (f.part, j) hj).2
          have hj2 : j ≠ 2 := by rintro rfl; exact hno2 hj
          have hex : ∃ j', (if 0 ∈ s.solved f.part then 0 else 1) = j' ∧ j' ≠ 2 ∧ j' ∈ s.solved f.part := by
            by_cases h0 : 0 ∈ s.solved f.part
            · exact ⟨0, by rw [if_pos h0], by norm_num, h0⟩
            · have : j ≠ 0 := by rintro rfl; exact h0 hj
              exact ⟨1, by rw [if_neg h0], by norm_num, by rwa [show (1 : ℕ) = j by omega]⟩
          obtain ⟨j', he, hj2', hjs⟩ := hex
          rw [he] at h
          by_cases hk2 : k = 2
          · rw [if_pos hk2] at h
            simp only [Except.ok.injEq] at h; subst h
            exact .compute hfr (.negDiv hk hk2 hj2' hjs)
          · rw [if_neg hk2] at h
            simp only [Except.ok.injEq] at h; subst h
            exact .compute hfr (.mulDiv hk hk2 hj2' hjs)
  | hex =>
    rw [hk] at h
    simp only [hexAnswer] at h
    split at h
    · simp at h
    · rename_i q hq
      have hne : (G.part f.part).channels ≠ [] := (wf.channels _ hv.1).mpr (.inl hk)
      have hc := hch (by rw [hq]; simp) hne
      split at h
      · rename_i j hj
        simp only [Except.ok.injEq] at h; subst h
        exact .copy hk (sameChannel_some hj).1 (hex_own wf hs hv (.inl hk) hc (hcp hne) hj)
      · rename_i hj
        rw [hq]
        exact pass_ok h (hex_fresh wf hs hv (.inl hk) hc (hcp hne) hj) (by simp only; rw [hk]; simp)
          (by simp only; rw [hk]; simp) (by simp only; rw [hk]; simp) (by simp only; rw [hk]; simp)
  | hexNum =>
    rw [hk] at h
    simp only [hexNumAnswer] at h
    split at h
    · simp at h
    · rename_i q hq
      have hne : (G.part f.part).channels ≠ [] := (wf.channels _ hv.1).mpr (.inr hk)
      have hc := hch (by rw [hq]; simp) hne
      split at h
      · rename_i j hj
        simp only [Except.ok.injEq] at h; subst h
        exact .hexNum hk (sameChannel_some hj).1 (hex_own wf hs hv (.inr hk) hc (hcp hne) hj)
      · rename_i hj
        rw [hq]
        exact pass_ok h (hex_fresh wf hs hv (.inr hk) hc (hcp hne) hj) (by simp only; rw [hk]; simp)
          (by simp only; rw [hk]; simp) (by simp only; rw [hk]; simp) (by simp only; rw [hk]; simp)

end Verif.Topology
