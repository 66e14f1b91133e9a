import Verif.Lemmas.Registry
import Mathlib.Data.List.Perm.Subperm
import Mathlib.Tactic.FinCases
import Mathlib.Data.Fintype.Basic

/-!
# C11–C15, C60: declaring and building a network

All statements are about arbitrary user scripts: lists of calls of `add_part`, `add_open_port`,
`connect_ports` and `add_control`, followed by building the environment.
-/

namespace Verif.Registry

open Spec

/-! ## C11 -/

/-- **C11** (first half): whatever is declared, no two registered parts have the same name. -/
theorem C11_part_names_unique (script : List Call) :
    ((declareAll .empty script).parts.map Prod.fst).Nodup := (script_nodup script).1

/-- **C11** (second half, partial): a part is refused exactly if its name is taken, and a refused part
leaves the registered parts, open ports, connections and controls unchanged.  Missing: the setting
`store_results` of the first part *is* overwritten, see `C11_fails_store_results`. -/
theorem C11_rejected_part_partial (script : List Call) (name : String) (ports : List String) (store : ℕ) :
    let p := declareAll .empty script
    let r := declare p (.addPart name ports store)
    (r.2 = some (.alreadyAdded name) ↔ name ∈ p.parts.map Prod.fst) ∧
      (name ∈ p.parts.map Prod.fst →
        r.1.parts = p.parts ∧ r.1.opens = p.opens ∧ r.1.conns = p.conns ∧ r.1.ctrls = p.ctrls) ∧
      (name ∉ p.parts.map Prod.fst → r.2 = none ∧ r.1.parts = p.parts ++ [(name, ports)]) := by
  simp only [declare]
  split_ifs with h <;> simp [h]

/-- The setting of the first part is lost although the second part is refused. -/
theorem C11_fails_store_results :
    let p := declareAll .empty [.addPart "pipe" ["in", "out"] 1]
    let r := declare p (.addPart "pipe" ["a"] 0)
    r.2 = some (.alreadyAdded "pipe") ∧ dictGet "pipe" p.store = some 1 ∧
      dictGet "pipe" r.1.store = some 0 := by decide +kernel

/-! ## C12 -/

/-- Everything the numbering relies on. -/
private structure Numbered (e : Env) (extra : ℕ) : Prop where
  ids : e.parts.flatMap PartRec.ids ++ e.bcs.map Prod.snd = List.range e.numPorts
  all : e.numAll = e.numPorts
  plinks : e.plinks.length = e.numPorts + extra
  lens : ∀ r ∈ e.parts, r.ids.length = r.ports.length

private theorem addPartPorts_num (name : String) : ∀ (qs : List String) (e : Env),
    (addPartPorts name qs e).2 = List.range' e.numPorts qs.length ∧
    (addPartPorts name qs e).1.numPorts = e.numPorts + qs.length ∧
    (addPartPorts name qs e).1.numAll = e.numAll + qs.length ∧
    (addPartPorts name qs e).1.plinks.length = e.plinks.length + qs.length ∧
    (addPartPorts name qs e).1.bcs = e.bcs
  | [], e => by simp [addPartPorts]
  | q :: qs, e => by
    obtain ⟨h1, h2, h3, h4, h5⟩ := addPartPorts_num name qs { e with
      keys := keyAdd (name, q) e.keys, numPorts := e.numPorts + 1, numAll := e.numAll + 1,
      plinks := e.plinks ++ [0] }
    simp only [addPartPorts, h1, h2, h3, h4, h5, List.length_cons, List.range'_succ,
      List.length_append, List.length_nil]
    refine ⟨trivial, ?_, ?_, ?_, trivial⟩ <;> omega

private theorem addPart_num (p) (e e' : Env) (extra : ℕ) (hx : extra = if e.parts = [] then 1 else 0)
    (hb : e.bcs = []) (h : Numbered e extra) (hr : addPart e p = .ok e') :
    Numbered e' 0 ∧ e'.parts.map (fun r => (r.name, r.ports)) =
      e.parts.map (fun r => (r.name, r.ports)) ++ [p] ∧ e'.bcs = [] := by
  unfold addPart at hr
  split_ifs at hr with hname
  obtain ⟨a1, a2, a3, a4, a5⟩ := addPartPorts_num p.1 p.2 e
  have key : ∀ pl : List ℕ, pl.length = e.numPorts + p.2.length →
      Numbered { (addPartPorts p.1 p.2 e).1 with
        parts := e.parts ++ [⟨p.1, p.2, (addPartPorts p.1 p.2 e).2⟩], plinks := pl } 0 := by
    intro pl hpl
    refine ⟨?_, ?_, ?_, ?_⟩
    · have := h.ids
      simp only [hb, List.map_nil, List.append_nil] at this
      simp only [List.flatMap_append, this, a1, a2, a5, hb, List.flatMap_cons, List.flatMap_nil,
        List.append_nil, List.map_nil, List.range_eq_range']
      have := List.range'_append_1 (s := 0) (m := e.numPorts) (n := p.2.length)
      simpa using this
    · simp [a2, a3, h.all]
    · simp only [a2, hpl, Nat.add_zero]
    · intro r hr
      simp only [List.mem_append, List.mem_singleton] at hr
      rcases hr with hr | rfl
      · exact h.lens r hr
      · simp [a1]
  simp only [Except.ok.injEq] at hr
  by_cases hp : e.parts = []
  · simp only [hp, List.nil_append, List.length_singleton, if_true] at hr
    subst hr
    have hl := h.plinks
    rw [hx, if_pos hp] at hl
    have := key (addPartPorts p.1 p.2 e).1.plinks.tail (by simp [a4, hl])
    simp only [hp, List.nil_append] at this
    exact ⟨this, by simp [hp], by simp [a5, hb]⟩
  · have hl := h.plinks
    rw [hx, if_neg hp] at hl
    have hlen : ¬ (e.parts ++ [(⟨p.1, p.2, (addPartPorts p.1 p.2 e).2⟩ : PartRec)]).length = 1 := by
      simpa using hp
    rw [if_neg hlen] at hr
    subst hr
    exact ⟨key (addPartPorts p.1 p.2 e).1.plinks (by simp [a4, hl]), by simp, by simp [a5, hb]⟩

private theorem parts_num : ∀ (ps) (e e' : Env), e.parts ≠ [] → e.bcs = [] → Numbered e 0 →
    runAll addPart ps e = .ok e' → Numbered e' 0 ∧ e'.parts.map (fun r => (r.name, r.ports)) =
      e.parts.map (fun r => (r.name, r.ports)) ++ ps ∧ e'.bcs = []
  | [], e, e', _, hb, h, hr => by
    simp only [runAll, Except.ok.injEq] at hr; subst hr; simpa [hb] using h
  | p :: t, e, e', hne, hb, h, hr => by
    simp only [runAll] at hr
    cases hp : addPart e p with
    | error x => simp [hp] at hr
    | ok e₁ =>
      simp only [hp] at hr
      obtain ⟨b1, b2, b3⟩ := addPart_num p e e₁ 0 (by simp [hne]) hb h hp
      have hne' : e₁.parts ≠ [] := by
        intro hh; rw [hh] at b2; simp at b2
      obtain ⟨c1, c2, c3⟩ := parts_num t e₁ e' hne' b3 b1 hr
      exact ⟨c1, by rw [c2, b2]; simp, c3⟩

private theorem opens_num : ∀ (bs : List String) (e e' : Env), Numbered e 0 →
    runAll addOpenPort bs e = .ok e' → Numbered e' 0 ∧ e'.parts = e.parts ∧
      e'.bcs.map Prod.fst = e.bcs.map Prod.fst ++ bs
  | [], e, e', h, hr => by
    simp only [runAll, Except.ok.injEq] at hr; subst hr; simpa using h
  | b :: t, e, e', h, hr => by
    simp only [runAll] at hr
    cases hb : addOpenPort e b with
    | error x => simp [hb] at hr
    | ok e₁ =>
      simp only [hb] at hr
      unfold addOpenPort at hb
      split_ifs at hb
      simp only [Except.ok.injEq] at hb
      subst hb
      have := fun hN => opens_num t _ e' hN hr
      obtain ⟨c1, c2, c3⟩ := this ⟨by
        simp only [List.map_append, List.map_cons, List.map_nil, ← List.append_assoc, h.ids,
          List.range_succ], by simp [h.all], by simp [h.plinks], h.lens⟩
      exact ⟨c1, c2, by rw [c3]; simp⟩

private theorem connect_num : ∀ (cs : List (Key × Key)) (e e' : Env), Numbered e 0 →
    runAll connect cs e = .ok e' → Numbered e' 0 ∧ e'.parts = e.parts ∧ e'.bcs = e.bcs
  | [], e, e', h, hr => by
    simp only [runAll, Except.ok.injEq] at hr; subst hr; exact ⟨h, rfl, rfl⟩
  | c :: t, e, e', h, hr => by
    simp only [runAll] at hr
    cases hc : connect e c with
    | error x => simp [hc] at hr
    | ok e₁ =>
      simp only [hc] at hr
      have : Numbered e₁ 0 ∧ e₁.parts = e.parts ∧ e₁.bcs = e.bcs := by
        unfold connect at hc
        split_ifs at hc
        split at hc
        · simp at hc
        · split at hc
          · simp at hc
          · simp only [Except.ok.injEq] at hc
            subst hc
            exact ⟨⟨h.ids, h.all, by simpa using h.plinks, h.lens⟩, rfl, rfl⟩
      obtain ⟨c1, c2, c3⟩ := connect_num t e₁ e' this.1 hr
      exact ⟨c1, c2.trans this.2.1, c3.trans this.2.2⟩

private theorem ctrl_num : ∀ (cs : List String) (e e' : Env), Numbered e 0 →
    runAll addControl cs e = .ok e' → Numbered e' 0 ∧ e'.parts = e.parts ∧ e'.bcs = e.bcs
  | [], e, e', h, hr => by
    simp only [runAll, Except.ok.injEq] at hr; subst hr; exact ⟨h, rfl, rfl⟩
  | c :: t, e, e', h, hr => by
    simp only [runAll] at hr
    cases hc : addControl e c with
    | error x => simp [hc] at hr
    | ok e₁ =>
      simp only [hc] at hr
      unfold addControl at hc
      split_ifs at hc
      simp only [Except.ok.injEq] at hc
      subst hc
      have := fun hN => ctrl_num t _ e' hN hr
      obtain ⟨c1, c2, c3⟩ := this ⟨h.ids, h.all, h.plinks, h.lens⟩
      exact ⟨c1, c2, c3⟩

/-- **C12**.  Whatever parts, ports and open ports were declared: if the environment is built, it has
exactly the declared parts and open ports; every part has one number per port; the numbers handed out, read
in order of declaration, are `0, 1, …, n-1`; and the global port arrays have `n` entries.  No assumption on
the names is needed. -/
theorem C12_port_numbers_dense (junk : ℕ) (script : List Call) (e : Env)
    (h : build junk (declareAll .empty script) = .ok e) :
    e.parts.map (fun r => (r.name, r.ports)) = (declareAll .empty script).parts ∧
    e.bcs.map Prod.fst = (declareAll .empty script).opens ∧
    (∀ r ∈ e.parts, r.ids.length = r.ports.length) ∧
    e.parts.flatMap PartRec.ids ++ e.bcs.map Prod.snd = List.range e.numPorts ∧
    e.numAll = e.numPorts ∧ e.plinks.length = e.numPorts := by
  generalize declareAll .empty script = p at h ⊢
  unfold build at h
  split_ifs at h with hp
  cases h1 : runAll addPart p.parts (Env.empty junk) with
  | error x => simp [h1] at h
  | ok e₁ =>
    simp only [h1] at h
    cases h2 : runAll addOpenPort p.opens e₁ with
    | error x => simp [h2] at h
    | ok e₂ =>
      simp only [h2] at h
      cases h3 : runAll connect p.conns e₂ with
      | error x => simp [h3] at h
      | ok e₃ =>
        simp only [h3] at h
        cases h4 : checkUnconnected e₃ with
        | error x => simp [h4] at h
        | ok e₄ =>
          simp only [h4] at h
          have e43 : e₄ = e₃ := by
            simp only [checkUnconnected] at h4
            split_ifs at h4
            simpa using h4.symm
          subst e43
          have n0 : Numbered (Env.empty junk) 1 := ⟨rfl, rfl, rfl, by simp [Env.empty]⟩
          have n1 : Numbered e₁ 0 ∧ e₁.parts.map (fun r => (r.name, r.ports)) = p.parts ∧
              e₁.bcs = [] := by
            match hps : p.parts, hp with
            | q :: t, _ =>
              rw [hps] at h1
              simp only [runAll] at h1
              cases hq : addPart (Env.empty junk) q with
              | error x => simp [hq] at h1
              | ok e₀ =>
                simp only [hq] at h1
                obtain ⟨b1, b2, b3⟩ := addPart_num q (Env.empty junk) e₀ 1 (by simp [Env.empty])
                  rfl n0 hq
                have hne' : e₀.parts ≠ [] := by
                  intro hh; rw [hh] at b2; simp at b2
                obtain ⟨c1, c2, c3⟩ := parts_num t e₀ e₁ hne' b3 b1 h1
                exact ⟨c1, by rw [c2, b2]; simp [Env.empty], c3⟩
          obtain ⟨n2, p2, b2⟩ := opens_num p.opens e₁ e₂ n1.1 h2
          obtain ⟨n3, p3, b3⟩ := connect_num p.conns e₂ e₄ n2 h3
          obtain ⟨n4, p4, b4⟩ := ctrl_num p.ctrls e₄ e n3 h
          refine ⟨by rw [p4, p3, p2, n1.2.1], by rw [b4, b3, b2, n1.2.2]; simp, n4.lens, n4.ids, n4.all,
            by simpa using n4.plinks⟩

/-! ## A concrete network

A pipe between a pump and two open ends, with one control. -/

/-- Script used as a non-trivial case for the theorems below.  The calls are interleaved on purpose. -/
def demo : List Call :=
  [.connect ("pump", "out") ("pipe", "in"), .addPart "pipe" ["in", "out"] 1, .addControl "pid",
   .addOpenPort "BC_cold", .addPart "pump" ["in", "out"] 0,
   .connect ("BoundaryCondition", "BC_cold") ("pump", "in"), .addOpenPort "BC_warm",
   .connect ("pipe", "out") ("BoundaryCondition", "BC_warm")]

/-- The demonstration network is built. -/
theorem demo_builds : ∃ e, build 7 (declareAll .empty demo) = .ok e ∧ e.plinks = [3, 5, 4, 0, 2, 1] ∧
    e.numPorts = 6 := by
  refine ⟨_, rfl, ?_, ?_⟩ <;> decide +kernel

example : ∃ e, build 7 (declareAll .empty demo) = .ok e := let ⟨e, h, _⟩ := demo_builds; ⟨e, h⟩

theorem demo_wellNamed : WellNamed (declareAll .empty demo).parts := by
  constructor <;> decide +kernel

/-! ## C14 -/

/-- The facts on a successful build used below. -/
theorem build_facts (junk : ℕ) (p : Post) (hn : (p.parts.map Prod.fst).Nodup) (hw : WellNamed p.parts)
    (ho : p.opens.Nodup) (hc : p.ctrls.Nodup) (e : Env) (h : build junk p = .ok e) :
    (∃ e₃, Inv p.parts p.opens p.conns e₃ ∧ e.links = e₃.links ∧ e.plinks = e₃.plinks ∧
      e.keys = e₃.keys ∧ e.numPorts = e₃.numPorts) ∧
    (∀ k ∈ declared p.parts p.opens, k ∈ ends p.conns) ∧
    (p.ctrls ≠ [] → (ends p.conns).Perm (declared p.parts p.opens)) ∧
    (∀ a c b, p.conns = a ++ c :: b → ∀ k, k.1 ≠ bcPart → k ∈ [c.1, c.2] → k ∉ ends a) := by
  obtain ⟨-, -, -, e₃, h1, h2, h3, rfl⟩ := (build_stages junk p hn hw ho hc e).1 h
  obtain ⟨hi, hsep⟩ := runAll_connect_inv hn hw p.conns [] _ _ inv_base h1
  rw [List.nil_append] at hi
  have hall : ∀ k ∈ declared p.parts p.opens, k ∈ ends p.conns := by
    intro k hk
    rw [← hi.links]
    exact h2 k (by rw [hi.same.keys]; exact hk)
  refine ⟨⟨e₃, hi, rfl, rfl, rfl, rfl⟩, hall, fun hctrl => ?_, fun a c b hab k hk hm => ?_⟩
  · have hlen := h3 hctrl
    rw [hi.same.numPorts, hi.numConn] at hlen
    exact (((declared_nodup _ _ hn hw ho).subperm hall).perm_of_length_le hlen.ge).symm
  · simpa using hsep a c b hab k hk hm

/-- **C14**.  If the network has at least one control, then the environment is built exactly if the names
are admissible and the connections pair up the declared ports perfectly: every port of every part and every
open port is an end of exactly one connection, and no connection has the same port at both ends. -/
theorem C14_perfect_pairing (junk : ℕ) (script : List Call)
    (hw : WellNamed (declareAll .empty script).parts) (hctrl : (declareAll .empty script).ctrls ≠ []) :
    (∃ e, build junk (declareAll .empty script) = .ok e) ↔
      (declareAll .empty script).parts ≠ [] ∧
      (∀ p ∈ (declareAll .empty script).parts, p.1 ≠ "BC" ∧ '/' ∉ p.1.toList) ∧
      (∀ b ∈ (declareAll .empty script).opens, b.toList.take 3 = ['B', 'C', '_']) ∧
      (ends (declareAll .empty script).conns).Perm
        (declared (declareAll .empty script).parts (declareAll .empty script).opens) := by
  obtain ⟨hn, ho, hc, -⟩ := script_nodup script
  generalize declareAll .empty script = p at *
  have hokP : (∀ q ∈ p.parts, okPart q.1) ↔ ∀ q ∈ p.parts, q.1 ≠ "BC" ∧ '/' ∉ q.1.toList := by
    simp only [okPart, not_or, ne_eq]
  constructor
  · rintro ⟨e, h⟩
    obtain ⟨-, -, hperm, -⟩ := build_facts junk p hn hw ho hc e h
    obtain ⟨h1, h2, h3, -⟩ := (build_stages junk p hn hw ho hc e).1 h
    exact ⟨h1, hokP.1 h2, h3, hperm hctrl⟩
  · rintro ⟨h1, h2, h3, hperm⟩
    have hnd : (ends p.conns).Nodup := hperm.nodup_iff.2 (declared_nodup _ _ hn hw ho)
    obtain ⟨e₃, he₃⟩ := runAll_connect_accept (opens := p.opens) hn hw p.conns [] _ inv_base
      (by simpa using hnd) fun k hk => hperm.mem_iff.1 hk
    obtain ⟨hi, -⟩ := runAll_connect_inv hn hw p.conns [] _ _ inv_base he₃
    rw [List.nil_append] at hi
    refine ⟨_, (build_stages junk p hn hw ho hc _).2 ⟨h1, hokP.2 h2, h3, e₃, he₃, ?_, ?_, rfl⟩⟩
    · intro k hk
      rw [hi.links, hperm.mem_iff, ← hi.same.keys]
      exact hk
    · intro _
      rw [hi.same.numPorts, hi.numConn, hperm.length_eq]

example : WellNamed (declareAll .empty demo).parts ∧ (declareAll .empty demo).ctrls ≠ [] ∧
    ∃ e, build 7 (declareAll .empty demo) = .ok e :=
  ⟨demo_wellNamed, by decide +kernel, let ⟨e, h, _⟩ := demo_builds; ⟨e, h⟩⟩

/-- **C14** (partial, without any control): a port of a part is an end of at most one connection.  Missing:
open ports may be used several times and a port may be connected to itself, see the next theorems. -/
theorem C14_part_port_once_partial (junk : ℕ) (script : List Call)
    (hw : WellNamed (declareAll .empty script).parts) (e : Env)
    (h : build junk (declareAll .empty script) = .ok e) (i j : ℕ) (hij : i < j) (c d : Key × Key)
    (hi : (declareAll .empty script).conns[i]? = some c)
    (hj : (declareAll .empty script).conns[j]? = some d) (k : Key) (hk : k.1 ≠ "BoundaryCondition")
    (hc : k = c.1 ∨ k = c.2) : ¬ (k = d.1 ∨ k = d.2) := by
  obtain ⟨hn, ho, hcn, -⟩ := script_nodup script
  generalize declareAll .empty script = p at *
  obtain ⟨-, -, -, hsep⟩ := build_facts junk p hn hw ho hcn e h
  obtain ⟨hj', hjd⟩ := List.getElem?_eq_some_iff.1 hj
  intro hd
  have := hsep (p.conns.take j) d (p.conns.drop (j + 1)) (by
    rw [← hjd, List.getElem_cons_drop hj', List.take_append_drop]) k hk (by simpa using hd)
  apply this
  have hm : c ∈ p.conns.take j := by
    rw [List.mem_iff_getElem?]
    exact ⟨i, by rw [List.getElem?_take_of_lt hij]; exact hi⟩
  rcases hc with rfl | rfl
  · exact (mem_ends_of_mem hm).1
  · exact (mem_ends_of_mem hm).2

/-- Without controls a port can be connected to itself. -/
theorem C14_fails_self_connection : ∃ e, build 0 (declareAll .empty
    [.addPart "cap" ["in"] 0, .connect ("cap", "in") ("cap", "in")]) = .ok e ∧
    dictGet ("cap", "in") e.links = some ("cap", "in") ∧ e.plinks = [0] := by
  refine ⟨_, rfl, ?_, ?_⟩ <;> decide +kernel

/-- Without controls one open port can be connected to two ports. -/
theorem C14_fails_open_port_twice : ∃ e, build 0 (declareAll .empty
    [.addPart "pipe" ["in", "out"] 0, .addOpenPort "BC_a",
     .connect ("pipe", "in") ("BoundaryCondition", "BC_a"),
     .connect ("pipe", "out") ("BoundaryCondition", "BC_a")]) = .ok e ∧
    dictGet ("pipe", "in") e.links = some ("BoundaryCondition", "BC_a") ∧
    dictGet ("pipe", "out") e.links = some ("BoundaryCondition", "BC_a") := by
  refine ⟨_, rfl, ?_, ?_⟩ <;> decide +kernel

/-- Even with a control, a second `connect_ports` call with the same first port is not refused: it replaces
the first call without any message. -/
theorem C14_fails_silent_replacement : ∃ e, build 0 (declareAll .empty
    [.addPart "a" ["p"] 0, .addPart "b" ["q", "r"] 0, .addPart "c" ["s"] 0, .addControl "pid",
     .connect ("a", "p") ("b", "q"), .connect ("a", "p") ("b", "r"), .connect ("c", "s") ("b", "q")]) =
      .ok e ∧ dictGet ("a", "p") e.links = some ("b", "r") := by
  refine ⟨_, rfl, ?_⟩; decide +kernel

/-! ## C13 -/

private theorem symmetric_of_nodup (p : Post) (hn : (p.parts.map Prod.fst).Nodup)
    (hw : WellNamed p.parts) (ho : p.opens.Nodup) (e₃ : Env) (hi : Inv p.parts p.opens p.conns e₃)
    (hnd : (ends p.conns).Nodup) (hall : ∀ k ∈ declared p.parts p.opens, k ∈ ends p.conns) :
    (∀ k k', dictGet k e₃.links = some k' → dictGet k' e₃.links = some k ∧ k ≠ k' ∧
      e₃.plinks[(declared p.parts p.opens).idxOf k]? = some ((declared p.parts p.opens).idxOf k')) ∧
    (∀ i < e₃.numPorts, ∃ j < e₃.numPorts, j ≠ i ∧ e₃.plinks[i]? = some j ∧ e₃.plinks[j]? = some i) := by
  have hex : ∀ k ∈ ends p.conns, ∃ c ∈ p.conns, k = c.1 ∨ k = c.2 := by
    intro k hk
    simpa [ends] using hk
  have hne : ∀ c ∈ p.conns, c.1 ≠ c.2 := by
    intro c hc h
    obtain ⟨a, b, hab⟩ := List.append_of_mem hc
    rw [hab] at hnd
    rw [ends_append, List.nodup_append] at hnd
    have := hnd.2.1
    simp [ends, h] at this
  constructor
  · intro k k' hk
    have hm : k ∈ ends p.conns := by rw [← hi.links]; simp [hk]
    obtain ⟨c, hc, hkc⟩ := hex k hm
    obtain ⟨n1, n2⟩ := hi.names hnd c hc
    obtain ⟨m1, m2⟩ := hi.nums hnd c hc
    rcases hkc with rfl | rfl
    · rw [n1] at hk
      cases hk
      exact ⟨n2, hne c hc, m1⟩
    · rw [n2] at hk
      cases hk
      exact ⟨n1, (hne c hc).symm, m2⟩
  · intro i hi'
    rw [hi.same.numPorts] at hi' ⊢
    have hD := declared_nodup _ _ hn hw ho
    set D := declared p.parts p.opens with hDdef
    have hk : D[i] ∈ D := List.getElem_mem hi'
    have hidx : D.idxOf D[i] = i := hD.idxOf_getElem i hi'
    obtain ⟨c, hc, hkc⟩ := hex _ (hall _ hk)
    obtain ⟨m1, m2⟩ := hi.nums hnd c hc
    obtain ⟨s1, s2⟩ := mem_ends_of_mem hc
    rw [← hDdef] at m1 m2
    have l1 := List.idxOf_lt_length_of_mem (hi.sub _ s1)
    have l2 := List.idxOf_lt_length_of_mem (hi.sub _ s2)
    rcases hkc with h | h
    · rw [← h, hidx] at m1 m2
      refine ⟨D.idxOf c.2, l2, fun hh => hne c hc ?_, m1, m2⟩
      rw [← hidx, List.idxOf_inj (hi.sub _ s2)] at hh
      rw [← h, ← hh]
    · rw [← h, hidx] at m1 m2
      refine ⟨D.idxOf c.1, l1, fun hh => hne c hc ?_, m2, m1⟩
      rw [← hidx, List.idxOf_inj (hi.sub _ s1)] at hh
      rw [← h, ← hh]

/-- **C13**.  In a network with at least one control that could be built:
* the name table is symmetric and never links a port to itself,
* the index array is symmetric too: it pairs the port numbers `0..n-1`,
* both tables say the same, with ports numbered in order of declaration (see C12). -/
theorem C13_connections_symmetric (junk : ℕ) (script : List Call)
    (hw : WellNamed (declareAll .empty script).parts) (hctrl : (declareAll .empty script).ctrls ≠ [])
    (e : Env) (h : build junk (declareAll .empty script) = .ok e) :
    let D := declared (declareAll .empty script).parts (declareAll .empty script).opens
    (∀ k k', dictGet k e.links = some k' →
      dictGet k' e.links = some k ∧ k ≠ k' ∧ e.plinks[D.idxOf k]? = some (D.idxOf k')) ∧
    (∀ i < e.numPorts, ∃ j < e.numPorts, j ≠ i ∧ e.plinks[i]? = some j ∧ e.plinks[j]? = some i) := by
  obtain ⟨hn, ho, hc, -⟩ := script_nodup script
  generalize declareAll .empty script = p at *
  obtain ⟨⟨e₃, hi, r1, r2, -, r4⟩, hall, hperm, -⟩ := build_facts junk p hn hw ho hc e h
  rw [r1, r2, r4]
  exact symmetric_of_nodup p hn hw ho e₃ hi
    ((hperm hctrl).nodup_iff.2 (declared_nodup _ _ hn hw ho)) hall

example : WellNamed (declareAll .empty demo).parts ∧ (declareAll .empty demo).ctrls ≠ [] ∧
    ∃ e, build 7 (declareAll .empty demo) = .ok e :=
  ⟨demo_wellNamed, by decide +kernel, let ⟨e, h, _⟩ := demo_builds; ⟨e, h⟩⟩

/-- **C13** (partial, without controls): the same if no open port is used twice and no port is connected to
itself.  Missing: these two conditions are not checked by the code, see `C13_fails_open_port_twice`. -/
theorem C13_connections_symmetric_partial (junk : ℕ) (script : List Call)
    (hw : WellNamed (declareAll .empty script).parts) (e : Env)
    (h : build junk (declareAll .empty script) = .ok e)
    (hself : ∀ c ∈ (declareAll .empty script).conns, c.1 ≠ c.2)
    (hopen : ((ends (declareAll .empty script).conns).filter fun k => k.1 = "BoundaryCondition").Nodup) :
    let D := declared (declareAll .empty script).parts (declareAll .empty script).opens
    (∀ k k', dictGet k e.links = some k' →
      dictGet k' e.links = some k ∧ k ≠ k' ∧ e.plinks[D.idxOf k]? = some (D.idxOf k')) ∧
    (∀ i < e.numPorts, ∃ j < e.numPorts, j ≠ i ∧ e.plinks[i]? = some j ∧ e.plinks[j]? = some i) := by
  obtain ⟨hn, ho, hc, -⟩ := script_nodup script
  generalize declareAll .empty script = p at *
  obtain ⟨⟨e₃, hi, r1, r2, -, r4⟩, hall, -, hsep⟩ := build_facts junk p hn hw ho hc e h
  rw [r1, r2, r4]
  refine symmetric_of_nodup p hn hw ho e₃ hi ?_ hall
  have key : ∀ b a : List (Key × Key), p.conns = a ++ b → (ends a).Nodup → (ends p.conns).Nodup := by
    intro b
    induction b with
    | nil => intro a hab ha; rw [hab]; simpa using ha
    | cons c b ih =>
      intro a hab ha
      refine ih (a ++ [c]) (by simp [hab]) ?_
      have hcm : c ∈ p.conns := by simp [hab]
      rw [ends_append, List.nodup_append]
      refine ⟨ha, by simpa [ends] using hself c hcm, ?_⟩
      rintro k hk k' hk' rfl
      have hk'' : k ∈ [c.1, c.2] := by simpa [ends] using hk'
      by_cases hb : k.1 = bcPart
      · rw [hab, ends_append, List.filter_append, List.nodup_append] at hopen
        refine hopen.2.2 k (List.mem_filter.2 ⟨hk, by simpa [bcPart] using hb⟩) k
          (List.mem_filter.2 ⟨?_, by simpa [bcPart] using hb⟩) rfl
        simp only [ends, List.flatMap_cons, List.mem_append]
        exact Or.inl hk''
      · exact hsep a c b hab k hb hk'' hk
  exact key p.conns [] rfl (by simp [ends])

example : WellNamed (declareAll .empty demo).parts ∧ (∃ e, build 7 (declareAll .empty demo) = .ok e) ∧
    (∀ c ∈ (declareAll .empty demo).conns, c.1 ≠ c.2) ∧
    ((ends (declareAll .empty demo).conns).filter fun k => k.1 = "BoundaryCondition").Nodup :=
  ⟨demo_wellNamed, let ⟨e, h, _⟩ := demo_builds; ⟨e, h⟩, by decide +kernel, by decide +kernel⟩

/-- Without controls an open port may be used twice; then the tables are not symmetric. -/
theorem C13_fails_open_port_twice : ∃ e, build 0 (declareAll .empty
    [.addPart "pipe" ["in", "out"] 0, .addOpenPort "BC_a",
     .connect ("pipe", "in") ("BoundaryCondition", "BC_a"),
     .connect ("pipe", "out") ("BoundaryCondition", "BC_a")]) = .ok e ∧
    dictGet ("pipe", "in") e.links = some ("BoundaryCondition", "BC_a") ∧
    dictGet ("BoundaryCondition", "BC_a") e.links = some ("pipe", "out") ∧ e.plinks = [2, 2, 1] := by
  refine ⟨_, rfl, ?_, ?_, ?_⟩ <;> decide +kernel

/-! ## C15 -/

/-- **C15** (success): if the environment is built, every port of every part and every open port is linked
to a port that exists. -/
theorem C15_all_ports_connected (junk : ℕ) (script : List Call)
    (hw : WellNamed (declareAll .empty script).parts) (e : Env)
    (h : build junk (declareAll .empty script) = .ok e) :
    (∀ p ∈ (declareAll .empty script).parts, ∀ q ∈ p.2, ∃ k', dictGet (p.1, q) e.links = some k') ∧
    (∀ b ∈ (declareAll .empty script).opens, ∃ k', dictGet ("BoundaryCondition", b) e.links = some k') := by
  obtain ⟨hn, ho, hc, -⟩ := script_nodup script
  generalize declareAll .empty script = p at *
  obtain ⟨⟨e₃, hi, r1, -⟩, hall, -⟩ := build_facts junk p hn hw ho hc e h
  rw [r1]
  have key : ∀ k ∈ declared p.parts p.opens, ∃ k', dictGet k e₃.links = some k' := by
    intro k hk
    rw [← Option.isSome_iff_exists, hi.links]
    exact hall k hk
  constructor
  · intro q hq r hr
    refine key _ ?_
    simp only [declared, List.mem_append]
    exact Or.inl (mem_partKeys.2 ⟨q, hq, rfl, hr⟩)
  · intro b hb
    refine key _ ?_
    simp only [declared, List.mem_append, List.mem_map]
    exact Or.inr ⟨b, hb, rfl⟩

/-- **C15** (failure): if building stops because of unconnected ports, the exception names exactly the
declared ports that no connection mentions, each once, and there is at least one. -/
theorem C15_error_names_unconnected (junk : ℕ) (script : List Call)
    (hw : WellNamed (declareAll .empty script).parts) (m : List Key)
    (h : build junk (declareAll .empty script) = .error (.unconnected m)) :
    m ≠ [] ∧ m.Nodup ∧ ∀ k, k ∈ m ↔
      k ∈ declared (declareAll .empty script).parts (declareAll .empty script).opens ∧
        ∀ c ∈ (declareAll .empty script).conns, k ≠ c.1 ∧ k ≠ c.2 := by
  obtain ⟨hn, ho, hc, -⟩ := script_nodup script
  generalize declareAll .empty script = p at *
  unfold build at h
  split_ifs at h with hp
  · simp at h
  have noPart : ∀ (ps) (e : Env), runAll addPart ps e ≠ .error (.unconnected m) := by
    intro ps
    induction ps with
    | nil => intro e; simp [runAll]
    | cons q t ih =>
      intro e
      simp only [runAll]
      cases hq : addPart e q with
      | ok e' => exact ih e'
      | error x =>
        simp only [ne_eq, Except.error.injEq]
        unfold addPart at hq
        split_ifs at hq
        · simp only [Except.error.injEq] at hq; rw [← hq]; simp
  have noOpen : ∀ (bs) (e : Env), runAll addOpenPort bs e ≠ .error (.unconnected m) := by
    intro bs
    induction bs with
    | nil => intro e; simp [runAll]
    | cons q t ih =>
      intro e
      simp only [runAll]
      cases hq : addOpenPort e q with
      | ok e' => exact ih e'
      | error x =>
        simp only [ne_eq, Except.error.injEq]
        unfold addOpenPort at hq
        split_ifs at hq
        · simp only [Except.error.injEq] at hq; rw [← hq]; simp
  have noConn : ∀ (cs) (e : Env), runAll connect cs e ≠ .error (.unconnected m) := by
    intro cs
    induction cs with
    | nil => intro e; simp [runAll]
    | cons q t ih =>
      intro e
      simp only [runAll]
      cases hq : connect e q with
      | ok e' => exact ih e'
      | error x =>
        simp only [ne_eq, Except.error.injEq]
        unfold connect at hq
        split_ifs at hq <;> (try (simp only [Except.error.injEq] at hq; rw [← hq]; simp))
        split at hq
        · simp only [Except.error.injEq] at hq; rw [← hq]; simp
        · split at hq
          · simp only [Except.error.injEq] at hq; rw [← hq]; simp
          · simp at hq
  have noCtrl : ∀ (cs) (e : Env), runAll addControl cs e ≠ .error (.unconnected m) := by
    intro cs
    induction cs with
    | nil => intro e; simp [runAll]
    | cons q t ih =>
      intro e
      simp only [runAll]
      cases hq : addControl e q with
      | ok e' => exact ih e'
      | error x =>
        simp only [ne_eq, Except.error.injEq]
        unfold addControl at hq
        split_ifs at hq <;> (simp only [Except.error.injEq] at hq; rw [← hq]; simp)
  cases h1 : runAll addPart p.parts (Env.empty junk) with
  | error x => rw [h1] at h; simp only [Except.error.injEq] at h; subst h; exact absurd h1 (noPart _ _)
  | ok e₁ =>
    simp only [h1] at h
    obtain ⟨hok, rfl⟩ := (runAll_addPart_empty junk p.parts hp hw.ports hn _).1 h1
    cases h2 : runAll addOpenPort p.opens (withParts { Env.empty junk with plinks := [] } p.parts) with
    | error x => rw [h2] at h; simp only [Except.error.injEq] at h; subst h; exact absurd h2 (noOpen _ _)
    | ok e₂ =>
      simp only [h2] at h
      have hfresh : ∀ b ∈ p.opens, (bcPart, b) ∉
          (withParts { Env.empty junk with plinks := [] } p.parts).keys := by
        intro b _ hm
        simp only [withParts, Env.empty, List.nil_append] at hm
        obtain ⟨q, hq, h, -⟩ := mem_partKeys.1 hm
        exact hw.notBC q hq h
      obtain ⟨hok', rfl⟩ := (runAll_addOpenPort p.opens _ ho hfresh _).1 h2
      have hbase : withOpens (withParts { Env.empty junk with plinks := [] } p.parts) p.opens =
        base p.parts p.opens := rfl
      simp only [hbase] at h
      cases h3 : runAll connect p.conns (base p.parts p.opens) with
      | error x => rw [h3] at h; simp only [Except.error.injEq] at h; subst h; exact absurd h3 (noConn _ _)
      | ok e₃ =>
        simp only [h3] at h
        obtain ⟨hi, -⟩ := runAll_connect_inv hn hw p.conns [] _ _ inv_base h3
        rw [List.nil_append] at hi
        simp only [checkUnconnected] at h
        by_cases hm : (e₃.keys.filter fun k => (dictGet k e₃.links).isNone) = []
        · simp only [hm, if_true] at h
          exact absurd h (noCtrl _ _)
        · simp only [hm, if_false, Except.error.injEq, Err.unconnected.injEq] at h
          subst h
          refine ⟨hm, ?_, fun k => ?_⟩
          · rw [hi.same.keys]
            exact (declared_nodup _ _ hn hw ho).filter _
          · rw [List.mem_filter, hi.same.keys, Option.isNone_iff_eq_none, ← Option.not_isSome_iff_eq_none,
              hi.links]
            refine and_congr_right fun _ => ?_
            simp only [ends, List.mem_flatMap, List.mem_cons, List.not_mem_nil, or_false, not_exists,
              not_and, not_or]

example : build 0 (declareAll .empty [.addPart "pipe" ["in", "out"] 0, .addOpenPort "BC_a",
      .connect ("pipe", "in") ("BoundaryCondition", "BC_a")]) = .error (.unconnected [("pipe", "out")]) := by
  decide +kernel

/-- If a part is given two ports of the same name, the second one never gets a partner, and the check does
not notice: the ports 1 and 2 of the pipe are called `in`, `in`; port number 1 stays at its initial entry
0 although port 0 is linked to port 2.  This is why `C15_all_ports_connected` assumes sensible names. -/
theorem C15_fails_duplicate_port_name : ∃ e, build 0 (declareAll .empty
    [.addPart "pipe" ["in", "in"] 0, .addOpenPort "BC_a",
     .connect ("pipe", "in") ("BoundaryCondition", "BC_a")]) = .ok e ∧ e.numPorts = 3 ∧
    e.plinks = [2, 0, 0] := by
  refine ⟨_, rfl, ?_, ?_⟩ <;> decide +kernel

/-! ## C60 -/

/-- The kind of a declaration. -/
def Call.kind : Call → Fin 4
  | .addPart .. => 0
  | .addOpenPort .. => 1
  | .connect .. => 2
  | .addControl .. => 3

private theorem declare_comm (p : Post) (c d : Call) (h : c.kind ≠ d.kind) :
    (declare (declare p c).1 d).1 = (declare (declare p d).1 c).1 := by
  cases c <;> cases d <;> simp only [Call.kind, ne_eq, not_true_eq_false] at h <;>
    simp only [declare] <;> split_ifs <;> simp_all

private theorem declareAll_move (c : Call) : ∀ (l : List Call) (p : Post),
    (∀ d ∈ l, d.kind ≠ c.kind) → declareAll p (l ++ [c]) = declareAll p (c :: l)
  | [], p, _ => rfl
  | d :: l, p, h => by
    have ih := declareAll_move c l (declare p d).1 fun d hd => h d (by simp [hd])
    simp only [List.cons_append, declareAll] at ih ⊢
    rw [ih, declare_comm p d c (h d (by simp))]

theorem declareAll_append (p : Post) : ∀ (a b : List Call),
    declareAll p (a ++ b) = declareAll (declareAll p a) b := by
  intro a
  induction a generalizing p with
  | nil => intro b; rfl
  | cons c a ih => intro b; simp only [List.cons_append, declareAll, ih]

/-- The calls of one kind, in order. -/
def ofKind (k : Fin 4) (s : List Call) : List Call := s.filter fun c => c.kind = k

/-- **C60** (fixed order): declaring in any interleaving has the effect of declaring first all parts, then
all open ports, then all connections, then all controls, in declaration order inside each kind. -/
theorem C60_grouped_by_kind (s : List Call) : declareAll .empty s =
    declareAll .empty (ofKind 0 s ++ (ofKind 1 s ++ (ofKind 2 s ++ ofKind 3 s))) := by
  generalize Post.empty = p
  induction s generalizing p with
  | nil => rfl
  | cons c t ih =>
    have mv : ∀ (k : Fin 4), k ≠ c.kind → ∀ d ∈ ofKind k t, d.kind ≠ c.kind := by
      intro k hk d hd
      simp only [ofKind, List.mem_filter, decide_eq_true_eq] at hd
      rw [hd.2]; exact hk
    have same : ofKind c.kind (c :: t) = c :: ofKind c.kind t := by simp [ofKind]
    have diff : ∀ k, k ≠ c.kind → ofKind k (c :: t) = ofKind k t := by
      intro k hk; simp [ofKind, Ne.symm hk]
    -- move `c` to the front over lists of other kinds
    have front : ∀ l r, (∀ d ∈ l, d.kind ≠ c.kind) →
        declareAll p (l ++ c :: r) = declareAll p (c :: (l ++ r)) := by
      intro l r hl
      have : l ++ c :: r = (l ++ [c]) ++ r := by simp
      rw [this, declareAll_append, declareAll_move c l p hl]
      simp only [declareAll, declareAll_append]
    have hstart : declareAll p (c :: t) = declareAll p
        (c :: (ofKind 0 t ++ (ofKind 1 t ++ (ofKind 2 t ++ ofKind 3 t)))) := by
      simp only [declareAll]; exact ih _
    rw [hstart]
    have hcases : c.kind = 0 ∨ c.kind = 1 ∨ c.kind = 2 ∨ c.kind = 3 := by
      cases c <;> simp [Call.kind]
    rcases hcases with h | h | h | h
    · rw [h] at same diff
      rw [same, diff 1 (by decide), diff 2 (by decide), diff 3 (by decide)]; rfl
    · rw [h] at same diff mv front
      rw [same, diff 0 (by decide), diff 2 (by decide), diff 3 (by decide), List.cons_append,
        front _ _ (mv 0 (by decide))]
    · rw [h] at same diff mv front
      have := front (ofKind 0 t ++ ofKind 1 t) (ofKind 2 t ++ ofKind 3 t) (by
          intro d hd
          rcases List.mem_append.1 hd with hd | hd
          · exact mv 0 (by decide) d hd
          · exact mv 1 (by decide) d hd)
      rw [same, diff 0 (by decide), diff 1 (by decide), diff 3 (by decide)]
      simpa only [List.append_assoc, List.cons_append] using this.symm
    · rw [h] at same diff mv front
      have := front (ofKind 0 t ++ ofKind 1 t ++ ofKind 2 t) (ofKind 3 t) (by
          intro d hd
          rcases List.mem_append.1 hd with hd | hd
          · rcases List.mem_append.1 hd with hd | hd
            · exact mv 0 (by decide) d hd
            · exact mv 1 (by decide) d hd
          · exact mv 2 (by decide) d hd)
      rw [same, diff 0 (by decide), diff 1 (by decide), diff 2 (by decide)]
      simpa only [List.append_assoc, List.cons_append] using this.symm

/-- **C60** (independence): two scripts that agree kind by kind build the same environment or stop with the
same exception. -/
theorem C60_order_irrelevant (junk : ℕ) (s t : List Call) (h : ∀ k, ofKind k s = ofKind k t) :
    build junk (declareAll .empty s) = build junk (declareAll .empty t) := by
  rw [C60_grouped_by_kind s, C60_grouped_by_kind t, h 0, h 1, h 2, h 3]

/-! ### Order inside a kind -/

/-- Name of the part, open port or control declared by a call. -/
def Call.partName : Call → Option String
  | .addPart n _ _ => some n
  | _ => none

def Call.openName : Call → Option String
  | .addOpenPort n => some n
  | _ => none

def Call.ctrlName : Call → Option String
  | .addControl n => some n
  | _ => none

private theorem declareAll_names (s : List Call) : ∀ p : Post,
    (declareAll p s).parts.map Prod.fst
        = (s.filterMap Call.partName).foldl (fun acc x => if x ∈ acc then acc else acc ++ [x]) (p.parts.map Prod.fst) ∧
      (declareAll p s).opens
        = (s.filterMap Call.openName).foldl (fun acc x => if x ∈ acc then acc else acc ++ [x]) p.opens ∧
      (declareAll p s).ctrls
        = (s.filterMap Call.ctrlName).foldl (fun acc x => if x ∈ acc then acc else acc ++ [x]) p.ctrls := by
  induction s with
  | nil => intro p; exact ⟨rfl, rfl, rfl⟩
  | cons c s ih =>
    intro p
    obtain ⟨h1, h2, h3⟩ := ih (declare p c).1
    rw [declareAll, h1, h2, h3]
    cases c with
    | addPart n ports store =>
      refine ⟨?_, ?_, ?_⟩
      · simp only [List.filterMap_cons, Call.partName, List.foldl_cons, declare]
        split_ifs <;> simp
      · simp only [List.filterMap_cons, Call.openName, declare]
        split_ifs <;> simp
      · simp only [List.filterMap_cons, Call.ctrlName, declare]
        split_ifs <;> simp
    | addOpenPort n =>
      refine ⟨?_, ?_, ?_⟩
      · simp only [List.filterMap_cons, Call.partName, declare]
        split_ifs <;> simp
      · simp only [List.filterMap_cons, Call.openName, List.foldl_cons, declare]
        split_ifs <;> simp
      · simp only [List.filterMap_cons, Call.ctrlName, declare]
        split_ifs <;> simp
    | connect a b =>
      refine ⟨?_, ?_, ?_⟩ <;>
        simp [List.filterMap_cons, Call.partName, Call.openName, Call.ctrlName, declare]
    | addControl n =>
      refine ⟨?_, ?_, ?_⟩
      · simp only [List.filterMap_cons, Call.partName, declare]
        split_ifs <;> simp
      · simp only [List.filterMap_cons, Call.openName, declare]
        split_ifs <;> simp
      · simp only [List.filterMap_cons, Call.ctrlName, List.foldl_cons, declare]
        split_ifs <;> simp

private theorem runAll_keep {α : Type} {f : Env → α → Except Err Env}
    (hf : ∀ e a e', f e a = .ok e' → e'.ctrls = e.ctrls) :
    ∀ (l : List α) (e e' : Env), runAll f l e = .ok e' → e'.ctrls = e.ctrls
  | [], e, e', h => by simp only [runAll, Except.ok.injEq] at h; rw [h]
  | a :: l, e, e', h => by
    cases h1 : f e a with
    | error x => simp [runAll, h1] at h
    | ok e₁ =>
      simp only [runAll, h1] at h
      rw [runAll_keep hf l e₁ e' h, hf e a e₁ h1]

private theorem addPartPorts_ctrls (n : String) : ∀ (qs : List String) (e : Env),
    (addPartPorts n qs e).1.ctrls = e.ctrls
  | [], _ => rfl
  | q :: qs, e => by simp only [addPartPorts]; rw [addPartPorts_ctrls n qs]

private theorem runAll_ctrls : ∀ (cs : List String) (e e' : Env), runAll addControl cs e = .ok e' →
    e'.ctrls = e.ctrls ++ cs
  | [], e, e', h => by simp only [runAll, Except.ok.injEq] at h; simp [h]
  | a :: l, e, e', h => by
    cases h1 : addControl e a with
    | error x => simp [runAll, h1] at h
    | ok e₁ =>
      simp only [runAll, h1] at h
      rw [runAll_ctrls l e₁ e' h]
      simp only [addControl] at h1
      split_ifs at h1
      simp only [Except.ok.injEq] at h1
      rw [← h1]; simp

/-- **C60** (order inside each kind): in a built environment the parts, open ports and controls stand in the
order in which the script declared their names for the first time. -/
theorem C60_built_in_declaration_order (junk : ℕ) (script : List Call) (e : Env)
    (h : build junk (declareAll .empty script) = .ok e) :
    e.parts.map PartRec.name = firsts (script.filterMap Call.partName) ∧
      e.bcs.map Prod.fst = firsts (script.filterMap Call.openName) ∧
      e.ctrls = firsts (script.filterMap Call.ctrlName) := by
  obtain ⟨a1, a2, a3⟩ := declareAll_names script .empty
  obtain ⟨b1, b2, -⟩ := C12_port_numbers_dense junk script e h
  refine ⟨?_, by rw [b2]; exact a2, ?_⟩
  · have := congrArg (List.map Prod.fst) b1
    rw [List.map_map] at this
    exact (this.trans a1 : _)
  · refine Eq.trans ?_ a3
    generalize declareAll .empty script = p at h ⊢
    unfold build at h
    split_ifs at h with hp
    cases h1 : runAll addPart p.parts (Env.empty junk) with
    | error x => simp [h1] at h
    | ok e₁ =>
      simp only [h1] at h
      cases h2 : runAll addOpenPort p.opens e₁ with
      | error x => simp [h2] at h
      | ok e₂ =>
        simp only [h2] at h
        cases h3 : runAll connect p.conns e₂ with
        | error x => simp [h3] at h
        | ok e₃ =>
          simp only [h3] at h
          cases h4 : checkUnconnected e₃ with
          | error x => simp [h4] at h
          | ok e₄ =>
            simp only [h4] at h
            have e43 : e₄ = e₃ := by
              simp only [checkUnconnected] at h4
              split_ifs at h4
              simpa using h4.symm
            subst e43
            have k1 := runAll_keep (f := addPart) (fun e a e' he => by
              simp only [addPart] at he
              split_ifs at he <;> simp only [Except.ok.injEq] at he <;> rw [← he] <;>
                exact addPartPorts_ctrls _ _ _) _ _ _ h1
            have k2 := runAll_keep (f := addOpenPort) (fun e a e' he => by
              simp only [addOpenPort] at he
              split_ifs at he
              simp only [Except.ok.injEq] at he
              rw [← he]) _ _ _ h2
            have k3 := runAll_keep (f := connect) (fun e a e' he => by
              simp only [connect] at he
              split_ifs at he
              cases hi : portId e a.1 with
              | none => simp [hi] at he
              | some i =>
                cases hj : portId e a.2 with
                | none => simp [hi, hj] at he
                | some j =>
                  simp only [hi, hj, Except.ok.injEq] at he
                  rw [← he]) _ _ _ h3
            have k4 := runAll_ctrls _ _ _ h
            rw [k4, k3, k2, k1]
            simp [Env.empty]

example : firsts (demo.filterMap Call.partName) = ["pipe", "pump"] ∧
    firsts (demo.filterMap Call.openName) = ["BC_cold", "BC_warm"] := by decide +kernel

/-- A genuine reordering of the demonstration script. -/
example : ∃ t, t ≠ demo ∧ ∀ k, ofKind k demo = ofKind k t := by
  refine ⟨ofKind 3 demo ++ ofKind 2 demo ++ ofKind 1 demo ++ ofKind 0 demo, ?_, ?_⟩
  · intro h
    have := congrArg (fun l => (l.map Call.kind).head?) h
    revert this; decide +kernel
  · intro k; fin_cases k <;> rfl

end Verif.Registry
