import Verif.Lemmas.TopologyFlow

/-!
# Connections over which a flow was handed on
-/

namespace Verif.Topology

open Verif.FlowNet
open Verif.Topology.Spec
open Verif.FlowNet.Spec (Causal sources Holds)

variable {G : Net} {root : ℕ} {sub : Bool}

theorem infix_split {c a b : List Char} {x : Char} (hx : x ∉ c) (h : c <:+: a ++ x :: b) : c <:+: a ∨ c <:+: b := by
  obtain ⟨s, t, h⟩ := h
  rw [List.append_assoc] at h
  rcases List.append_eq_append_iff.mp h with ⟨u, h1, h2⟩ | ⟨u, h1, h2⟩
  · -- `a = s ++ u`, `c ++ t = u ++ x :: b`
    rcases List.append_eq_append_iff.mp h2 with ⟨w, h3, h4⟩ | ⟨w, h3, h4⟩
    · left
      exact ⟨s, w, by rw [h1, h3, List.append_assoc]⟩
    · cases w with
      | nil =>
        left
        rw [List.append_nil] at h3
        exact ⟨s, [], by rw [h1, h3, List.append_nil]⟩
      | cons y w =>
        simp only [List.cons_append, List.cons.injEq] at h4
        exact absurd (by rw [h3, ← h4.1]; simp) hx
  · -- `s = a ++ u`, `x :: b = u ++ (c ++ t)`
    cases u with
    | nil =>
      cases c with
      | nil => left; exact ⟨[], a, by simp⟩
      | cons y c =>
        simp only [List.nil_append, List.cons_append, List.cons.injEq] at h2
        exact absurd (by rw [h2.1]; simp) hx
    | cons y u =>
      simp only [List.cons_append, List.cons.injEq] at h2
      right
      exact ⟨u, t, by rw [h2.2, List.append_assoc]⟩

/-- The running call has solved the port by which it came. -/
def Done (G : Net) (s : State) (f : Frame) : Prop :=
  ∀ q, f.parent = some q → G.kind f.part = .pump ∨ ∃ e, G.link (f.part, e) = some q ∧ isSolved s (f.part, e) ∧
    ¬ breaks G s f.part ∧ ((G.part f.part).channels ≠ [] → f.channel <:+: G.portName (f.part, e))

/-- The running call is going to. -/
def Ahead (G : Net) (s : State) (f : Frame) : Prop :=
  ∃ q e ks, f.parent = some q ∧ f.todo = e :: ks ∧ G.link (f.part, e) = some q ∧ ¬ isSolved s (f.part, e) ∧
    ((G.part f.part).channels ≠ [] → f.channel <:+: G.portName (f.part, e))

def Entered (G : Net) (c : Config) : Prop :=
  ∀ f fs, c.stack = f :: fs → (Ahead G c.state f ∨ Done G c.state f) ∧ ∀ g ∈ fs, Done G c.state g

theorem Done.mono {s : State} {f : Frame} {p : Port} {parent : Option Port} {a : Answer} (h : Done G s f) :
    Done G (apply s p parent a) f := by
  intro q hq
  rcases h q hq with h | ⟨e, h1, h2, h3, h4⟩
  · exact .inl h
  · exact .inr ⟨e, h1, isSolved_mono h2, fun hb => h3 (breaks_anti hb), h4⟩

/-- After visiting the port by which it came, or another one afterwards. -/
theorem done_after {s : State} {f : Frame} {k : ℕ} {ks : List ℕ} {a : Answer} {side : Side}
    (h : Ahead G s f ∨ Done G s f) (ht : f.todo = k :: ks) (ha : flowRoutine G root s f side k = .ok a)
    (hb : f.parent ≠ none → ¬ breaks G (apply s (f.part, k) f.parent a) f.part) :
    Done G (apply s (f.part, k) f.parent a) { f with todo := ks } := by
  rcases h with ⟨q, e, ks', h1, h2, h3, h4, h5⟩ | h
  · intro q' hq'
    simp only at hq' ⊢
    rw [h1, Option.some.injEq] at hq'
    subst hq'
    rw [ht, List.cons.injEq] at h2
    rcases flowRoutine_solves ha with hs | ⟨hk, _⟩
    · refine .inr ⟨e, h3, ?_, hb (by rw [h1]; simp), h5⟩
      rw [← h2.1]
      exact isSolved_apply.mpr (.inr ⟨hs, rfl⟩)
    · exact .inl hk
  · intro q hq
    exact h.mono q hq

theorem entered_step (wf : WellFormed G) (hn : PlainNames G) {c c' : Config} (h : Entered G c)
    (hs : Step G root sub c c') : Entered G c' := by
  cases hs with
  | @pop f fs s ht =>
    obtain ⟨_, h2⟩ := h f fs rfl
    intro g gs hg
    simp only at hg h2 ⊢
    subst hg
    exact ⟨.inr (h2 g List.mem_cons_self), fun g' hg' => h2 g' (List.mem_cons_of_mem _ hg')⟩
  | @skip f fs s k ks ht hsk =>
    obtain ⟨h1, h2⟩ := h f fs rfl
    intro g gs hg
    simp only [List.cons.injEq] at hg
    obtain ⟨rfl, rfl⟩ := hg
    refine ⟨.inr ?_, h2⟩
    rcases h1 with ⟨q, e, ks', h3, h4, h5, h6, h7⟩ | h1
    · exfalso
      simp only at h6
      rw [ht, List.cons.injEq] at h4
      rw [← h4.1] at h6 h7
      rcases hsk with hsk | hsk
      · exact h6 hsk
      · exact hsk.2 (h7 hsk.1)
    · exact h1
  | @brk f fs s k ks a ht hns hc ha hp hb =>
    obtain ⟨_, h2⟩ := h f fs rfl
    intro g gs hg
    simp only at hg h2 ⊢
    subst hg
    exact ⟨.inr (h2 g List.mem_cons_self).mono, fun g' hg' => (h2 g' (List.mem_cons_of_mem _ hg')).mono⟩
  | @stay f fs s k ks a ht hns hc ha hb hl =>
    obtain ⟨h1, h2⟩ := h f fs rfl
    intro g gs hg
    simp only [List.cons.injEq] at hg
    obtain ⟨rfl, rfl⟩ := hg
    exact ⟨.inr (done_after h1 ht ha hb), fun g' hg' => (h2 g' hg').mono⟩
  | @push f fs s k ks a q ch side ht hns hc ha hb hl hq hpump hch =>
    obtain ⟨h1, h2⟩ := h f fs rfl
    intro g gs hg
    simp only [List.cons.injEq] at hg
    obtain ⟨rfl, rfl⟩ := hg
    refine ⟨.inl ⟨(f.part, k), q.2, _, rfl, rfl, wf.symm _ _ hl, hq, ?_⟩, ?_⟩
    · intro hne
      obtain ⟨hm, hi⟩ := lastChannel_mem (hch hne)
      obtain ⟨hsc, hnm⟩ := hn q.1 (wf.valid _ _ hl).1 ch hm
      rcases infix_split hsc hi with h3 | h3
      · exact absurd h3 hnm
      · exact h3
    · intro g' hg'
      rcases List.mem_cons.mp hg' with rfl | hg'
      · exact done_after h1 ht ha hb
      · exact (h2 g' hg').mono

theorem entered_start {s : State} : Entered G (start G root s) := by
  intro f fs hf
  simp only [start, List.cons.injEq] at hf
  obtain ⟨rfl, rfl⟩ := hf
  exact ⟨.inr (fun q hq => by simp at hq), by simp⟩

/-- A flow is handed on over a connection of the net. -/
theorem handed_link (wf : WellFormed G) {s : State} (hs : Clean G s) {f : Frame} {k : ℕ} {ks : List ℕ}
    {a : Answer} {side : Side} {q : Port} (h : Ahead G s f ∨ Done G s f) (ht : f.todo = k :: ks)
    (hv : Valid G (f.part, k)) (hn : ¬ isSolved s (f.part, k)) (hq : f.parent = some q)
    (ha : flowRoutine G root s f side k = .ok a) (hh : a.handed = true) : G.link (f.part, k) = some q := by
  rcases h with ⟨q', e, ks', h1, h2, h3, h4, h5⟩ | h
  · rw [ht, List.cons.injEq] at h2
    rw [h1, Option.some.injEq] at hq
    rw [h2.1, h3, hq]
  · exfalso
    have hopen := open_of_unsolved hs hn hv
    simp only at hopen
    have hpos : ∀ e, isSolved s (f.part, e) → cnt G s f.part < G.nports f.part := by
      intro e he
      unfold cnt
      have : 0 < (s.solved f.part).length := List.length_pos_of_mem he
      have := clean_length hs f.part
      omega
    rcases h q hq with hk | ⟨e, h1, h2, h3, h4⟩
    · unfold flowRoutine at ha
      rw [hk] at ha
      simp only [pumpRoutine, hq] at ha
      split_ifs at ha
      simp only [Except.ok.injEq] at ha
      subst ha
      simp at hh
    · have hlt := hpos e h2
      unfold flowRoutine at ha
      unfold breaks at h3
      cases hk : G.kind f.part with
      | pump =>
        rw [hk] at ha
        simp only [pumpRoutine, hq] at ha
        split_ifs at ha
        simp only [Except.ok.injEq] at ha
        subst ha
        simp at hh
      | pipe =>
        rw [hk] at ha
        simp only [pipeRoutine, hq] at ha
        have := wf.two f.part hv.1 (.inr hk)
        rw [if_neg (by omega)] at ha
        simp only [Except.ok.injEq] at ha
        subst ha
        simp at hh
      | storage => rw [hk] at h3; exact h3 hopen
      | branched => rw [hk] at h3; exact h3 hopen
      | connector =>
        rw [hk] at h3 ha
        simp only [connectorAnswer] at ha
        rw [if_pos (by simp only at h3; omega)] at ha
        unfold balance at ha
        split at ha
        · simp only [Except.ok.injEq] at ha; subst ha; simp at hh
        · simp at ha
      | mixing =>
        rw [hk] at ha
        simp only [valveAnswer, hq] at ha
        have := wf.three f.part hv.1 (by rw [hk]; simp)
        rw [if_neg (by omega)] at ha
        simp only [Except.ok.injEq] at ha
        subst ha
        simp at hh
      | splitting =>
        rw [hk] at ha
        simp only [valveAnswer, hq] at ha
        have := wf.three f.part hv.1 (by rw [hk]; simp)
        rw [if_neg (by omega)] at ha
        simp only [Except.ok.injEq] at ha
        subst ha
        simp at hh
      | pipeValve =>
        rw [hk] at ha
        simp only [pipeValveAnswer, hq] at ha
        have := wf.three f.part hv.1 (by rw [hk]; simp)
        rw [if_neg (by omega)] at ha
        split_ifs at ha <;> (simp only [Except.ok.injEq] at ha; subst ha; simp at hh)
      | hex =>
        rw [hk] at ha
        simp only [hexAnswer, hq] at ha
        have hne : (G.part f.part).channels ≠ [] := (wf.channels _ hv.1).mpr (.inl hk)
        split at ha
        · simp only [Except.ok.injEq] at ha; subst ha; simp at hh
        · rename_i hj
          exact sameChannel_none hj h2 (h4 hne)
      | hexNum =>
        rw [hk] at ha
        simp only [hexNumAnswer, hq] at ha
        have hne : (G.part f.part).channels ≠ [] := (wf.channels _ hv.1).mpr (.inr hk)
        split at ha
        · simp only [Except.ok.injEq] at ha; subst ha; simp at hh
        · rename_i hj
          exact sameChannel_none hj h2 (h4 hne)

/-! ## Handed flows -/

/-- The flow of the second port is that of the first. -/
def Handed (G : Net) (s : State) (q p : Port) : Prop :=
  passOn (s.addr p) (s.addr q) (G.inward p == G.inward q) ∈ s.net ∨ (s.addr p = s.addr q ∧ G.inward p ≠ G.inward q)

def ViaOK (G : Net) (s : State) : Prop :=
  ∀ q p, (q, p) ∈ s.via → G.link q = some p ∧ isSolved s q ∧ isSolved s p ∧ Handed G s q p

/-- Memory views of ports already solved stay. -/
theorem addr_apply {s : State} {p : Port} {parent : Option Port} {a : Answer} (ha : Ans G s p parent a) {q : Port}
    (hq : isSolved s q) : (apply s p parent a).addr q = s.addr q := by
  cases ha with
  | view hk hnil _ _ =>
    unfold apply
    simp only
    rw [if_neg]
    intro he
    unfold isSolved at hq
    rw [he, hnil] at hq
    simp at hq
  | _ => rfl

theorem viaOK_apply (wf : WellFormed G) {s : State} (h : ViaOK G s) {p : Port} {parent : Option Port} {a : Answer}
    (hpar : ∀ q, parent = some q → isSolved s q) (ha : Ans G s p parent a)
    (hl : ∀ q, parent = some q → a.handed = true → G.link p = some q) : ViaOK G (apply s p parent a) := by
  intro q' p' hm
  have hold : (q', p') ∈ s.via → G.link q' = some p' ∧ isSolved (apply s p parent a) q' ∧
      isSolved (apply s p parent a) p' ∧ Handed G (apply s p parent a) q' p' := by
    intro hm
    obtain ⟨h1, h2, h3, h4⟩ := h q' p' hm
    refine ⟨h1, isSolved_mono h2, isSolved_mono h3, ?_⟩
    unfold Handed
    rw [addr_apply ha h2, addr_apply ha h3, net_apply]
    exact h4.imp (fun h => List.mem_append_left _ h) id
  have hsol : a.solves = true → isSolved (apply s p parent a) p := fun h => isSolved_apply.mpr (.inr ⟨h, rfl⟩)
  cases ha with
  | @view q hk hnil hq hi =>
    have hq' := hpar q hq
    unfold apply at hm
    simp only [hq] at hm
    rcases List.mem_append.mp hm with hm | hm
    · exact hold hm
    · simp only [List.mem_singleton, Prod.mk.injEq] at hm
      obtain ⟨rfl, rfl⟩ := hm
      refine ⟨wf.symm _ _ (hl _ hq rfl), isSolved_mono hq', hsol rfl, .inr ⟨?_, hi⟩⟩
      rw [addr_apply (.view hk hnil hq hi) hq']
      unfold apply
      simp
  | @handed q h1 h2 h3 h4 h5 h6 hq =>
    have hq' := hpar q hq
    unfold apply at hm
    simp only [hq] at hm
    rcases List.mem_append.mp hm with hm | hm
    · exact hold hm
    · simp only [List.mem_singleton, Prod.mk.injEq] at hm
      obtain ⟨rfl, rfl⟩ := hm
      refine ⟨wf.symm _ _ (hl _ hq rfl), isSolved_mono hq', hsol rfl, .inl ?_⟩
      rw [net_apply]
      apply List.mem_append_right
      simp only [Option.toList_some, List.mem_singleton]
      rfl
  | _ =>
    apply hold
    unfold apply at hm
    cases parent <;> simpa using hm

structure AllVia (G : Net) (root : ℕ) (c : Config) : Prop where
  all : AllOK G root c
  entered : Entered G c
  via : ViaOK G c.state

theorem allVia_step (wf : WellFormed G) (hnm : PlainNames G) {c c' : Config} (h : AllVia G root c)
    (hs : Step G root sub c c') : AllVia G root c' := by
  refine ⟨allOK_step wf h.all hs, entered_step wf hnm h.entered hs, ?_⟩
  have key : ∀ {f fs s k ks a}, c = ⟨f :: fs, s⟩ → f.todo = k :: ks → ¬ isSolved s (f.part, k) →
      ((G.part f.part).channels ≠ [] → f.channel <:+: G.portName (f.part, k)) →
      flowRoutine G root s f (sideOf sub f k) k = .ok a → ViaOK G (apply s (f.part, k) f.parent a) := by
    intro f fs s k ks a hc ht hn hch ha
    subst hc
    obtain ⟨hv, hans⟩ := step_answer wf h.all ht hn hch ha
    refine viaOK_apply wf h.via (fun q hq => ((h.all.config.frames f List.mem_cons_self).parent q hq).1) hans ?_
    intro q hq hh
    exact handed_link wf h.all.config.clean (h.entered f fs rfl).1 ht hv hn hq ha hh
  cases hs with
  | pop ht => exact h.via
  | skip ht _ => exact h.via
  | brk ht hn hc ha hp hb => exact key rfl ht hn hc ha
  | stay ht hn hc ha hb hl => exact key rfl ht hn hc ha
  | push ht hn hc ha hb hl hq hpump hch => exact key rfl ht hn hc ha

theorem analysed_via (wf : WellFormed G) (hnm : PlainNames G) {s : State} (h : Analysed G (.ok s)) : ViaOK G s := by
  have hrun : ∀ i < G.n, ∀ sub s s', Good G s ∧ ViaOK G s → Run G i sub s s' → Good G s' ∧ ViaOK G s' := by
    rintro i hi sub s s' ⟨h1, h2⟩ ⟨m, hm⟩
    have := steps_invariant (fun _ _ => allVia_step wf hnm) m _ _ ⟨allOK_start h1 hi, entered_start, h2⟩ hm
    exact ⟨this.all.good, this.via⟩
  exact (analysed_invariant (P := fun s => Good G s ∧ ViaOK G s) ⟨good_init, by intro q p hm; simp [init] at hm⟩
    (fun i hi s s' hs hr => hrun i hi _ s s' hs hr) (fun i hi s s' hs _ hr => hrun i hi _ s s' hs hr) h).2

end Verif.Topology
