import Verif.Lemmas.TopologyNet

/-!
# The collected flow net is causal
-/

namespace Verif.Topology

open Verif.FlowNet
open Verif.Topology.Spec
open Verif.FlowNet.Spec (Causal sources Holds)

variable {G : Net} {root : ℕ} {sub : Bool}

/-- The cell of a solved port whose value is known: it is the cell of a pump, or there is a routine for it. -/
def Backed (G : Net) (s : State) (c : ℕ) : Prop :=
  ∃ q, isSolved s q ∧ c = own G q ∧ (G.kind q.1 = .pump ∨ ∃ r ∈ s.net, ¬ SelfCopy r ∧ r.tgt = c)

/-- Routines other than copies of a cell to itself. -/
def effective (net : List Routine) : List Routine := net.filter fun r => ¬ SelfCopy r

structure Good (G : Net) (s : State) : Prop where
  clean : Clean G s
  valve : ValveOK G s
  addr : ∀ p, (G.kind p.1 = .pipe → s.solved p.1 = []) → s.addr p = own G p
  same : ∀ i k k', G.kind i = .pipe → s.addr (i, k) = s.addr (i, k')
  backed : ∀ p, isSolved s p → Backed G s (s.addr p)
  mentioned : ∀ r ∈ s.net, ∀ c ∈ r.tgt :: sources r.op, (∃ i k, c = pfCell i k) ∨ Backed G s c
  causal : Causal (effective s.net)

theorem good_init : Good G (init G) where
  clean := clean_init
  valve := fun i _ h => absurd rfl h
  addr := fun _ _ => rfl
  same := fun i k k' h => by
    show own G (i, k) = own G (i, k')
    unfold own slot
    simp only
    rw [h]
  backed := fun p h => by simp [isSolved, init] at h
  mentioned := fun r h => by simp [init] at h
  causal := by simp [init, effective, Causal]

theorem causal_append {l : List Routine} {r : Routine} (h : Causal l) (h1 : r.tgt ∉ sources r.op)
    (h2 : ∀ r' ∈ l, r.tgt ≠ r'.tgt ∧ r.tgt ∉ sources r'.op) : Causal (l ++ [r]) := by
  induction l with
  | nil => exact ⟨h1, by simp, trivial⟩
  | cons a l ih =>
    refine ⟨h.1, ?_, ih h.2.2 fun r' hr' => h2 r' (List.mem_cons_of_mem _ hr')⟩
    intro r' hr'
    rcases List.mem_append.mp hr' with hr' | hr'
    · exact h.2.1 r' hr'
    · rw [List.mem_singleton] at hr'
      subst hr'
      exact h2 a List.mem_cons_self

theorem net_apply (s : State) (p : Port) (parent : Option Port) (a : Answer) :
    (apply s p parent a).net = s.net ++ a.routine.toList := rfl

theorem backed_mono {s : State} {p : Port} {parent : Option Port} {a : Answer} {c : ℕ} (h : Backed G s c) :
    Backed G (apply s p parent a) c := by
  obtain ⟨q, h1, h2, h3⟩ := h
  refine ⟨q, isSolved_mono h1, h2, ?_⟩
  rcases h3 with h3 | ⟨r, h4, h5⟩
  · exact .inl h3
  · exact .inr ⟨r, by rw [net_apply]; exact List.mem_append_left _ h4, h5⟩

theorem mem_others {n j p : ℕ} (h : j ∈ (List.range n).filter fun k => k ≠ p) : j < n ∧ j ≠ p := by
  simpa using h

/-- The last port of a part. -/
theorem others_solved {s : State} (hs : Clean G s) {p : Port} (hn : ¬ isSolved s p) (hv : Valid G p)
    (hc : cnt G s p.1 = 1) {j : ℕ} (hj : j < G.nports p.1) (hjp : j ≠ p.2) : isSolved s (p.1, j) := by
  by_contra hnj
  have h1 : Clean G (apply s p none ⟨none, none, true, false⟩) := clean_apply hs hn hv
  have h2 : cnt G (apply s p none ⟨none, none, true, false⟩) p.1 = 0 := by
    rw [cnt_apply, if_pos ⟨rfl, rfl⟩, hc]
  have h3 : ¬ isSolved (apply s p none ⟨none, none, true, false⟩) (p.1, j) := by
    rw [isSolved_apply]
    rintro (h | ⟨_, h⟩)
    · exact hnj h
    · exact hjp (by rw [← h])
  have := open_of_unsolved h1 h3 ⟨hv.1, hj⟩
  simp only at this
  omega

/-- A part calculates from openings and ports already solved. -/
theorem compute_sources {s : State} (hs : Clean G s) {p : Port} (hn : ¬ isSolved s p) (hv : Valid G p) {op : Op}
    (h : Compute G s p op) : ∀ c ∈ sources op, (∃ i k, c = pfCell i k) ∨ ∃ q, isSolved s q ∧ c = s.addr q := by
  intro c hc
  cases h with
  | connector hk hcnt hl =>
    right
    have : c ∈ (((List.range (G.nports p.1)).filter fun k => k ≠ p.2).map fun k => s.addr (p.1, k)) := by
      rw [hl]; exact hc
    obtain ⟨j, hj, rfl⟩ := List.mem_map.mp this
    obtain ⟨h1, h2⟩ := mem_others hj
    exact ⟨_, others_solved hs hn hv hcnt h1 h2, rfl⟩
  | storage hk hcnt hl =>
    right
    have : c ∈ ((s.solved p.1).map fun k => s.addr (p.1, k)) := by rw [hl]; exact hc
    obtain ⟨j, hj, rfl⟩ := List.mem_map.mp this
    exact ⟨(p.1, j), hj, rfl⟩
  | valve hk h2 =>
    simp only [sources, List.mem_cons, List.not_mem_nil, or_false] at hc
    rcases hc with rfl | rfl
    · exact .inr ⟨(p.1, 2), h2, rfl⟩
    · exact .inl ⟨_, _, rfl⟩
  | negMul hk hp2 h2 =>
    simp only [sources, List.mem_cons, List.not_mem_nil, or_false] at hc
    rcases hc with rfl | rfl
    · exact .inr ⟨(p.1, 2), h2, rfl⟩
    · exact .inl ⟨_, _, rfl⟩
  | @negDiv k hk hp2 hk2 h2 =>
    simp only [sources, List.mem_cons, List.not_mem_nil, or_false] at hc
    rcases hc with rfl | rfl
    · exact .inr ⟨(p.1, k), h2, rfl⟩
    · exact .inl ⟨_, _, rfl⟩
  | @mulDiv k hk hp2 hk2 h2 =>
    simp only [sources, List.mem_cons, List.not_mem_nil, or_false] at hc
    rcases hc with rfl | rfl | rfl
    · exact .inr ⟨(p.1, k), h2, rfl⟩
    · exact .inl ⟨_, _, rfl⟩
    · exact .inl ⟨_, _, rfl⟩

theorem sources_passOn (t c : ℕ) (b : Bool) : sources (passOn t c b).op = [c] := by
  unfold passOn
  cases b <;> rfl

theorem tgt_passOn (t c : ℕ) (b : Bool) : (passOn t c b).tgt = t := by
  unfold passOn
  cases b <;> rfl

/-- Adding a routine for a port with a cell of its own. -/
theorem good_routine {s : State} (h : Good G s) {p : Port} {parent : Option Port} (hn : ¬ isSolved s p)
    (hv : Valid G p) (hfr : Fresh G s p) (hpipe : G.kind p.1 = .pipe → s.solved p.1 = [])
    (hval : (G.kind p.1 = .mixing ∨ G.kind p.1 = .splitting) → p.2 = 2 ∨ 2 ∈ s.solved p.1)
    {r : Routine} (ht : r.tgt = s.addr p) (handed : Bool)
    (hsrc : ∀ c ∈ sources r.op, (∃ i k, c = pfCell i k) ∨ ∃ q, isSolved s q ∧ c = s.addr q) :
    Good G (apply s p parent ⟨some r, none, true, handed⟩) := by
  have hown : s.addr p = own G p := h.addr p hpipe
  have hsrc' : ∀ c ∈ sources r.op, (∃ i k, c = pfCell i k) ∨ Backed G s c := by
    intro c hc
    rcases hsrc c hc with h1 | ⟨q, h1, rfl⟩
    · exact .inl h1
    · exact .inr (h.backed q h1)
  have hnot : ∀ c, ((∃ i k, c = pfCell i k) ∨ Backed G s c) → r.tgt ≠ c := by
    intro c hc he
    rw [ht, hown] at he
    rcases hc with ⟨i, k, rfl⟩ | ⟨q, h1, h2, _⟩
    · exact own_ne_pfCell _ _ _ he
    · exact hfr q h1 (by rw [he, h2])
  have hself : ¬ SelfCopy r := by
    intro hsc
    unfold SelfCopy at hsc
    have : r.tgt ∈ sources r.op := by rw [hsc]; simp [sources]
    exact hnot _ (hsrc' _ this) rfl
  have hnet : (apply s p parent ⟨some r, none, true, handed⟩).net = s.net ++ [r] := rfl
  have hback : Backed G (apply s p parent ⟨some r, none, true, handed⟩) (s.addr p) :=
    ⟨p, isSolved_apply.mpr (.inr ⟨rfl, rfl⟩), hown, .inr ⟨r, by rw [hnet]; simp, hself, ht⟩⟩
  refine ⟨clean_apply h.clean hn hv, ?_, ?_, h.same, ?_, ?_, ?_⟩
  · intro i hi _
    rw [solved_apply]
    by_cases hip : i = p.1
    · rw [if_pos ⟨rfl, hip⟩]
      rcases hval (by rw [← hip]; exact hi) with h2 | h2
      · rw [h2]; simp
      · rw [hip]; exact List.mem_append_left _ h2
    · rw [if_neg (by simp [hip])]
      apply h.valve i hi
      rename_i hne
      rwa [solved_apply, if_neg (by simp [hip])] at hne
  · intro q hq
    apply h.addr q
    intro hk
    have := hq hk
    rw [solved_apply] at this
    split_ifs at this with hc
    · simp at this
    · exact this
  · intro q hq
    rcases isSolved_apply.mp hq with h1 | ⟨_, rfl⟩
    · exact backed_mono (h.backed q h1)
    · exact hback
  · intro r' hr' c hc
    rw [hnet] at hr'
    rcases List.mem_append.mp hr' with hr' | hr'
    · rcases h.mentioned r' hr' c hc with h1 | h1
      · exact .inl h1
      · exact .inr (backed_mono h1)
    · rw [List.mem_singleton] at hr'
      subst hr'
      rcases List.mem_cons.mp hc with rfl | hc
      · right; rw [ht]; exact hback
      · rcases hsrc' c hc with h1 | h1
        · exact .inl h1
        · exact .inr (backed_mono h1)
  · rw [hnet]
    unfold effective
    rw [List.filter_append]
    have : ([r].filter fun r => ¬ SelfCopy r) = [r] := by simp [hself]
    rw [this]
    refine causal_append h.causal (fun hc => hnot _ (hsrc' _ hc) rfl) ?_
    intro r' hr'
    have hr'' := List.mem_of_mem_filter hr'
    exact ⟨hnot _ (h.mentioned r' hr'' _ List.mem_cons_self),
      fun hc => hnot _ (h.mentioned r' hr'' _ (List.mem_cons_of_mem _ hc)) rfl⟩

theorem good_quiet {s : State} (h : Good G s) {p : Port} {parent : Option Port} (hn : ¬ isSolved s p)
    (hv : Valid G p) (hval : G.kind p.1 ≠ .mixing ∧ G.kind p.1 ≠ .splitting)
    (hb : Backed G (apply s p parent ⟨none, none, true, false⟩) (s.addr p)) :
    Good G (apply s p parent ⟨none, none, true, false⟩) := by
  have hnet : (apply s p parent ⟨none, none, true, false⟩).net = s.net := by simp [net_apply]
  refine ⟨clean_apply h.clean hn hv, ?_, ?_, h.same, ?_, ?_, ?_⟩
  · intro i hi hne
    rw [solved_apply] at hne ⊢
    by_cases hip : i = p.1
    · subst hip; rcases hi with hi | hi
      · exact absurd hi hval.1
      · exact absurd hi hval.2
    · rw [if_neg (by simp [hip])] at hne ⊢
      exact h.valve i hi hne
  · intro q hq
    apply h.addr q
    intro hk
    have := hq hk
    rw [solved_apply] at this
    split_ifs at this with hc
    · simp at this
    · exact this
  · intro q hq
    rcases isSolved_apply.mp hq with h1 | ⟨_, rfl⟩
    · exact backed_mono (h.backed q h1)
    · exact hb
  · intro r hr c hc
    rw [hnet] at hr
    rcases h.mentioned r hr c hc with h1 | h1
    · exact .inl h1
    · exact .inr (backed_mono h1)
  · rw [hnet]; exact h.causal

theorem good_apply {s : State} (h : Good G s) {p : Port} {parent : Option Port} {a : Answer} (hn : ¬ isSolved s p)
    (hv : Valid G p) (hpar : ∀ q, parent = some q → isSolved s q) (ha : Ans G s p parent a) :
    Good G (apply s p parent a) := by
  cases ha with
  | reenter => rw [apply_unsolving]; exact h
  | pump hk =>
    refine good_quiet h hn hv (by rw [hk]; simp) ⟨p, isSolved_apply.mpr (.inr ⟨rfl, rfl⟩), ?_, .inl hk⟩
    exact h.addr p (by rw [hk]; simp)
  | @pipe k hk hs =>
    refine good_quiet h hn hv (by rw [hk]; simp) ?_
    have : s.addr p = s.addr (p.1, k) := h.same p.1 p.2 k hk
    rw [this]
    exact backed_mono (h.backed _ hs)
  | @hexNum k hk hs ho =>
    refine good_quiet h hn hv (by rw [hk]; simp) ?_
    have : s.addr p = s.addr (p.1, k) := by
      rw [h.addr p (by rw [hk]; simp), h.addr (p.1, k) (by simp only; rw [hk]; simp), ho]
    rw [this]
    exact backed_mono (h.backed _ hs)
  | @view q hk hnil hq hi =>
    have hsq := hpar q hq
    have hne : q.1 ≠ p.1 := by
      intro he
      unfold isSolved at hsq
      rw [he, hnil] at hsq
      simp at hsq
    have haddr : ∀ x : Port, (apply s p parent ⟨none, some (s.addr q), true, true⟩).addr x =
        if x.1 = p.1 then s.addr q else s.addr x := fun x => rfl
    have hnet : (apply s p parent ⟨none, some (s.addr q), true, true⟩).net = s.net := by simp [net_apply]
    refine ⟨clean_apply h.clean hn hv, ?_, ?_, ?_, ?_, ?_, ?_⟩
    · intro i hi hne
      rw [solved_apply] at hne ⊢
      by_cases hip : i = p.1
      · subst hip; rw [hk] at hi; simp at hi
      · rw [if_neg (by simp [hip])] at hne ⊢
        exact h.valve i hi hne
    · intro x hx
      rw [haddr]
      by_cases hxp : x.1 = p.1
      · exfalso
        have := hx (by rw [hxp]; exact hk)
        rw [solved_apply, if_pos ⟨rfl, hxp⟩] at this
        simp at this
      · rw [if_neg hxp]
        apply h.addr x
        intro hk
        have := hx hk
        rwa [solved_apply, if_neg (by simp [hxp])] at this
    · intro i k k' hk'
      rw [haddr, haddr]
      simp only
      split_ifs
      · rfl
      · exact h.same i k k' hk'
    · intro x hx
      rw [haddr]
      rcases isSolved_apply.mp hx with h1 | ⟨_, rfl⟩
      · have : x.1 ≠ p.1 := by
          intro he
          unfold isSolved at h1
          rw [he, hnil] at h1
          simp at h1
        rw [if_neg this]
        exact backed_mono (h.backed x h1)
      · rw [if_pos rfl]
        exact backed_mono (h.backed q hsq)
    · intro r hr c hc
      rw [hnet] at hr
      rcases h.mentioned r hr c hc with h1 | h1
      · exact .inl h1
      · exact .inr (backed_mono h1)
    · rw [hnet]; exact h.causal
  | @copy k hk hs ho =>
    have he : s.addr (p.1, k) = s.addr p := by
      rw [h.addr p (by rw [hk]; simp), h.addr (p.1, k) (by simp only; rw [hk]; simp), ho]
    rw [he]
    have hnet : (apply s p parent ⟨some ⟨s.addr p, .pass (s.addr p)⟩, none, true, false⟩).net =
        s.net ++ [⟨s.addr p, .pass (s.addr p)⟩] := rfl
    have hb : Backed G (apply s p parent ⟨some ⟨s.addr p, .pass (s.addr p)⟩, none, true, false⟩) (s.addr p) := by
      apply backed_mono
      rw [← he]
      exact h.backed _ hs
    refine ⟨clean_apply h.clean hn hv, ?_, ?_, h.same, ?_, ?_, ?_⟩
    · intro i hi hne
      rw [solved_apply] at hne ⊢
      by_cases hip : i = p.1
      · subst hip; rw [hk] at hi; simp at hi
      · rw [if_neg (by simp [hip])] at hne ⊢
        exact h.valve i hi hne
    · intro q hq
      apply h.addr q
      intro hk
      have := hq hk
      rw [solved_apply] at this
      split_ifs at this with hc
      · simp at this
      · exact this
    · intro q hq
      rcases isSolved_apply.mp hq with h1 | ⟨_, rfl⟩
      · exact backed_mono (h.backed q h1)
      · exact hb
    · intro r hr c hc
      rw [hnet] at hr
      rcases List.mem_append.mp hr with hr | hr
      · rcases h.mentioned r hr c hc with h1 | h1
        · exact .inl h1
        · exact .inr (backed_mono h1)
      · rw [List.mem_singleton] at hr
        subst hr
        simp only [sources, List.mem_cons, List.not_mem_nil, or_false, or_self] at hc
        subst hc
        exact .inr hb
    · rw [hnet]
      unfold effective
      rw [List.filter_append]
      have : ([(⟨s.addr p, .pass (s.addr p)⟩ : Routine)].filter fun r => ¬ SelfCopy r) = [] := by
        simp [SelfCopy]
      rw [this, List.append_nil]
      exact h.causal
  | @handed q hnp _ _ hfr hpipe hval hq =>
    refine good_routine h hn hv hfr hpipe (fun hk => .inl (hval hk)) (tgt_passOn _ _ _) true ?_
    rw [sources_passOn]
    intro c hc
    rw [List.mem_singleton] at hc
    exact .inr ⟨q, hpar q hq, hc⟩
  | @compute op hfr hcomp =>
    refine good_routine h hn hv hfr ?_ ?_ rfl false (compute_sources h.clean hn hv hcomp)
    · intro hk
      cases hcomp <;> simp_all
    · intro hk
      cases hcomp with
      | storage h1 => rcases h1 with h1 | h1 <;> rw [h1] at hk <;> simp at hk
      | _ => simp_all

/-! ## Whole calls -/

/-- The channel of a running call is one of the part. -/
def ChannelsOK (G : Net) (c : Config) : Prop :=
  ∀ f ∈ c.stack, f.parent ≠ none → (G.part f.part).channels ≠ [] → f.channel ∈ (G.part f.part).channels

structure AllOK (G : Net) (root : ℕ) (c : Config) : Prop where
  config : ConfigOK G root c
  channels : ChannelsOK G c
  good : Good G c.state

theorem channelsOK_step {c c' : Config} (h : ChannelsOK G c) (hs : Step G root sub c c') : ChannelsOK G c' := by
  cases hs with
  | pop ht => exact fun g hg => h g (List.mem_cons_of_mem _ hg)
  | @skip f fs s k ks ht _ =>
    intro g hg
    rcases List.mem_cons.mp hg with rfl | hg
    · exact h f List.mem_cons_self
    · exact h g (List.mem_cons_of_mem _ hg)
  | brk => exact fun g hg => h g (List.mem_cons_of_mem _ hg)
  | @stay f fs s k ks a =>
    intro g hg
    rcases List.mem_cons.mp hg with rfl | hg
    · exact h f List.mem_cons_self
    · exact h g (List.mem_cons_of_mem _ hg)
  | @push f fs s k ks a q ch side ht hn hc ha hb hl hq hpump hch =>
    intro g hg
    rcases List.mem_cons.mp hg with rfl | hg
    · intro _ hne
      exact (lastChannel_mem (hch hne)).1
    · rcases List.mem_cons.mp hg with rfl | hg
      · exact h f List.mem_cons_self
      · exact h g (List.mem_cons_of_mem _ hg)

/-- The answer in a pass of the loop. -/
theorem step_answer (wf : WellFormed G) {f : Frame} {fs : List Frame} {s : State} {k : ℕ} {ks : List ℕ} {a : Answer}
    {side : Side} (h : AllOK G root ⟨f :: fs, s⟩) (ht : f.todo = k :: ks) (hn : ¬ isSolved s (f.part, k))
    (hc : (G.part f.part).channels ≠ [] → f.channel <:+: G.portName (f.part, k))
    (ha : flowRoutine G root s f side k = .ok a) : Valid G (f.part, k) ∧ Ans G s (f.part, k) f.parent a := by
  have hf := h.config.frames f List.mem_cons_self
  have hv : Valid G (f.part, k) := ⟨hf.valid, hf.todo k (by rw [ht]; exact List.mem_cons_self)⟩
  exact ⟨hv, answer wf h.good.clean h.good.valve hv hn (h.channels f List.mem_cons_self) hc ha⟩

theorem allOK_step (wf : WellFormed G) {c c' : Config} (h : AllOK G root c) (hs : Step G root sub c c') :
    AllOK G root c' := by
  refine ⟨configOK_step wf h.config hs, channelsOK_step h.channels hs, ?_⟩
  cases hs with
  | pop ht => exact h.good
  | skip ht _ => exact h.good
  | @brk f fs s k ks a ht hn hc ha hp hb =>
    obtain ⟨hv, hans⟩ := step_answer wf h ht hn hc ha
    exact good_apply h.good hn hv (fun q hq => ((h.config.frames f List.mem_cons_self).parent q hq).1) hans
  | @stay f fs s k ks a ht hn hc ha hb hl =>
    obtain ⟨hv, hans⟩ := step_answer wf h ht hn hc ha
    exact good_apply h.good hn hv (fun q hq => ((h.config.frames f List.mem_cons_self).parent q hq).1) hans
  | @push f fs s k ks a q ch side ht hn hc ha hb hl hq hpump hch =>
    obtain ⟨hv, hans⟩ := step_answer wf h ht hn hc ha
    exact good_apply h.good hn hv (fun q hq => ((h.config.frames f List.mem_cons_self).parent q hq).1) hans

theorem allOK_start {s : State} (h : Good G s) (hr : root < G.n) : AllOK G root (start G root s) := by
  refine ⟨configOK_start h.clean hr, ?_, h⟩
  intro f hf hp
  simp only [start, List.mem_singleton] at hf
  subst hf
  exact absurd rfl hp

theorem run_good (wf : WellFormed G) {s s' : State} (h : Good G s) (hr : root < G.n) (hrun : Run G root sub s s') :
    Good G s' := by
  obtain ⟨m, hm⟩ := hrun
  exact (steps_invariant (fun _ _ => allOK_step wf) m _ _ (allOK_start h hr) hm).good

/-- Whatever every call keeps is kept by the analysis. -/
theorem pumps_invariant {P : State → Prop} {l : List ℕ} (hl : ∀ i ∈ l, i < G.n)
    (hP : ∀ i < G.n, ∀ s s', P s → Run G i false s s' → P s') {s : State} {r : Except Err State}
    (h : Pumps G l s r) : P s → ∀ s', r = .ok s' → P s' := by
  induction h with
  | done s => intro hs s' he; simp only [Except.ok.injEq] at he; rw [← he]; exact hs
  | @more i is s s1 r hrun _ ih =>
    intro hs
    exact ih (fun j hj => hl j (List.mem_cons_of_mem _ hj)) (hP i (hl i List.mem_cons_self) _ _ hs hrun)
  | fail _ => intro _ s' he; simp at he

theorem subs_invariant {P : State → Prop} {el : State → ℕ → Prop}
    (hP : ∀ i < G.n, ∀ s s', P s → el s i → Run G i true s s' → P s') {s : State} {r : Except Err State}
    (h : Subs G el s r) : P s → ∀ s', r = .ok s' → P s' := by
  induction h with
  | done _ => intro hs s' he; simp only [Except.ok.injEq] at he; rw [← he]; exact hs
  | @more i s s1 r hi hel hrun _ ih => intro hs; exact ih (hP i hi _ _ hs hel hrun)
  | fail _ _ _ => intro _ s' he; simp at he

theorem mem_pumps {i : ℕ} : i ∈ pumps G ↔ i < G.n ∧ G.kind i = .pump := by
  unfold pumps
  simp

theorem analysed_invariant {P : State → Prop} (h0 : P (init G))
    (hP1 : ∀ i < G.n, ∀ s s', P s → Run G i false s s' → P s')
    (hP2 : ∀ i < G.n, ∀ s s', P s → eligible2 G s i → Run G i true s s' → P s') {s : State}
    (h : Analysed G (.ok s)) : P s := by
  cases h with
  | second hp h1 h2 =>
    have a1 := pumps_invariant (fun i hi => (mem_pumps.mp hi).1) hP1 hp h0 _ rfl
    have a2 := subs_invariant (fun i hi s s' hs he hr => hP2 i hi s s' hs ⟨he.1, he.2.2⟩ hr) h1 a1 _ rfl
    exact subs_invariant hP2 h2 a2 _ rfl

theorem analysed_good (wf : WellFormed G) {s : State} (h : Analysed G (.ok s)) : Good G s :=
  analysed_invariant good_init (fun _ hi _ _ hs hr => run_good wf hs hi hr)
    (fun _ hi _ _ hs _ hr => run_good wf hs hi hr) h

end Verif.Topology
