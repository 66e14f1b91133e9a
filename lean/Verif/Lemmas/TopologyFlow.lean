import Verif.Lemmas.TopologyExec

/-!
# Values of the flows that the analysis has found
-/

namespace Verif.Topology

open Verif.FlowNet
open Verif.Topology.Spec
open Verif.FlowNet.Spec (Causal sources Holds)

variable {G : Net} {root : ℕ} {sub : Bool}

/-- Whatever every answer keeps is kept by the analysis. -/
theorem run_induction (wf : WellFormed G) {P : State → Prop}
    (hP : ∀ s p parent a, Good G s → P s → ¬ isSolved s p → Valid G p → Ans G s p parent a →
      P (apply s p parent a)) {s s' : State} (hg : Good G s) (hs : P s) (hr : root < G.n)
    (h : Run G root sub s s') : P s' := by
  obtain ⟨m, hm⟩ := h
  refine (steps_invariant (P := fun c => AllOK G root c ∧ P c.state) ?_ m _ _ ⟨allOK_start hg hr, hs⟩ hm).2
  rintro c c' ⟨h1, h2⟩ hst
  refine ⟨allOK_step wf h1 hst, ?_⟩
  cases hst with
  | pop ht => exact h2
  | skip ht _ => exact h2
  | @brk f fs s k ks a ht hn hc ha hp hb =>
    obtain ⟨hv, hans⟩ := step_answer wf h1 ht hn hc ha
    exact hP _ _ _ _ h1.good h2 hn hv hans
  | @stay f fs s k ks a ht hn hc ha hb hl =>
    obtain ⟨hv, hans⟩ := step_answer wf h1 ht hn hc ha
    exact hP _ _ _ _ h1.good h2 hn hv hans
  | @push f fs s k ks a q ch side ht hn hc ha hb hl hq hpump hch =>
    obtain ⟨hv, hans⟩ := step_answer wf h1 ht hn hc ha
    exact hP _ _ _ _ h1.good h2 hn hv hans

theorem analysed_induction (wf : WellFormed G) {P : State → Prop} (h0 : P (init G))
    (hP : ∀ s p parent a, Good G s → P s → ¬ isSolved s p → Valid G p → Ans G s p parent a →
      P (apply s p parent a)) {s : State} (h : Analysed G (.ok s)) : P s :=
  (analysed_invariant (P := fun s => Good G s ∧ P s) ⟨good_init, h0⟩
    (fun _ hi _ _ hs hr => ⟨run_good wf hs.1 hi hr, run_induction wf hP hs.1 hs.2 hi hr⟩)
    (fun _ hi _ _ hs _ hr => ⟨run_good wf hs.1 hi hr, run_induction wf hP hs.1 hs.2 hi hr⟩) h).2

/-- Every routine does something. -/
theorem analysed_no_idle (wf : WellFormed G) {s : State} (h : Analysed G (.ok s)) : ∀ r ∈ s.net, r.op ≠ .idle := by
  refine analysed_induction wf (P := fun s => ∀ r ∈ s.net, r.op ≠ .idle) (by simp [init]) ?_ h
  intro s p parent a _ hs _ _ ha r hr
  rw [net_apply] at hr
  rcases List.mem_append.mp hr with hr | hr
  · exact hs r hr
  · cases ha with
    | reenter => simp at hr
    | pump => simp at hr
    | pipe => simp at hr
    | hexNum => simp at hr
    | view => simp at hr
    | copy => simp at hr; subst hr; simp
    | handed =>
      simp only [Option.toList_some, List.mem_singleton] at hr
      subst hr
      unfold passOn
      split_ifs <;> simp
    | compute _ hc =>
      simp only [Option.toList_some, List.mem_singleton] at hr
      subst hr
      cases hc <;> simp

/-- Routines write the cells of solved ports, but not those of pumps. -/
theorem analysed_targets (wf : WellFormed G) {s : State} (h : Analysed G (.ok s)) :
    ∀ r ∈ s.net, ∃ p, isSolved s p ∧ G.kind p.1 ≠ .pump ∧ r.tgt = own G p := by
  refine analysed_induction wf
    (P := fun s => ∀ r ∈ s.net, ∃ p, isSolved s p ∧ G.kind p.1 ≠ .pump ∧ r.tgt = own G p) (by simp [init]) ?_ h
  intro s p parent a hg hs _ _ ha r hr
  rw [net_apply] at hr
  rcases List.mem_append.mp hr with hr | hr
  · obtain ⟨q, h1, h2⟩ := hs r hr
    exact ⟨q, isSolved_mono h1, h2⟩
  · have hsolved : a.solves = true → isSolved (apply s p parent a) p := fun h => isSolved_apply.mpr (.inr ⟨h, rfl⟩)
    cases ha with
    | reenter => simp at hr
    | pump => simp at hr
    | pipe => simp at hr
    | hexNum => simp at hr
    | view => simp at hr
    | copy hk _ _ =>
      simp only [Option.toList_some, List.mem_singleton] at hr
      subst hr
      exact ⟨p, hsolved rfl, by rw [hk]; simp, hg.addr p (by rw [hk]; simp)⟩
    | handed hnp _ _ _ hpipe =>
      simp only [Option.toList_some, List.mem_singleton] at hr
      subst hr
      exact ⟨p, hsolved rfl, hnp, by rw [tgt_passOn]; exact hg.addr p hpipe⟩
    | compute _ hc =>
      simp only [Option.toList_some, List.mem_singleton] at hr
      subst hr
      have hk : G.kind p.1 ≠ .pump ∧ G.kind p.1 ≠ .pipe := by
        cases hc with
        | connector hk => rw [hk]; simp
        | storage hk => rcases hk with hk | hk <;> rw [hk] <;> simp
        | valve hk => rcases hk with hk | hk <;> rw [hk] <;> simp
        | negMul hk => rw [hk]; simp
        | negDiv hk => rw [hk]; simp
        | mulDiv hk => rw [hk]; simp
      exact ⟨p, hsolved rfl, hk.1, hg.addr p (fun h => absurd h hk.2)⟩

/-- At the end of the loop over sub nets there is nothing left to solve. -/
theorem subs_done {el : State → ℕ → Prop} {s : State} {r : Except Err State} (h : Subs G el s r) :
    ∀ s', r = .ok s' → ∀ i < G.n, ¬ el s' i := by
  induction h with
  | done hd => intro s' he; simp only [Except.ok.injEq] at he; rw [← he]; exact hd
  | more _ _ _ _ ih => exact ih
  | fail _ _ _ => intro s' he; simp at he

theorem analysed_done {s : State} (h : Analysed G (.ok s)) : ∀ i < G.n, ¬ eligible2 G s i := by
  cases h with
  | second _ _ h2 => exact subs_done h2 _ rfl

theorem run_exists (wf : WellFormed G) {s : State} (hs : Clean G s) (hr : root < G.n) :
    (∃ s', Clean G s' ∧ Run G root sub s s') ∨ ∃ e, Raises G root sub s e := by
  rcases run_or_raises (sub := sub) wf hs hr with ⟨s', h⟩ | h
  · exact .inl ⟨s', run_clean wf hs hr h, h⟩
  · exact .inr h

theorem pumps_exists (wf : WellFormed G) : ∀ (l : List ℕ), (∀ i ∈ l, i < G.n) → ∀ s, Clean G s →
    (∃ s', Clean G s' ∧ Pumps G l s (.ok s')) ∨ ∃ e, Pumps G l s (.error e)
  | [], _, s, hs => .inl ⟨s, hs, .done s⟩
  | i :: is, hl, s, hs => by
    rcases run_exists (sub := false) wf hs (hl i List.mem_cons_self) with ⟨s1, h1, h2⟩ | ⟨e, he⟩
    · rcases pumps_exists wf is (fun j hj => hl j (List.mem_cons_of_mem _ hj)) s1 h1 with ⟨s', h3, h4⟩ | ⟨e, he⟩
      · exact .inl ⟨s', h3, .more h2 h4⟩
      · exact .inr ⟨e, .more h2 he⟩
    · exact .inr ⟨e, .fail he⟩

theorem subs_exists (wf : WellFormed G) {el : State → ℕ → Prop} (hel : ∀ s i, el s i → eligible2 G s i) :
    ∀ (u : ℕ) (s : State), Clean G s → openPorts G s = u →
      (∃ s', Clean G s' ∧ Subs G el s (.ok s')) ∨ ∃ e, Subs G el s (.error e) := by
  intro u
  induction u using Nat.strong_induction_on with
  | _ u ih =>
    intro s hs hu
    by_cases hd : ∀ i < G.n, ¬ el s i
    · exact .inl ⟨s, hs, .done hd⟩
    · push Not at hd
      obtain ⟨i, hi, he⟩ := hd
      rcases run_exists (sub := true) wf hs hi with ⟨s1, h1, h2⟩ | ⟨e, h2⟩
      · have := eligible_decreases wf hs hi (hel _ _ he) h2
        rcases ih _ (by rw [← hu]; exact this) s1 h1 rfl with ⟨s', h3, h4⟩ | ⟨e, h4⟩
        · exact .inl ⟨s', h3, .more hi he h2 h4⟩
        · exact .inr ⟨e, .more hi he h2 h4⟩
      · exact .inr ⟨e, .fail hi he h2⟩

theorem eligible1_eligible2 (s : State) (i : ℕ) (h : eligible1 G s i) : eligible2 G s i := ⟨h.1, h.2.2⟩

theorem analysed_exists (wf : WellFormed G) : ∃ r, Analysed G r := by
  rcases pumps_exists wf (pumps G) (fun i hi => (mem_pumps.mp hi).1) _ clean_init with ⟨s, h1, h2⟩ | ⟨e, h2⟩
  · rcases subs_exists wf eligible1_eligible2 _ s h1 rfl with ⟨s1, h3, h4⟩ | ⟨e, h4⟩
    · rcases subs_exists wf (fun _ _ h => h) _ s1 h3 rfl with ⟨s2, _, h6⟩ | ⟨e, h6⟩
      · exact ⟨_, .second h2 h4 h6⟩
      · exact ⟨_, .second h2 h4 h6⟩
    · exact ⟨_, .first h2 h4⟩
  · exact ⟨_, .pumps h2⟩

variable {K : Type*} [Field K]

theorem exec_selfCopy (v : ℕ → K) {r : Routine} (h : SelfCopy r) : exec v r = v := by
  unfold SelfCopy at h
  unfold exec
  rw [h]
  funext i
  simp only [write]
  split_ifs with hi
  · rw [hi]
  · rfl

/-- Copies of a cell to itself do nothing. -/
theorem evalNet_effective : ∀ (net : List Routine) (v : ℕ → K), evalNet (effective net) v = evalNet net v
  | [], _ => rfl
  | r :: net, v => by
    unfold effective
    by_cases hr : SelfCopy r
    · rw [List.filter_cons_of_neg (by simpa using hr)]
      show evalNet (effective net) v = evalNet net (exec v r)
      rw [exec_selfCopy v hr]
      exact evalNet_effective net v
    · rw [List.filter_cons_of_pos (by simpa using hr)]
      exact evalNet_effective net (exec v r)

/-- An equation gives the value of its target. -/
theorem holds_determines {u u' : ℕ → K} {r : Routine} (hi : r.op ≠ .idle) (h : Holds u r) (h' : Holds u' r)
    (hs : ∀ c ∈ sources r.op, u c = u' c) : u r.tgt = u' r.tgt := by
  obtain ⟨t, op⟩ := r
  cases op with
  | idle => exact absurd rfl hi
  | negSum a rest =>
    simp only [Holds] at h h'
    have h1 : u a = u' a := hs a (by simp [sources])
    have h2 : (rest.map u).sum = (rest.map u').sum := by
      congr 1
      exact List.map_congr_left fun c hc => hs c (by simp [sources, hc])
    rw [h1, h2] at h
    linear_combination h - h'
  | sum l =>
    simp only [Holds] at h h'
    rw [h, h']
    congr 1
    exact List.map_congr_left fun c hc => hs c (by simp [sources, hc])
  | pass a => simp only [Holds] at h h'; rw [h, h', hs a (by simp [sources])]
  | negMul a b => simp only [Holds] at h h'; rw [h, h', hs a (by simp [sources]), hs b (by simp [sources])]
  | negDiv a b => simp only [Holds] at h h'; rw [h, h', hs a (by simp [sources]), hs b (by simp [sources])]
  | mul a b => simp only [Holds] at h h'; rw [h, h', hs a (by simp [sources]), hs b (by simp [sources])]
  | div a b => simp only [Holds] at h h'; rw [h, h', hs a (by simp [sources]), hs b (by simp [sources])]
  | sub a b => simp only [Holds] at h h'; rw [h, h', hs a (by simp [sources]), hs b (by simp [sources])]
  | mulDiv a b c =>
    simp only [Holds] at h h'
    rw [h, h', hs a (by simp [sources]), hs b (by simp [sources]), hs c (by simp [sources])]

/-- A causal net whose sources are given cells or targets determines its targets. -/
theorem evalNet_determined : ∀ (net : List Routine) (A : ℕ → Prop) (v v' : ℕ → K), Causal net →
    (∀ r ∈ net, r.op ≠ .idle) → (∀ r ∈ net, ∀ c ∈ sources r.op, A c ∨ ∃ r' ∈ net, r'.tgt = c) →
    (∀ c, A c → v c = v' c) → ∀ c, (A c ∨ ∃ r ∈ net, r.tgt = c) → evalNet net v c = evalNet net v' c
  | [], A, v, v', _, _, _, hA, c, hc => by
    rcases hc with hc | ⟨r, hr, _⟩
    · exact hA c hc
    · simp at hr
  | r :: net, A, v, v', h, hi, hs, hA, c, hc => by
    have hsrc : ∀ c ∈ sources r.op, v c = v' c := by
      intro c hc
      rcases hs r List.mem_cons_self c hc with h1 | ⟨r', hr', rfl⟩
      · exact hA c h1
      · rcases List.mem_cons.mp hr' with rfl | hr'
        · exact absurd hc h.1
        · exact absurd hc (h.2.1 r' hr').2
    have hother : ∀ (w : ℕ → K) c, c ≠ r.tgt → exec w r c = w c := by
      intro w c hc
      exact evalNet_other [r] w c (by simpa using fun h => hc h.symm)
    have ht : exec v r r.tgt = exec v' r r.tgt := by
      refine holds_determines (hi r List.mem_cons_self) (exec_holds v r h.1) (exec_holds v' r h.1) ?_
      intro c hc
      have hne : c ≠ r.tgt := by rintro rfl; exact h.1 hc
      rw [hother v c hne, hother v' c hne, hsrc c hc]
    refine evalNet_determined net (fun c => A c ∨ c = r.tgt) (exec v r) (exec v' r) h.2.2
      (fun r' hr' => hi r' (List.mem_cons_of_mem _ hr')) ?_ ?_ c ?_
    · intro r' hr' c hc
      rcases hs r' (List.mem_cons_of_mem _ hr') c hc with h1 | ⟨r'', hr'', h1⟩
      · exact .inl (.inl h1)
      · rcases List.mem_cons.mp hr'' with rfl | hr''
        · exact .inl (.inr h1.symm)
        · exact .inr ⟨r'', hr'', h1⟩
    · intro c hc
      by_cases he : c = r.tgt
      · rw [he]; exact ht
      · rcases hc with hc | hc
        · rw [hother v c he, hother v' c he, hA c hc]
        · exact absurd hc he
    · rcases hc with hc | ⟨r', hr', h1⟩
      · exact .inl (.inl hc)
      · rcases List.mem_cons.mp hr' with rfl | hr'
        · exact .inl (.inr h1.symm)
        · exact .inr ⟨r', hr', h1⟩

/-- The flow at every solved port follows from the flows of the pumps and the openings of the valves. -/
theorem solved_determined (wf : WellFormed G) {s : State} (h : Analysed G (.ok s)) {v v' : ℕ → K}
    (hp : ∀ i < G.n, G.kind i = .pump → v (own G (i, 0)) = v' (own G (i, 0)))
    (hv : ∀ i k, v (pfCell i k) = v' (pfCell i k)) {p : Port} (hs : isSolved s p) :
    evalNet s.net v (s.addr p) = evalNet s.net v' (s.addr p) := by
  have hg := analysed_good wf h
  have key : ∀ c, Backed G s c → ((∃ i k, c = pfCell i k) ∨ ∃ i < G.n, G.kind i = .pump ∧ c = own G (i, 0)) ∨
      ∃ r ∈ effective s.net, r.tgt = c := by
    rintro c ⟨q, h1, h2, h3 | ⟨r, h4, h5, h6⟩⟩
    · refine .inl (.inr ⟨q.1, (hg.clean.valid q h1).1, h3, ?_⟩)
      rw [h2]
      unfold own slot
      simp only
      rw [h3]
    · exact .inr ⟨r, by unfold effective; rw [List.mem_filter]; exact ⟨h4, by simpa using h5⟩, h6⟩
  rw [← evalNet_effective, ← evalNet_effective (v := v')]
  refine evalNet_determined (effective s.net)
    (fun c => (∃ i k, c = pfCell i k) ∨ ∃ i < G.n, G.kind i = .pump ∧ c = own G (i, 0)) v v' hg.causal ?_ ?_ ?_ _ ?_
  · intro r hr
    exact analysed_no_idle wf h r (List.mem_of_mem_filter hr)
  · intro r hr c hc
    rcases hg.mentioned r (List.mem_of_mem_filter hr) c (List.mem_cons_of_mem _ hc) with h1 | h1
    · exact .inl (.inl h1)
    · exact key c h1
  · rintro c (⟨i, k, rfl⟩ | ⟨i, hi, hk, rfl⟩)
    · exact hv i k
    · exact hp i hi hk
  · exact key _ (hg.backed p hs)

end Verif.Topology
