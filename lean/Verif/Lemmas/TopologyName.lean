import Verif.Lemmas.TopologyVia

/-!
# Names of parts, determinism
-/

namespace Verif.Topology

open Verif.FlowNet
open Verif.Topology.Spec

variable {G : Net} {root : ℕ} {sub : Bool}

theorem lastChannel_plain {name port : List Char} {channels : List (List Char)}
    (h : ∀ c ∈ channels, ';' ∉ c ∧ ¬ c <:+: name) :
    lastChannel channels (name ++ ';' :: port) = lastChannel channels port := by
  unfold lastChannel
  congr 1
  apply List.filter_congr
  intro d hd
  obtain ⟨h1, h2⟩ := h d hd
  rw [decide_eq_decide]
  constructor
  · intro hi
    rcases infix_split h1 hi with h3 | h3
    · exact absurd h3 h2
    · exact h3
  · rintro ⟨s, t, hst⟩
    exact ⟨name ++ ';' :: s, t, by rw [← hst]; simp⟩

theorem descend_rename (wf : WellFormed G) {ν : ℕ → List Char} (h : PlainNames G) (h' : PlainNames (rename G ν))
    (s : State) (f : Frame) (fs : List Frame) (side : Side) (k : ℕ) :
    descend (rename G ν) root s f fs side k = descend G root s f fs side k := by
  unfold descend
  show (match G.link (f.part, k) with | none => _ | some q => _) = (match G.link (f.part, k) with | none => _ | some q => _)
  cases hl : G.link (f.part, k) with
  | none => rfl
  | some q =>
    have hq := (wf.valid _ _ hl).1
    have e1 := lastChannel_plain (port := G.portName q) (h q.1 hq)
    have e2 := lastChannel_plain (port := G.portName q) (h' q.1 hq)
    have e3 : lastChannel ((rename G ν).part q.1).channels
        (((rename G ν).part q.1).name ++ ';' :: (rename G ν).portName q) =
        lastChannel (G.part q.1).channels ((G.part q.1).name ++ ';' :: G.portName q) := by
      rw [e1]; exact e2
    simp only
    rw [e3]
    rfl

theorem step_rename (wf : WellFormed G) {ν : ℕ → List Char} (h : PlainNames G) (h' : PlainNames (rename G ν))
    (c : Config) : step (rename G ν) root sub c = step G root sub c := by
  unfold step
  simp only [descend_rename wf h h']
  rfl

theorem steps_rename (wf : WellFormed G) {ν : ℕ → List Char} (h : PlainNames G) (h' : PlainNames (rename G ν)) :
    ∀ (m : ℕ) (c : Config), steps (rename G ν) root sub m c = steps G root sub m c
  | 0, _ => rfl
  | m + 1, c => by
    rw [steps_succ, steps_succ, step_rename wf h h']
    cases step G root sub c with
    | error e => rfl
    | ok c => exact steps_rename wf h h' m c

theorem pumps_congr {G G' : Net}
    (hrun : ∀ i sub s s', Run G i sub s s' → Run G' i sub s s')
    (hraise : ∀ i sub s e, Raises G i sub s e → Raises G' i sub s e) {l : List ℕ} {s : State} {r : Except Err State}
    (h : Pumps G l s r) : Pumps G' l s r := by
  induction h with
  | done s => exact .done s
  | more h1 _ ih => exact .more (hrun _ _ _ _ h1) ih
  | fail h1 => exact .fail (hraise _ _ _ _ h1)

theorem subs_congr {G G' : Net} {el el' : State → ℕ → Prop} (hn : G.n = G'.n) (hel : ∀ s i, el s i ↔ el' s i)
    (hrun : ∀ i sub s s', Run G i sub s s' → Run G' i sub s s')
    (hraise : ∀ i sub s e, Raises G i sub s e → Raises G' i sub s e) {s : State} {r : Except Err State}
    (h : Subs G el s r) : Subs G' el' s r := by
  induction h with
  | done hd => exact .done fun i hi he => hd i (by rw [hn]; exact hi) ((hel _ _).mpr he)
  | more hi he h1 _ ih => exact .more (by rw [← hn]; exact hi) ((hel _ _).mp he) (hrun _ _ _ _ h1) ih
  | fail hi he h1 => exact .fail (by rw [← hn]; exact hi) ((hel _ _).mp he) (hraise _ _ _ _ h1)

theorem analysed_rename (wf : WellFormed G) {ν : ℕ → List Char} (h : PlainNames G) (h' : PlainNames (rename G ν))
    (r : Except Err State) : Analysed G r ↔ Analysed (rename G ν) r := by
  have run : ∀ i sub s s', Run G i sub s s' ↔ Run (rename G ν) i sub s s' := by
    intro i sub s s'
    exact exists_congr fun m => by rw [steps_rename wf h h']; rfl
  have raise : ∀ i sub s e, Raises G i sub s e ↔ Raises (rename G ν) i sub s e := by
    intro i sub s e
    exact exists_congr fun m => by rw [steps_rename wf h h']; rfl
  have e1 : ∀ s i, eligible1 G s i ↔ eligible1 (rename G ν) s i := fun _ _ => Iff.rfl
  have e2 : ∀ s i, eligible2 G s i ↔ eligible2 (rename G ν) s i := fun _ _ => Iff.rfl
  constructor
  · intro ha
    cases ha with
    | pumps hp => exact .pumps (pumps_congr (fun i s a b => (run i s a b).mp) (fun i s a b => (raise i s a b).mp) hp)
    | first hp hs =>
      exact .first (pumps_congr (fun i s a b => (run i s a b).mp) (fun i s a b => (raise i s a b).mp) hp)
        (subs_congr (G := G) (G' := rename G ν) rfl e1 (fun i s a b => (run i s a b).mp) (fun i s a b => (raise i s a b).mp) hs)
    | second hp hs ht =>
      exact .second (pumps_congr (fun i s a b => (run i s a b).mp) (fun i s a b => (raise i s a b).mp) hp)
        (subs_congr (G := G) (G' := rename G ν) rfl e1 (fun i s a b => (run i s a b).mp) (fun i s a b => (raise i s a b).mp) hs)
        (subs_congr (G := G) (G' := rename G ν) rfl e2 (fun i s a b => (run i s a b).mp) (fun i s a b => (raise i s a b).mp) ht)
  · intro ha
    cases ha with
    | pumps hp => exact .pumps (pumps_congr (fun i s a b => (run i s a b).mpr) (fun i s a b => (raise i s a b).mpr) hp)
    | first hp hs =>
      exact .first (pumps_congr (fun i s a b => (run i s a b).mpr) (fun i s a b => (raise i s a b).mpr) hp)
        (subs_congr (G := rename G ν) (G' := G) rfl (fun s i => (e1 s i).symm) (fun i s a b => (run i s a b).mpr)
          (fun i s a b => (raise i s a b).mpr) hs)
    | second hp hs ht =>
      exact .second (pumps_congr (fun i s a b => (run i s a b).mpr) (fun i s a b => (raise i s a b).mpr) hp)
        (subs_congr (G := rename G ν) (G' := G) rfl (fun s i => (e1 s i).symm) (fun i s a b => (run i s a b).mpr)
          (fun i s a b => (raise i s a b).mpr) hs)
        (subs_congr (G := rename G ν) (G' := G) rfl (fun s i => (e2 s i).symm) (fun i s a b => (run i s a b).mpr)
          (fun i s a b => (raise i s a b).mpr) ht)

/-! ## Determinism -/

/-- Ended calls stay as they are. -/
theorem steps_ended (s : State) : ∀ m, steps G root sub m ⟨[], s⟩ = .ok ⟨[], s⟩
  | 0 => rfl
  | m + 1 => by
    rw [steps_succ]
    exact steps_ended s m

/-- The end of a call does not depend on the number of passes that one looks at. -/
theorem steps_stable {r : Except Err Config} (hr : ∀ c, r = .ok c → c.stack = []) : ∀ (m n : ℕ) (c : Config),
    steps G root sub m c = r → steps G root sub (m + n) c = r
  | 0, n, c, h => by
    have hc : c.stack = [] := hr c (by rw [← h]; rfl)
    obtain ⟨st, s⟩ := c
    simp only at hc
    subst hc
    rw [steps_ended, ← h]
    rfl
  | m + 1, n, c, h => by
    rw [show m + 1 + n = (m + n) + 1 by omega, steps_succ]
    rw [steps_succ] at h
    cases hs : step G root sub c with
    | error e => rw [hs] at h; exact h
    | ok c' => rw [hs] at h; exact steps_stable hr m n c' h

theorem steps_unique {r r' : Except Err Config} (hr : ∀ c, r = .ok c → c.stack = [])
    (hr' : ∀ c, r' = .ok c → c.stack = []) {m n : ℕ} {c : Config} (h : steps G root sub m c = r)
    (h' : steps G root sub n c = r') : r = r' := by
  have e1 := steps_stable hr m n c h
  have e2 := steps_stable hr' n m c h'
  rw [show n + m = m + n by omega] at e2
  rw [← e1, ← e2]

theorem run_unique {s s1 s2 : State} (h1 : Run G root sub s s1) (h2 : Run G root sub s s2) : s1 = s2 := by
  obtain ⟨m, hm⟩ := h1
  obtain ⟨n, hn⟩ := h2
  have := steps_unique (fun c hc => by rw [Except.ok.injEq] at hc; rw [← hc])
    (fun c hc => by rw [Except.ok.injEq] at hc; rw [← hc]) hm hn
  simpa using this

theorem run_not_raises {s s1 : State} {e : Err} (h1 : Run G root sub s s1) (h2 : Raises G root sub s e) : False := by
  obtain ⟨m, hm⟩ := h1
  obtain ⟨n, hn⟩ := h2
  have := steps_unique (fun c hc => by rw [Except.ok.injEq] at hc; rw [← hc]) (fun c hc => by simp at hc) hm hn
  simp at this

theorem raises_unique {s : State} {e e' : Err} (h1 : Raises G root sub s e) (h2 : Raises G root sub s e') : e = e' := by
  obtain ⟨m, hm⟩ := h1
  obtain ⟨n, hn⟩ := h2
  have := steps_unique (fun c hc => by simp at hc) (fun c hc => by simp at hc) hm hn
  simpa using this

theorem pumps_unique {l : List ℕ} {s : State} {r r' : Except Err State} (h : Pumps G l s r) (h' : Pumps G l s r') :
    r = r' := by
  induction h with
  | done s => cases h'; rfl
  | more h1 _ ih =>
    cases h' with
    | more h2 h3 => rw [run_unique h1 h2] at ih; exact ih h3
    | fail h2 => exact (run_not_raises h1 h2).elim
  | fail h1 =>
    cases h' with
    | more h2 _ => exact (run_not_raises h2 h1).elim
    | fail h2 => rw [raises_unique h1 h2]

theorem subs_unique {el : State → ℕ → Prop} (hone : ∀ s i j, i < G.n → j < G.n → el s i → el s j → i = j) {s : State}
    {r r' : Except Err State} (h : Subs G el s r) (h' : Subs G el s r') : r = r' := by
  induction h with
  | done hd =>
    cases h' with
    | done _ => rfl
    | more hi he _ _ => exact absurd he (hd _ hi)
    | fail hi he _ => exact absurd he (hd _ hi)
  | @more i s s1 r hi he h1 _ ih =>
    cases h' with
    | done hd => exact absurd he (hd _ hi)
    | @more j _ _ _ hj he' h2 h3 =>
      obtain rfl := hone s i j hi hj he he'
      rw [run_unique h1 h2] at ih
      exact ih h3
    | @fail j _ _ hj he' h2 =>
      obtain rfl := hone s i j hi hj he he'
      exact (run_not_raises h1 h2).elim
  | @fail i s e hi he h1 =>
    cases h' with
    | done hd => exact absurd he (hd _ hi)
    | @more j _ _ _ hj he' h2 h3 =>
      obtain rfl := hone s i j hi hj he he'
      exact (run_not_raises h2 h1).elim
    | @fail j _ _ hj he' h2 =>
      obtain rfl := hone s i j hi hj he he'
      rw [raises_unique h1 h2]

/-- Only storages and branched pipes become the origin of sub nets. -/
theorem eligible2_kind {s : State} {i : ℕ} (h : eligible2 G s i) : G.kind i = .storage ∨ G.kind i = .branched := by
  obtain ⟨h1, h2⟩ := h
  unfold breaks at h1
  cases hk : G.kind i <;> rw [hk] at h1 <;> simp_all

theorem analysed_unique
    (hone : ∀ i j, i < G.n → j < G.n → (G.kind i = .storage ∨ G.kind i = .branched) →
      (G.kind j = .storage ∨ G.kind j = .branched) → i = j) {r r' : Except Err State} (h : Analysed G r)
    (h' : Analysed G r') : r = r' := by
  have h1 : ∀ s i j, i < G.n → j < G.n → eligible1 G s i → eligible1 G s j → i = j := fun s i j hi hj h1 h2 =>
    hone i j hi hj (eligible2_kind (eligible1_eligible2 _ _ h1)) (eligible2_kind (eligible1_eligible2 _ _ h2))
  have h2 : ∀ s i j, i < G.n → j < G.n → eligible2 G s i → eligible2 G s j → i = j := fun s i j hi hj h1 h2 =>
    hone i j hi hj (eligible2_kind h1) (eligible2_kind h2)
  cases h with
  | pumps hp =>
    cases h' with
    | pumps hp' => exact pumps_unique hp hp' ▸ rfl
    | first hp' _ => have := pumps_unique hp hp'; simp at this
    | second hp' _ _ => have := pumps_unique hp hp'; simp at this
  | first hp hs =>
    cases h' with
    | pumps hp' => have := pumps_unique hp hp'; simp at this
    | first hp' hs' =>
      have := pumps_unique hp hp'
      simp only [Except.ok.injEq] at this
      subst this
      exact subs_unique h1 hs hs' ▸ rfl
    | second hp' hs' _ =>
      have := pumps_unique hp hp'
      simp only [Except.ok.injEq] at this
      subst this
      have := subs_unique h1 hs hs'
      simp at this
  | second hp hs ht =>
    cases h' with
    | pumps hp' => have := pumps_unique hp hp'; simp at this
    | first hp' hs' =>
      have := pumps_unique hp hp'
      simp only [Except.ok.injEq] at this
      subst this
      have := subs_unique h1 hs hs'
      simp at this
    | second hp' hs' ht' =>
      have := pumps_unique hp hp'
      simp only [Except.ok.injEq] at this
      subst this
      have := subs_unique h1 hs hs'
      simp only [Except.ok.injEq] at this
      subst this
      exact subs_unique h2 ht ht'

end Verif.Topology
