import Verif.Model.Registry
import Verif.Spec.Registry
import Mathlib.Tactic.SplitIfs
import Mathlib.Tactic.Push

/-!
# Lemmas on the registration of parts and connections
-/

namespace Verif.Registry

open Spec

/-! ## Dictionaries -/

section Dict
variable {α β : Type} [DecidableEq α]

theorem dictGet_dictSet (k k' : α) (v : β) : ∀ l : List (α × β),
    dictGet k' (dictSet k v l) = if k' = k then some v else dictGet k' l
  | [] => by
    simp only [dictSet, dictGet]
    by_cases h : k' = k
    · simp [h]
    · simp [h, Ne.symm h]
  | (a, b) :: t => by
    have ih := dictGet_dictSet k k' v t
    simp only [dictSet]
    by_cases ha : a = k
    · subst ha
      by_cases h : k' = a
      · simp [dictGet, h]
      · simp [dictGet, h, Ne.symm h]
    · simp only [ha, if_false, dictGet, ih]
      by_cases h : k' = k
      · subst h; simp [ha]
      · simp [h]

theorem dictSet_keys (k : α) (v : β) : ∀ l : List (α × β),
    (dictSet k v l).map Prod.fst = if k ∈ l.map Prod.fst then l.map Prod.fst else l.map Prod.fst ++ [k]
  | [] => by simp [dictSet]
  | (a, b) :: t => by
    have ih := dictSet_keys k v t
    simp only [dictSet]
    by_cases ha : a = k
    · simp [ha]
    · simp only [ha, if_false, List.map_cons, ih, List.mem_cons, Ne.symm ha, false_or]
      split_ifs <;> simp

end Dict

/-! ## Parts -/

/-- The records of the parts when the first free port number is `s`. -/
def recs : ℕ → List (String × List String) → List PartRec
  | _, [] => []
  | s, p :: t => ⟨p.1, p.2, List.range' s p.2.length⟩ :: recs (s + p.2.length) t

/-- The ports of the parts in order. -/
def partKeys (parts : List (String × List String)) : List Key :=
  parts.flatMap fun p => p.2.map fun q => (p.1, q)

theorem partKeys_cons (p : String × List String) (t) :
    partKeys (p :: t) = p.2.map (fun q => (p.1, q)) ++ partKeys t := by simp [partKeys]

theorem addPartPorts_eq (name : String) : ∀ (qs : List String) (e : Env), qs.Nodup →
    (∀ q ∈ qs, (name, q) ∉ e.keys) → addPartPorts name qs e =
      ({ e with keys := e.keys ++ qs.map (fun q => (name, q)), numPorts := e.numPorts + qs.length,
                numAll := e.numAll + qs.length, plinks := e.plinks ++ List.replicate qs.length 0 },
        List.range' e.numPorts qs.length)
  | [], e, _, _ => by simp [addPartPorts]
  | q :: qs, e, hn, hk => by
    have h1 : keyAdd (name, q) e.keys = e.keys ++ [(name, q)] := by
      simp [keyAdd, hk q (by simp)]
    rw [addPartPorts, h1]
    have := addPartPorts_eq name qs { e with
      keys := e.keys ++ [(name, q)], numPorts := e.numPorts + 1, numAll := e.numAll + 1,
      plinks := e.plinks ++ [0] } (List.nodup_cons.1 hn).2 (by
        intro q' hq'
        simp only [List.mem_append, List.mem_singleton, Prod.mk.injEq, not_or, not_and]
        refine ⟨hk q' (by simp [hq']), fun _ h => ?_⟩
        subst h
        exact (List.nodup_cons.1 hn).1 hq')
    rw [this]
    simp [List.range'_succ, List.replicate_succ, Nat.add_assoc, Nat.add_comm 1]

/-- The environment after adding the parts `ps`. -/
def withParts (e : Env) (ps : List (String × List String)) : Env :=
  { e with parts := e.parts ++ recs e.numPorts ps, keys := e.keys ++ partKeys ps,
           numPorts := e.numPorts + (partKeys ps).length, numAll := e.numAll + (partKeys ps).length,
           plinks := e.plinks ++ List.replicate (partKeys ps).length 0 }

/-- Valid part names. -/
def okPart (n : String) : Prop := ¬ (n = "BC" ∨ '/' ∈ n.toList)

/-- Valid open port names. -/
def okOpen (n : String) : Prop := n.toList.take 3 = ['B', 'C', '_']

theorem addPart_error (e : Env) (p) (h : ¬ okPart p.1) : ∃ x, addPart e p = .error x := by
  unfold okPart at h
  rw [not_not] at h
  exact ⟨.badPartName p.1, by simp [addPart, h]⟩

theorem addPart_later (e : Env) (p : String × List String) (hne : e.parts ≠ []) (hok : okPart p.1)
    (hn : p.2.Nodup) (hk : ∀ q ∈ p.2, (p.1, q) ∉ e.keys) :
    addPart e p = .ok (withParts e [p]) := by
  have hl : e.parts.length ≠ 0 := by simpa using hne
  unfold okPart at hok
  simp only [addPart, hok, if_false, addPartPorts_eq p.1 p.2 e hn hk]
  rw [if_neg (by simpa using hl)]
  simp [withParts, recs, partKeys]

theorem addPart_first (junk : ℕ) (p : String × List String) (hok : okPart p.1) (hn : p.2.Nodup) :
    addPart (Env.empty junk) p = .ok (withParts { Env.empty junk with plinks := [] } [p]) := by
  unfold okPart at hok
  simp only [addPart, hok, if_false,
    addPartPorts_eq p.1 p.2 (Env.empty junk) hn (by simp [Env.empty])]
  simp [withParts, recs, partKeys, Env.empty]

theorem withParts_append (e : Env) (ps qs) :
    withParts (withParts e ps) qs = withParts e (ps ++ qs) := by
  have hr : ∀ (s : ℕ) (ps qs), recs s (ps ++ qs) = recs s ps ++ recs (s + (partKeys ps).length) qs := by
    intro s ps
    induction ps generalizing s with
    | nil => intro qs; simp [recs, partKeys]
    | cons p t ih =>
      intro qs
      simp only [List.cons_append, recs, ih, partKeys_cons, List.length_append, List.length_map,
        Nat.add_assoc]
  have hk : partKeys (ps ++ qs) = partKeys ps ++ partKeys qs := by simp [partKeys]
  simp only [withParts, hr, hk, List.length_append, List.append_assoc, Nat.add_assoc,
    List.replicate_add]

theorem mem_partKeys {ps : List (String × List String)} {k : Key} :
    k ∈ partKeys ps ↔ ∃ p ∈ ps, p.1 = k.1 ∧ k.2 ∈ p.2 := by
  obtain ⟨a, b⟩ := k
  simp only [partKeys, List.mem_flatMap, List.mem_map, Prod.mk.injEq]
  constructor
  · rintro ⟨p, hp, q, hq, h1, h2⟩; exact ⟨p, hp, h1, h2 ▸ hq⟩
  · rintro ⟨p, hp, h1, h2⟩; exact ⟨p, hp, b, h2, h1, rfl⟩

theorem runAll_addPart_later : ∀ (ps : List (String × List String)) (e : Env), e.parts ≠ [] →
    (∀ p ∈ ps, p.2.Nodup) → (ps.map Prod.fst).Nodup →
    (∀ p ∈ ps, ∀ q ∈ p.2, (p.1, q) ∉ e.keys) →
    (∀ e', runAll addPart ps e = .ok e' ↔ (∀ p ∈ ps, okPart p.1) ∧ e' = withParts e ps)
  | [], e, _, _, _, _, e' => by
    simp only [runAll, Except.ok.injEq]
    simp [withParts, recs, partKeys]
    exact eq_comm
  | p :: t, e, he, hp, hn, hk, e' => by
    by_cases hok : okPart p.1
    · simp only [runAll, addPart_later e p he hok (hp p (by simp)) (hk p (by simp))]
      rw [runAll_addPart_later t (withParts e [p]) (by simp [withParts, recs])
        (fun p hp' => hp p (by simp [hp'])) (by simpa using (List.nodup_cons.1 hn).2) ?_ e']
      · rw [withParts_append]; simp [hok]
      · intro p' hp' q hq
        simp only [withParts, List.mem_append, not_or]
        refine ⟨hk p' (by simp [hp']) q hq, fun h => ?_⟩
        obtain ⟨p'', h1, h2, h3⟩ := mem_partKeys.1 h
        rw [List.mem_singleton] at h1
        subst h1
        have := (List.nodup_cons.1 hn).1
        exact this (List.mem_map.2 ⟨p', hp', h2.symm⟩)
    · obtain ⟨x, hx⟩ := addPart_error e p hok
      simp only [runAll, hx, List.mem_cons, forall_eq_or_imp, hok, false_and, reduceCtorEq]

/-- Adding parts to an empty environment. -/
theorem runAll_addPart_empty (junk : ℕ) (ps : List (String × List String)) (hne : ps ≠ [])
    (hp : ∀ p ∈ ps, p.2.Nodup) (hn : (ps.map Prod.fst).Nodup) (e' : Env) :
    runAll addPart ps (Env.empty junk) = .ok e' ↔
      (∀ p ∈ ps, okPart p.1) ∧ e' = withParts { Env.empty junk with plinks := [] } ps := by
  match ps, hne with
  | p :: t, _ =>
    by_cases hok : okPart p.1
    · simp only [runAll, addPart_first junk p hok (hp p (by simp))]
      rw [runAll_addPart_later t _ (by simp [withParts, recs])
        (fun p hp' => hp p (by simp [hp'])) (by simpa using (List.nodup_cons.1 hn).2) ?_ e']
      · rw [withParts_append]; simp [hok]
      · intro p' hp' q hq
        simp only [withParts, Env.empty, List.nil_append]
        intro h
        obtain ⟨p'', h1, h2, h3⟩ := mem_partKeys.1 h
        rw [List.mem_singleton] at h1
        subst h1
        have := (List.nodup_cons.1 hn).1
        exact this (List.mem_map.2 ⟨p', hp', h2.symm⟩)
    · obtain ⟨x, hx⟩ := addPart_error (Env.empty junk) p hok
      simp only [runAll, hx, List.mem_cons, forall_eq_or_imp, hok, false_and, reduceCtorEq]

/-! ## Open ports -/

/-- The environment after adding the open ports `bs`. -/
def withOpens (e : Env) (bs : List String) : Env :=
  { e with keys := e.keys ++ bs.map (fun b => (bcPart, b)), numPorts := e.numPorts + bs.length,
           numAll := e.numAll + bs.length, plinks := e.plinks ++ List.replicate bs.length 0,
           bcs := e.bcs ++ bs.zip (List.range' e.numPorts bs.length) }

theorem runAll_addOpenPort : ∀ (bs : List String) (e : Env), bs.Nodup →
    (∀ b ∈ bs, (bcPart, b) ∉ e.keys) → ∀ e',
    (runAll addOpenPort bs e = .ok e' ↔ (∀ b ∈ bs, okOpen b) ∧ e' = withOpens e bs)
  | [], e, _, _, e' => by
    simp only [runAll, Except.ok.injEq]
    simp [withOpens]
    exact eq_comm
  | b :: t, e, hn, hk, e' => by
    by_cases hok : okOpen b
    · have h1 : addOpenPort e b = .ok (withOpens e [b]) := by
        unfold okOpen at hok
        simp [addOpenPort, hok, withOpens, keyAdd, hk b (by simp)]
      simp only [runAll, h1]
      rw [runAll_addOpenPort t (withOpens e [b]) (List.nodup_cons.1 hn).2 ?_ e']
      · have : withOpens (withOpens e [b]) t = withOpens e (b :: t) := by
          simp [withOpens, List.range'_succ, List.replicate_succ, Nat.add_assoc, Nat.add_comm 1]
        rw [this]; simp [hok]
      · intro b' hb'
        simp only [withOpens, List.mem_append, not_or, List.map_cons, List.map_nil,
          List.mem_singleton, Prod.mk.injEq, true_and]
        exact ⟨hk b' (by simp [hb']), fun h => (List.nodup_cons.1 hn).1 (h ▸ hb')⟩
    · have h1 : addOpenPort e b = .error (.badPortName b) := by
        unfold okOpen at hok
        simp [addOpenPort, hok]
      simp only [runAll, h1, List.mem_cons, forall_eq_or_imp, hok, false_and, reduceCtorEq]

/-- The environment before connecting. -/
def base (parts : List (String × List String)) (opens : List String) : Env :=
  withOpens (withParts ⟨[], [], [], 0, 0, [], [], [], 0, []⟩ parts) opens

theorem base_keys (parts opens) : (base parts opens).keys = declared parts opens := by
  simp [base, withOpens, withParts, declared, partKeys, bcPart]

theorem base_numPorts (parts opens) :
    (base parts opens).numPorts = (declared parts opens).length := by
  simp [base, withOpens, withParts, declared, partKeys, List.length_append]

theorem base_numAll (parts opens) :
    (base parts opens).numAll = (declared parts opens).length := by
  simp [base, withOpens, withParts, declared, partKeys, List.length_append]

theorem base_plinks (parts opens) :
    (base parts opens).plinks = List.replicate (declared parts opens).length 0 := by
  simp [base, withOpens, withParts, declared, partKeys, List.length_append]

/-! ## Port numbers -/

theorem idAt_range (q : String) : ∀ (qs : List String) (s : ℕ), q ∈ qs →
    idAt qs (List.range' s qs.length) q = some (s + qs.idxOf q)
  | [], _, h => by simp at h
  | a :: t, s, h => by
    simp only [List.length_cons, List.range'_succ, idAt]
    by_cases ha : a = q
    · simp [ha]
    · have h' : q ∈ t := by simpa [Ne.symm ha] using h
      rw [if_neg ha, idAt_range q t (s + 1) h', List.idxOf_cons_ne _ ha]
      simp only [Option.some.injEq]; omega

theorem idAt_none (q : String) : ∀ (qs : List String) (is : List ℕ), q ∉ qs → idAt qs is q = none
  | [], _, _ => by simp [idAt]
  | a :: t, [], _ => by simp [idAt]
  | a :: t, i :: is, h => by
    simp only [List.mem_cons, not_or] at h
    simp only [idAt, Ne.symm h.1, if_false]
    exact idAt_none q t is h.2

theorem idxOf_map_pair (n q : String) : ∀ ps : List String,
    (ps.map fun q => ((n, q) : Key)).idxOf (n, q) = ps.idxOf q
  | [] => rfl
  | a :: t => by
    by_cases h : a = q
    · subst h; simp
    · rw [List.map_cons, List.idxOf_cons_ne _ (by simpa using h), List.idxOf_cons_ne _ h,
        idxOf_map_pair n q t]

theorem findPart_recs (n q : String) : ∀ (ps : List (String × List String)) (s : ℕ),
    (ps.map Prod.fst).Nodup →
    ((findPart n (recs s ps)).bind fun r => idAt r.ports r.ids q) =
      if (n, q) ∈ partKeys ps then some (s + (partKeys ps).idxOf (n, q)) else none
  | [], s, _ => by simp [recs, findPart, partKeys]
  | p :: t, s, hn => by
    rw [List.map_cons, List.nodup_cons] at hn
    simp only [recs, findPart]
    by_cases hp : p.1 = n
    · have ht : (n, q) ∉ partKeys t := by
        rw [mem_partKeys]
        rintro ⟨p', h1, h2, -⟩
        exact hn.1 (List.mem_map.2 ⟨p', h1, by simp_all⟩)
      simp only [hp, if_true, Option.bind_some, partKeys_cons, List.mem_append, ht, or_false]
      by_cases hq : q ∈ p.2
      · rw [idAt_range q _ _ hq, if_pos (by simpa using hq),
          List.idxOf_append_of_mem (by simpa using hq), idxOf_map_pair]
      · rw [idAt_none q _ _ hq, if_neg (by simpa using hq)]
    · have hh : (n, q) ∉ p.2.map (fun q => ((p.1, q) : Key)) := by simp [hp]
      rw [if_neg hp, findPart_recs n q t _ hn.2]
      simp only [partKeys_cons, List.mem_append, hh, false_or]
      split_ifs with h
      · rw [List.idxOf_append_of_notMem hh, List.length_map, Nat.add_assoc]
      · rfl

theorem dictGet_zip_range (b : String) : ∀ (bs : List String) (s : ℕ),
    dictGet b (bs.zip (List.range' s bs.length)) = if b ∈ bs then some (s + bs.idxOf b) else none
  | [], s => by simp [dictGet]
  | a :: t, s => by
    simp only [List.length_cons, List.range'_succ, List.zip_cons_cons, dictGet]
    by_cases h : a = b
    · subst h; simp
    · rw [if_neg h, dictGet_zip_range b t (s + 1)]
      simp only [List.mem_cons, Ne.symm h, false_or]
      split_ifs
      · rw [List.idxOf_cons_ne _ h]; simp only [Option.some.injEq]; omega
      · rfl

theorem findPart_recs_isSome (n : String) : ∀ (ps : List (String × List String)) (s : ℕ),
    findPart n (recs s ps) = none ↔ n ∉ ps.map Prod.fst
  | [], s => by simp [recs, findPart]
  | p :: t, s => by
    simp only [recs, findPart, List.map_cons, List.mem_cons, not_or]
    by_cases h : p.1 = n
    · simp [h]
    · simp [h, Ne.symm h, findPart_recs_isSome n t]

/-- In a sensibly named network, ports are numbered in the order of declaration. -/
theorem portId_base (parts opens) (hn : (parts.map Prod.fst).Nodup) (hw : WellNamed parts) (k : Key) :
    portId (base parts opens) k =
      if k ∈ declared parts opens then some ((declared parts opens).idxOf k) else none := by
  obtain ⟨n, q⟩ := k
  have hd : declared parts opens = partKeys parts ++ opens.map fun b => (bcPart, b) := rfl
  unfold portId
  by_cases hb : n = bcPart
  · subst hb
    have hnot : (bcPart, q) ∉ partKeys parts := by
      rw [mem_partKeys]; rintro ⟨p, hp, h, -⟩; exact hw.notBC p hp h
    simp only [if_true, base, withOpens, withParts, List.nil_append, Nat.zero_add]
    rw [dictGet_zip_range, hd]
    simp only [List.mem_append, hnot, false_or]
    by_cases hq : q ∈ opens
    · rw [if_pos hq, if_pos (by simpa using hq), List.idxOf_append_of_notMem hnot, idxOf_map_pair]
    · rw [if_neg hq, if_neg (by simpa using hq)]
  · have hnot : (n, q) ∉ opens.map fun b => ((bcPart, b) : Key) := by simp [Ne.symm hb]
    simp only [hb, if_false, base, withOpens, withParts, List.nil_append]
    rw [findPart_recs n q parts 0 hn, hd]
    simp only [List.mem_append, hnot, or_false, Nat.zero_add]
    split_ifs with h
    · rw [List.idxOf_append_of_mem h]
    · rfl

theorem declared_nodup (parts opens) (hn : (parts.map Prod.fst).Nodup) (hw : WellNamed parts)
    (ho : opens.Nodup) : (declared parts opens).Nodup := by
  have hp : (partKeys parts).Nodup := by
    clear ho opens
    induction parts with
    | nil => simp [partKeys]
    | cons p t ih =>
      rw [List.map_cons, List.nodup_cons] at hn
      rw [partKeys_cons, List.nodup_append]
      refine ⟨(hw.ports p (by simp)).map fun a b h => by simpa using h, ih hn.2
        ⟨fun p hp => hw.notBC p (by simp [hp]), fun p hp => hw.ports p (by simp [hp])⟩, ?_⟩
      rintro a ha b hb rfl
      obtain ⟨p', h1, h2, -⟩ := mem_partKeys.1 hb
      obtain ⟨q, -, rfl⟩ := List.mem_map.1 ha
      exact hn.1 (List.mem_map.2 ⟨p', h1, h2⟩)
  show (partKeys parts ++ opens.map fun b => ((bcPart, b) : Key)).Nodup
  rw [List.nodup_append]
  refine ⟨hp, ho.map fun a b h => by simpa using h, ?_⟩
  rintro a ha b hb rfl
  obtain ⟨p', h1, h2, -⟩ := mem_partKeys.1 ha
  obtain ⟨q, -, rfl⟩ := List.mem_map.1 hb
  exact hw.notBC p' h1 h2

/-! ## Connections -/

/-- The effect of an accepted connection, with the ports numbered as in `D`. -/
def linkUp (D : List Key) (e : Env) (c : Key × Key) : Env :=
  { e with
    plinks := (e.plinks.set (D.idxOf c.1) (D.idxOf c.2)).set (D.idxOf c.2) (D.idxOf c.1)
    links := dictSet c.2 c.1 (dictSet c.1 c.2 e.links)
    numConn := e.numConn + 2
    connected := e.connected ++ [c.1, c.2].filter fun k => k.1 ≠ bcPart }

section Conn
variable {parts : List (String × List String)} {opens : List String}

/-- The connections made so far have not touched what was declared. -/
structure SameBase (parts : List (String × List String)) (opens : List String) (e : Env) : Prop where
  eqParts : e.parts = (base parts opens).parts
  eqBcs : e.bcs = (base parts opens).bcs
  keys : e.keys = declared parts opens
  numPorts : e.numPorts = (declared parts opens).length
  numAll : e.numAll = (declared parts opens).length
  plinks : e.plinks.length = (declared parts opens).length
  ctrls : e.ctrls = []

theorem sameBase_base : SameBase parts opens (base parts opens) :=
  ⟨rfl, rfl, base_keys _ _, base_numPorts _ _, base_numAll _ _, by simp [base_plinks], rfl⟩

theorem SameBase.linkUp {e : Env} (h : SameBase parts opens e) (D c) :
    SameBase parts opens (linkUp D e c) :=
  ⟨h.eqParts, h.eqBcs, h.keys, h.numPorts, h.numAll, by simp [Registry.linkUp, h.plinks], h.ctrls⟩

theorem findPart_of_mem (k : Key) (hk : k ∈ declared parts opens) (hb : k.1 ≠ bcPart) :
    findPart k.1 (base parts opens).parts ≠ none := by
  have : k ∈ partKeys parts := by
    have hd : declared parts opens = partKeys parts ++ opens.map fun b => (bcPart, b) := rfl
    rw [hd, List.mem_append] at hk
    rcases hk with hk | hk
    · exact hk
    · obtain ⟨b, -, rfl⟩ := List.mem_map.1 hk; exact absurd rfl hb
  obtain ⟨p, h1, h2, -⟩ := mem_partKeys.1 this
  simp only [base, withOpens, withParts, List.nil_append, ne_eq, findPart_recs_isSome, not_not]
  exact List.mem_map.2 ⟨p, h1, h2⟩

theorem connect_ok_iff (hn : (parts.map Prod.fst).Nodup) (hw : WellNamed parts) {e : Env}
    (he : SameBase parts opens e) (c : Key × Key) (e' : Env) :
    connect e c = .ok e' ↔ (c.1 ∈ declared parts opens ∧ c.2 ∈ declared parts opens ∧
      (c.1.1 ≠ bcPart → c.1 ∉ e.connected) ∧ (c.2.1 ≠ bcPart → c.2 ∉ e.connected)) ∧
      e' = linkUp (declared parts opens) e c := by
  have hid : ∀ k, portId e k =
      if k ∈ declared parts opens then some ((declared parts opens).idxOf k) else none := by
    intro k
    rw [← portId_base parts opens hn hw]
    simp [portId, he.eqParts, he.eqBcs]
  unfold connect
  rw [hid, hid]
  constructor
  · intro h
    split_ifs at h with h1 h2 h3 h4 h5 h6
    · simp only [Except.ok.injEq] at h
      push Not at h3 h4
      exact ⟨⟨h5, h6, h3, h4⟩, h.symm⟩
  · rintro ⟨⟨h5, h6, h3, h4⟩, rfl⟩
    rw [if_neg, if_neg, if_neg, if_neg, if_pos h5, if_pos h6]
    · rfl
    · rintro ⟨ha, hb⟩; exact h4 ha hb
    · rintro ⟨ha, hb⟩; exact h3 ha hb
    · rintro ⟨ha, hb⟩; rw [he.eqParts] at hb; exact findPart_of_mem _ h6 ha hb
    · rintro ⟨ha, hb⟩; rw [he.eqParts] at hb; exact findPart_of_mem _ h5 ha hb

/-- What is known after the connections `done` were accepted. -/
structure Inv (parts : List (String × List String)) (opens : List String) (done : List (Key × Key))
    (e : Env) : Prop where
  same : SameBase parts opens e
  connected : e.connected = (ends done).filter fun k => k.1 ≠ bcPart
  numConn : e.numConn = (ends done).length
  links : ∀ k, (dictGet k e.links).isSome ↔ k ∈ ends done
  sub : ∀ k ∈ ends done, k ∈ declared parts opens
  names : (ends done).Nodup → ∀ c ∈ done, dictGet c.1 e.links = some c.2 ∧ dictGet c.2 e.links = some c.1
  nums : (ends done).Nodup → ∀ c ∈ done,
    e.plinks[(declared parts opens).idxOf c.1]? = some ((declared parts opens).idxOf c.2) ∧
    e.plinks[(declared parts opens).idxOf c.2]? = some ((declared parts opens).idxOf c.1)

theorem inv_base : Inv parts opens [] (base parts opens) :=
  ⟨sameBase_base, rfl, rfl, by simp [base, withOpens, withParts, dictGet, ends], by simp [ends],
    by simp, by simp⟩

theorem ends_append (a b) : ends (a ++ b) = ends a ++ ends b := by simp [ends]

theorem mem_ends_of_mem {c : Key × Key} {l} (h : c ∈ l) : c.1 ∈ ends l ∧ c.2 ∈ ends l := by
  simp only [ends, List.mem_flatMap]
  exact ⟨⟨c, h, by simp⟩, ⟨c, h, by simp⟩⟩

theorem Inv.step {done e} (h : Inv parts opens done e) (c : Key × Key)
    (h1 : c.1 ∈ declared parts opens) (h2 : c.2 ∈ declared parts opens) :
    Inv parts opens (done ++ [c]) (linkUp (declared parts opens) e c) := by
  have he : ends (done ++ [c]) = ends done ++ [c.1, c.2] := by simp [ends]
  have sep : (ends (done ++ [c])).Nodup → (ends done).Nodup ∧ c.1 ≠ c.2 ∧
      ∀ c' ∈ done, c'.1 ≠ c.1 ∧ c'.1 ≠ c.2 ∧ c'.2 ≠ c.1 ∧ c'.2 ≠ c.2 := by
    intro hnd
    rw [he, List.nodup_append] at hnd
    obtain ⟨a1, a2, a3⟩ := hnd
    refine ⟨a1, by simpa using a2, fun c' hc' => ?_⟩
    obtain ⟨m1, m2⟩ := mem_ends_of_mem hc'
    exact ⟨a3 _ m1 _ (by simp), a3 _ m1 _ (by simp), a3 _ m2 _ (by simp), a3 _ m2 _ (by simp)⟩
  refine ⟨h.same.linkUp _ _, ?_, ?_, ?_, ?_, ?_, ?_⟩
  · rw [he, List.filter_append, ← h.connected]; rfl
  · rw [he, List.length_append, ← h.numConn]; rfl
  · intro k
    rw [he, List.mem_append, ← h.links]
    simp only [linkUp, dictGet_dictSet, List.mem_cons, List.not_mem_nil, or_false]
    by_cases hk2 : k = c.2
    · simp [hk2]
    · by_cases hk1 : k = c.1
      · subst hk1; simp [hk2]
      · simp [hk1, hk2]
  · intro k hk
    rw [he, List.mem_append] at hk
    rcases hk with hk | hk
    · exact h.sub k hk
    · simp only [List.mem_cons, List.not_mem_nil, or_false] at hk
      rcases hk with rfl | rfl <;> assumption
  · intro hnd c' hc'
    obtain ⟨s1, s2, s3⟩ := sep hnd
    rw [List.mem_append, List.mem_singleton] at hc'
    rcases hc' with hc' | rfl
    · obtain ⟨a, b, c, d⟩ := s3 c' hc'
      simp only [linkUp, dictGet_dictSet, a, b, c, d, if_false]
      exact h.names s1 c' hc'
    · simp [linkUp, dictGet_dictSet, s2]
  · intro hnd c' hc'
    obtain ⟨s1, s2, s3⟩ := sep hnd
    have inj : ∀ {a b : Key}, a ∈ declared parts opens → a ≠ b →
        (declared parts opens).idxOf b ≠ (declared parts opens).idxOf a := by
      intro a b ha hab hh
      exact hab ((List.idxOf_inj ha).1 hh.symm)
    have lt1 := List.idxOf_lt_length_of_mem h1
    have lt2 := List.idxOf_lt_length_of_mem h2
    rw [List.mem_append, List.mem_singleton] at hc'
    rcases hc' with hc' | rfl
    · obtain ⟨a, b, c, d⟩ := s3 c' hc'
      obtain ⟨m1, m2⟩ := mem_ends_of_mem hc'
      simp only [linkUp]
      rw [List.getElem?_set_ne (inj (h.sub _ m1) b), List.getElem?_set_ne (inj (h.sub _ m1) a),
        List.getElem?_set_ne (inj (h.sub _ m2) d), List.getElem?_set_ne (inj (h.sub _ m2) c)]
      exact h.nums s1 c' hc'
    · simp only [linkUp]
      rw [List.getElem?_set_ne (inj h1 s2), List.getElem?_set_self (by rw [h.same.plinks]; exact lt1),
        List.getElem?_set_self (by rw [List.length_set, h.same.plinks]; exact lt2)]
      exact ⟨rfl, rfl⟩

/-- If the loop over the connections succeeds, all ends exist, and different connections share no port of a
part. -/
theorem runAll_connect_inv (hn : (parts.map Prod.fst).Nodup) (hw : WellNamed parts) :
    ∀ (cs done : List (Key × Key)) (e e' : Env), Inv parts opens done e →
      runAll connect cs e = .ok e' → Inv parts opens (done ++ cs) e' ∧
        ∀ a c b, cs = a ++ c :: b → ∀ k, k.1 ≠ bcPart → k ∈ [c.1, c.2] → k ∉ ends (done ++ a)
  | [], done, e, e', h, hr => by
    simp only [runAll, Except.ok.injEq] at hr
    subst hr
    exact ⟨by simpa using h, by simp⟩
  | c :: t, done, e, e', h, hr => by
    simp only [runAll] at hr
    cases hc : connect e c with
    | error x => simp [hc] at hr
    | ok e₁ =>
      simp only [hc] at hr
      obtain ⟨⟨h1, h2, h3, h4⟩, rfl⟩ := (connect_ok_iff hn hw h.same c e₁).1 hc
      obtain ⟨r1, r2⟩ := runAll_connect_inv hn hw t (done ++ [c]) _ e' (h.step c h1 h2) hr
      refine ⟨by simpa using r1, ?_⟩
      intro a c' b hab k hk hm
      cases a with
      | nil =>
        simp only [List.nil_append, List.cons.injEq] at hab
        obtain ⟨rfl, rfl⟩ := hab
        simp only [List.mem_cons, List.not_mem_nil, or_false] at hm
        have conv : k ∉ e.connected → k ∉ ends done := by
          intro hh hm'
          apply hh
          rw [h.connected, List.mem_filter]
          exact ⟨hm', by simpa using hk⟩
        rw [List.append_nil]
        rcases hm with rfl | rfl
        · exact conv (h3 hk)
        · exact conv (h4 hk)
      | cons a₀ a =>
        simp only [List.cons_append, List.cons.injEq] at hab
        obtain ⟨rfl, rfl⟩ := hab
        have := r2 a c' b rfl k hk hm
        simpa using this

/-- Connections between existing, pairwise different ports are accepted. -/
theorem runAll_connect_accept (hn : (parts.map Prod.fst).Nodup) (hw : WellNamed parts) :
    ∀ (cs done : List (Key × Key)) (e : Env), Inv parts opens done e → (ends (done ++ cs)).Nodup →
      (∀ k ∈ ends cs, k ∈ declared parts opens) → ∃ e', runAll connect cs e = .ok e'
  | [], done, e, h, _, _ => ⟨e, rfl⟩
  | c :: t, done, e, h, hnd, hs => by
    have hm := mem_ends_of_mem (l := c :: t) (c := c) (by simp)
    have hsep : ∀ k ∈ ends done, k ≠ c.1 ∧ k ≠ c.2 := by
      intro k hk
      rw [ends_append, List.nodup_append] at hnd
      exact ⟨hnd.2.2 k hk _ hm.1, hnd.2.2 k hk _ hm.2⟩
    have hc : connect e c = .ok (linkUp (declared parts opens) e c) := by
      rw [connect_ok_iff hn hw h.same]
      refine ⟨⟨hs _ hm.1, hs _ hm.2, fun _ hh => ?_, fun _ hh => ?_⟩, rfl⟩
      · rw [h.connected, List.mem_filter] at hh; exact (hsep _ hh.1).1 rfl
      · rw [h.connected, List.mem_filter] at hh; exact (hsep _ hh.1).2 rfl
    simp only [runAll, hc]
    refine runAll_connect_accept hn hw t (done ++ [c]) _ (h.step c (hs _ hm.1) (hs _ hm.2))
      (by simpa using hnd) fun k hk => hs k ?_
    simp only [ends, List.flatMap_cons, List.mem_append]
    exact Or.inr hk

end Conn

/-! ## Controls -/

theorem runAll_addControl : ∀ (cs : List String) (e e' : Env),
    (e.ctrls ++ cs).Nodup →
    (runAll addControl cs e = .ok e' ↔
      (cs ≠ [] → e.numPorts = e.numConn) ∧ e' = { e with ctrls := e.ctrls ++ cs })
  | [], e, e', _ => by
    simp only [runAll, Except.ok.injEq, List.append_nil, ne_eq, not_true_eq_false, false_implies,
      true_and]
    exact eq_comm
  | c :: t, e, e', hnd => by
    have hc : c ∉ e.ctrls := by
      rw [List.nodup_append] at hnd
      exact fun h => hnd.2.2 c h c (by simp) rfl
    simp only [runAll, addControl]
    by_cases hp : e.numPorts = e.numConn
    · simp only [hp, ne_eq, not_true_eq_false, if_false, hc]
      rw [runAll_addControl t _ e' (by simpa using hnd)]
      simp
    · simp [hp]

/-! ## Declarations -/

theorem declare_nodup (p : Post) (c : Call) (h : (p.parts.map Prod.fst).Nodup ∧ p.opens.Nodup ∧
    p.ctrls.Nodup ∧ (p.conns.map Prod.fst).Nodup) :
    ((declare p c).1.parts.map Prod.fst).Nodup ∧ (declare p c).1.opens.Nodup ∧
      (declare p c).1.ctrls.Nodup ∧ ((declare p c).1.conns.map Prod.fst).Nodup := by
  obtain ⟨h1, h2, h3, h4⟩ := h
  have snoc : ∀ {l : List String} {a : String}, l.Nodup → a ∉ l → (l ++ [a]).Nodup := by
    intro l a hl ha
    rw [List.nodup_append]
    refine ⟨hl, by simp, ?_⟩
    rintro x hx y hy rfl
    rw [List.mem_singleton] at hy
    exact ha (hy ▸ hx)
  cases c with
  | addPart name ports store =>
    simp only [declare]
    split_ifs with h
    · exact ⟨h1, h2, h3, h4⟩
    · refine ⟨?_, h2, h3, h4⟩
      rw [List.map_append]
      exact snoc h1 h
  | addOpenPort name =>
    simp only [declare]
    split_ifs with h
    · exact ⟨h1, h2, h3, h4⟩
    · exact ⟨h1, snoc h2 h, h3, h4⟩
  | connect k₁ k₂ =>
    refine ⟨h1, h2, h3, ?_⟩
    simp only [declare, dictSet_keys]
    split_ifs with h
    · exact h4
    · rw [List.nodup_append]
      refine ⟨h4, by simp, ?_⟩
      rintro x hx y hy rfl
      rw [List.mem_singleton] at hy
      exact h (hy ▸ hx)
  | addControl name =>
    simp only [declare]
    split_ifs with h
    · exact ⟨h1, h2, h3, h4⟩
    · exact ⟨h1, h2, snoc h3 h, h4⟩

theorem declareAll_nodup : ∀ (cs : List Call) (p : Post), (p.parts.map Prod.fst).Nodup ∧ p.opens.Nodup ∧
    p.ctrls.Nodup ∧ (p.conns.map Prod.fst).Nodup →
    ((declareAll p cs).parts.map Prod.fst).Nodup ∧ (declareAll p cs).opens.Nodup ∧
      (declareAll p cs).ctrls.Nodup ∧ ((declareAll p cs).conns.map Prod.fst).Nodup
  | [], _, h => h
  | c :: cs, p, h => declareAll_nodup cs _ (declare_nodup p c h)

theorem script_nodup (cs : List Call) : ((declareAll .empty cs).parts.map Prod.fst).Nodup ∧
    (declareAll .empty cs).opens.Nodup ∧ (declareAll .empty cs).ctrls.Nodup ∧
      ((declareAll .empty cs).conns.map Prod.fst).Nodup :=
  declareAll_nodup cs .empty (by simp [Post.empty])

/-! ## The whole build -/

/-- The stages of a build that reaches the check of the connections. -/
theorem build_stages (junk : ℕ) (p : Post) (hn : (p.parts.map Prod.fst).Nodup) (hw : WellNamed p.parts)
    (ho : p.opens.Nodup) (hc : p.ctrls.Nodup) (e : Env) :
    build junk p = .ok e ↔ p.parts ≠ [] ∧ (∀ q ∈ p.parts, okPart q.1) ∧ (∀ b ∈ p.opens, okOpen b) ∧
      ∃ e₃, runAll connect p.conns (base p.parts p.opens) = .ok e₃ ∧
        (∀ k ∈ e₃.keys, (dictGet k e₃.links).isSome) ∧ (p.ctrls ≠ [] → e₃.numPorts = e₃.numConn) ∧
        e = { e₃ with ctrls := e₃.ctrls ++ p.ctrls } := by
  unfold build
  by_cases hp : p.parts = []
  · simp [hp]
  simp only [hp, if_false, ne_eq, not_false_eq_true, true_and]
  cases h1 : runAll addPart p.parts (Env.empty junk) with
  | error x =>
    simp only [reduceCtorEq, false_iff, not_and]
    intro hok
    have := (runAll_addPart_empty junk p.parts hp hw.ports hn _).2 ⟨hok, rfl⟩
    simp [h1] at this
  | ok e₁ =>
    obtain ⟨hok, rfl⟩ := (runAll_addPart_empty junk p.parts hp hw.ports hn _).1 h1
    have hfresh : ∀ b ∈ p.opens, (bcPart, b) ∉
        (withParts { Env.empty junk with plinks := [] } p.parts).keys := by
      intro b _ hm
      simp only [withParts, Env.empty, List.nil_append] at hm
      obtain ⟨q, hq, h, -⟩ := mem_partKeys.1 hm
      exact hw.notBC q hq h
    simp only
    cases h2 : runAll addOpenPort p.opens (withParts { Env.empty junk with plinks := [] } p.parts) with
    | error x =>
      simp only [reduceCtorEq, false_iff, not_and]
      intro _ hok'
      have := (runAll_addOpenPort p.opens _ ho hfresh _).2 ⟨hok', rfl⟩
      simp [h2] at this
    | ok e₂ =>
      obtain ⟨hok', rfl⟩ := (runAll_addOpenPort p.opens _ ho hfresh _).1 h2
      have hbase : withOpens (withParts { Env.empty junk with plinks := [] } p.parts) p.opens =
        base p.parts p.opens := rfl
      simp only [hbase]
      cases h3 : runAll connect p.conns (base p.parts p.opens) with
      | error x => simp
      | ok e₃ =>
        simp only [Except.ok.injEq, exists_eq_left', checkUnconnected]
        have hctrl : e₃.ctrls = [] := by
          obtain ⟨hi, -⟩ := runAll_connect_inv hn hw p.conns [] _ _ inv_base h3
          exact hi.same.ctrls
        by_cases hm : (e₃.keys.filter fun k => (dictGet k e₃.links).isNone) = []
        · simp only [hm, if_true]
          rw [runAll_addControl p.ctrls e₃ e (by simpa [hctrl] using hc)]
          have : ∀ k ∈ e₃.keys, (dictGet k e₃.links).isSome := by
            intro k hk
            rw [List.filter_eq_nil_iff] at hm
            simpa [Option.isSome_iff_ne_none] using hm k hk
          exact ⟨fun h => ⟨hok, hok', this, h⟩, fun h => h.2.2.2⟩
        · simp only [hm, if_false, reduceCtorEq, false_iff]
          rintro ⟨-, -, h, -⟩
          apply hm
          rw [List.filter_eq_nil_iff]
          intro k hk
          simpa [Option.isSome_iff_ne_none] using h k hk

end Verif.Registry
