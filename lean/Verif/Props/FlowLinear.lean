import Verif.Props.Topology

/-!
# C210: the flows of a plant are proportional to the flows of its pumps
-/

namespace Verif.Topology

open Verif.FlowNet
open Verif.Topology.Spec

variable {G : Net}

/-- A cell for a mass flow, not for an opening. -/
def IsFlow (c : ℕ) : Prop := c % 2 = 0

theorem isFlow_dm (i k : ℕ) : IsFlow (dmCell i k) := by unfold IsFlow dmCell; omega

theorem not_isFlow_pf (i k : ℕ) : ¬ IsFlow (pfCell i k) := by unfold IsFlow pfCell; omega

/-- A routine computes a flow as a sum of flows, or as a flow times or divided by openings. -/
def Typed (r : Routine) : Prop :=
  IsFlow r.tgt ∧
  match r.op with
  | .pass a => IsFlow a
  | .negSum a rest => IsFlow a ∧ ∀ b ∈ rest, IsFlow b
  | .sum l => ∀ b ∈ l, IsFlow b
  | .negMul a b => IsFlow a ∧ ¬ IsFlow b
  | .negDiv a b => IsFlow a ∧ ¬ IsFlow b
  | .mul a b => IsFlow a ∧ ¬ IsFlow b
  | .div a b => IsFlow a ∧ ¬ IsFlow b
  | .sub a b => IsFlow a ∧ IsFlow b
  | .mulDiv a b c => IsFlow a ∧ ¬ IsFlow b ∧ ¬ IsFlow c
  | .idle => True

theorem analysed_typed (wf : WellFormed G) {s : State} (h : Analysed G (.ok s)) :
    (∀ p, IsFlow (s.addr p)) ∧ ∀ r ∈ s.net, Typed r := by
  refine analysed_induction wf (P := fun s => (∀ p, IsFlow (s.addr p)) ∧ ∀ r ∈ s.net, Typed r)
    ⟨fun p => isFlow_dm _ _, by simp [init]⟩ ?_ h
  intro s p parent a _ hs _ _ ha
  obtain ⟨h1, h2⟩ := hs
  constructor
  · intro q
    have hsame : IsFlow (s.addr q) := h1 q
    cases ha with
    | view _ _ _ _ =>
      simp only [apply]
      split_ifs
      · exact h1 _
      · exact h1 _
    | _ => exact hsame
  · intro r hr
    rw [net_apply] at hr
    rcases List.mem_append.mp hr with hr | hr
    · exact h2 r hr
    · cases ha with
      | reenter => simp at hr
      | pump => simp at hr
      | pipe => simp at hr
      | hexNum => simp at hr
      | view => simp at hr
      | copy =>
        simp only [Option.toList_some, List.mem_singleton] at hr
        subst hr
        exact ⟨h1 _, h1 _⟩
      | handed =>
        simp only [Option.toList_some, List.mem_singleton] at hr
        subst hr
        unfold passOn
        split_ifs
        · exact ⟨h1 _, h1 _, by simp⟩
        · exact ⟨h1 _, h1 _⟩
      | compute _ hc =>
        simp only [Option.toList_some, List.mem_singleton] at hr
        subst hr
        cases hc with
        | @connector x rest _ _ e =>
          have : ∀ b ∈ x :: rest, IsFlow b := by
            rw [← e]
            intro b hb
            obtain ⟨k, -, rfl⟩ := List.mem_map.1 hb
            exact h1 _
          exact ⟨h1 _, this x (by simp), fun b hb => this b (by simp [hb])⟩
        | @storage x rest _ _ e =>
          have : ∀ b ∈ x :: rest, IsFlow b := by
            rw [← e]
            intro b hb
            obtain ⟨k, -, rfl⟩ := List.mem_map.1 hb
            exact h1 _
          exact ⟨h1 _, this x (by simp), fun b hb => this b (by simp [hb])⟩
        | valve => exact ⟨h1 _, h1 _, not_isFlow_pf _ _⟩
        | negMul => exact ⟨h1 _, h1 _, not_isFlow_pf _ _⟩
        | negDiv => exact ⟨h1 _, h1 _, not_isFlow_pf _ _⟩
        | mulDiv => exact ⟨h1 _, h1 _, not_isFlow_pf _ _, not_isFlow_pf _ _⟩

variable {K : Type*} [Field K]

/-- The flows in `u` are composed of those in `v` and `w`; the openings are the same. -/
structure Composed (α β : K) (u v w : ℕ → K) : Prop where
  flow : ∀ c, IsFlow c → u c = α * v c + β * w c
  opening : ∀ c, ¬ IsFlow c → u c = v c ∧ w c = v c

theorem Composed.write {α β : K} {u v w : ℕ → K} (h : Composed α β u v w) {t : ℕ} (ht : IsFlow t) {x y z : K}
    (hx : x = α * y + β * z) : Composed α β (write u t x) (write v t y) (write w t z) := by
  constructor
  · intro c hc
    unfold FlowNet.write
    split_ifs
    · exact hx
    · exact h.flow c hc
  · intro c hc
    unfold FlowNet.write
    have : c ≠ t := fun e => hc (e ▸ ht)
    simp only [this, if_false]
    exact h.opening c hc

theorem Composed.fold {α β : K} {t : ℕ} (ht : IsFlow t) : ∀ (rest : List ℕ) {u v w : ℕ → K}, Composed α β u v w →
    (∀ b ∈ rest, IsFlow b) →
    Composed α β (rest.foldl (fun s b => FlowNet.write s t (s t - s b)) u) (rest.foldl (fun s b => FlowNet.write s t (s t - s b)) v)
      (rest.foldl (fun s b => FlowNet.write s t (s t - s b)) w)
  | [], _, _, _, h, _ => h
  | b :: rest, u, v, w, h, hb => by
    refine Composed.fold ht rest (h.write ht ?_) fun x hx => hb x (List.mem_cons_of_mem _ hx)
    rw [h.flow t ht, h.flow b (hb b (by simp))]
    ring

theorem Composed.sum {α β : K} {u v w : ℕ → K} (h : Composed α β u v w) : ∀ (l : List ℕ), (∀ b ∈ l, IsFlow b) →
    (l.map u).sum = α * (l.map v).sum + β * (l.map w).sum
  | [], _ => by simp
  | b :: l, hb => by
    simp only [List.map_cons, List.sum_cons]
    rw [h.sum l fun x hx => hb x (List.mem_cons_of_mem _ hx), h.flow b (hb b (by simp))]
    ring

theorem Composed.exec {α β : K} {u v w : ℕ → K} (h : Composed α β u v w) {r : Routine} (hr : Typed r) :
    Composed α β (exec u r) (exec v r) (exec w r) := by
  obtain ⟨t, op⟩ := r
  obtain ⟨ht, ho⟩ := hr
  cases op with
  | pass a => exact h.write ht (h.flow a ho)
  | negSum a rest =>
    refine Composed.fold ht rest (h.write ht ?_) ho.2
    rw [h.flow a ho.1]
    ring
  | sum l => exact h.write ht (h.sum l ho)
  | negMul a b =>
    refine h.write ht ?_
    rw [h.flow a ho.1, (h.opening b ho.2).1, (h.opening b ho.2).2]
    ring
  | negDiv a b =>
    refine h.write ht ?_
    rw [h.flow a ho.1, (h.opening b ho.2).1, (h.opening b ho.2).2]
    ring
  | mul a b =>
    refine h.write ht ?_
    rw [h.flow a ho.1, (h.opening b ho.2).1, (h.opening b ho.2).2]
    ring
  | div a b =>
    refine h.write ht ?_
    rw [h.flow a ho.1, (h.opening b ho.2).1, (h.opening b ho.2).2]
    ring
  | sub a b =>
    refine h.write ht ?_
    rw [h.flow a ho.1, h.flow b ho.2]
    ring
  | mulDiv a b c =>
    refine h.write ht ?_
    rw [h.flow a ho.1, (h.opening b ho.2.1).1, (h.opening b ho.2.1).2, (h.opening c ho.2.2).1, (h.opening c ho.2.2).2]
    ring
  | idle => exact h

theorem Composed.evalNet {α β : K} : ∀ (net : List Routine) {u v w : ℕ → K}, Composed α β u v w → (∀ r ∈ net, Typed r) →
    Composed α β (evalNet net u) (evalNet net v) (evalNet net w)
  | [], _, _, _, h, _ => h
  | r :: net, _, _, _, h, hr =>
    Composed.evalNet net (h.exec (hr r (by simp))) fun r' h' => hr r' (List.mem_cons_of_mem _ h')

/-- Specification: with the same valves, the pumps of the first case pump `α` times what they pump in the second plus `β` times what they
pump in the third.  Nothing is said about the flows in other parts before the calculation. -/
structure Pumped (G : Net) (α β : K) (u v w : ℕ → K) : Prop where
  pumps : ∀ i < G.n, G.kind i = .pump → u (own G (i, 0)) = α * v (own G (i, 0)) + β * w (own G (i, 0))
  valves : ∀ i k, u (pfCell i k) = v (pfCell i k) ∧ w (pfCell i k) = v (pfCell i k)

/-- The flow at every port that was reached is composed as the flows of the pumps are. -/
theorem solved_composed (wf : WellFormed G) {s : State} (h : Analysed G (.ok s)) {α β : K} {u v w : ℕ → K} (hc : Pumped G α β u v w)
    {p : Port} (hp : isSolved s p) :
    evalNet s.net u (s.addr p) = α * evalNet s.net v (s.addr p) + β * evalNet s.net w (s.addr p) := by
  obtain ⟨t1, t2⟩ := analysed_typed wf h
  classical
  let u' : ℕ → K := fun c => if IsFlow c then α * v c + β * w c else v c
  let w' : ℕ → K := fun c => if IsFlow c then w c else v c
  have hcomp : Composed α β u' v w' := by
    constructor
    · intro c hc
      simp only [u', w', hc, if_true]
    · intro c hc
      simp only [u', w', hc, if_false, and_self]
  have e1 : evalNet s.net u (s.addr p) = evalNet s.net u' (s.addr p) := by
    refine solved_determined wf h (fun i hi hk => ?_) (fun i k => ?_) hp
    · simp only [u', show IsFlow (own G (i, 0)) from isFlow_dm _ _, if_true]
      exact hc.pumps i hi hk
    · simp only [u', not_isFlow_pf i k, if_false]
      exact (hc.valves i k).1
  have e2 : evalNet s.net w (s.addr p) = evalNet s.net w' (s.addr p) := by
    refine solved_determined wf h (fun i hi hk => ?_) (fun i k => ?_) hp
    · simp only [w', show IsFlow (own G (i, 0)) from isFlow_dm _ _, if_true]
    · simp only [w', not_isFlow_pf i k, if_false]
      exact (hc.valves i k).2
  rw [e1, e2]
  exact (Composed.evalNet s.net hcomp t2).flow _ (t1 p)

/-- **C210**, partial: in every accepted plant, the flows of all ports are superposed as the flows of the pumps are.  Missing: storages of
which two or more ports were not reached, whose flows do not follow from the pumps at all (`C98_fails_open_storage`). -/
theorem C210_superposition_partial (wf : WellFormed G) {s : State} (h : Accepted G s) {α β : K} {u v w : ℕ → K}
    (hc : Pumped G α β u v w) {i : ℕ} (hi : i < G.n)
    (hr : G.kind i ≠ .storage ∨ ∀ k < G.nports i, isSolved s (i, k)) {k : ℕ} (hk : k < G.nports i) :
    evalNet s.net u (s.addr (i, k)) = α * evalNet s.net v (s.addr (i, k)) + β * evalNet s.net w (s.addr (i, k)) := by
  refine solved_composed wf h.1 hc ?_
  rcases hr with hr | hr
  · by_contra hn
    have hg := analysed_good wf h.1
    have hopen := open_of_unsolved hg.clean hn ⟨hi, hk⟩
    exact hr (h.2 i hi (.inr hopen))
  · exact hr k hk

/-- **C210**, partial: when all pumps pump `α` times as much, all flows are `α` times as large. -/
theorem C210_proportional_partial (wf : WellFormed G) {s : State} (h : Accepted G s) {α : K} {u v : ℕ → K}
    (hp : ∀ i < G.n, G.kind i = .pump → u (own G (i, 0)) = α * v (own G (i, 0))) (hv : ∀ i k, u (pfCell i k) = v (pfCell i k)) {i : ℕ}
    (hi : i < G.n) (hr : G.kind i ≠ .storage ∨ ∀ k < G.nports i, isSolved s (i, k)) {k : ℕ} (hk : k < G.nports i) :
    evalNet s.net u (s.addr (i, k)) = α * evalNet s.net v (s.addr (i, k)) := by
  have := C210_superposition_partial wf h (α := α) (β := 0) (u := u) (v := v) (w := v)
    ⟨fun j hj hk => by rw [hp j hj hk]; ring, fun j k => ⟨hv j k, rfl⟩⟩ hi hr hk
  rw [this]
  ring

/-- **C210**, partial: when no pump runs, nothing flows, whatever flowed before. -/
theorem C210_standstill_partial (wf : WellFormed G) {s : State} (h : Accepted G s) {u : ℕ → K}
    (hp : ∀ i < G.n, G.kind i = .pump → u (own G (i, 0)) = 0) {i : ℕ} (hi : i < G.n)
    (hr : G.kind i ≠ .storage ∨ ∀ k < G.nports i, isSolved s (i, k)) {k : ℕ} (hk : k < G.nports i) :
    evalNet s.net u (s.addr (i, k)) = 0 := by
  have := C210_proportional_partial wf h (α := 0) (u := u) (v := u) (fun j hj hk => by rw [hp j hj hk]; ring) (fun _ _ => rfl) hi hr hk
  rw [this]
  ring

/-- Two pumps charge and discharge a storage. -/
example : ∃ s, Accepted storageCircuits s ∧ (∀ k < 4, isSolved s (2, k)) ∧ ∃ u v w : ℕ → ℚ, Pumped storageCircuits 2 3 u v w ∧
    v (own storageCircuits (0, 0)) ≠ 0 ∧ w (own storageCircuits (0, 0)) ≠ 0 := by
  obtain ⟨s, h1, h2, h3⟩ := succeeds_sound (G := storageCircuits) (m := 100) (o₁ := []) (o₂ := [])
    (P := fun s => Passes storageCircuits s ∧ ∀ k : ℕ, k < 4 → isSolved s (2, k)) (by decide +kernel)
  refine ⟨s, ⟨h1, h2⟩, h3, fun c => if c % 2 = 0 then 5 else 1 / 2, fun c => if c % 2 = 0 then 1 else 1 / 2,
    fun c => if c % 2 = 0 then 1 else 1 / 2, ⟨?_, ?_⟩, ?_, ?_⟩
  · intro i _ _
    have : own storageCircuits (i, 0) % 2 = 0 := isFlow_dm _ _
    simp only [this, if_true]
    norm_num
  · intro i k
    have : ¬ pfCell i k % 2 = 0 := not_isFlow_pf i k
    simp only [this, if_false, and_self]
  · have : own storageCircuits (0, 0) % 2 = 0 := isFlow_dm _ _
    simp [this]
  · have : own storageCircuits (0, 0) % 2 = 0 := isFlow_dm _ _
    simp [this]

end Verif.Topology
