import Verif.Spec.Topology
import Mathlib.Data.List.Nodup
import Mathlib.Algebra.Order.BigOperators.Group.Finset
import Mathlib.Data.Finset.Dedup

/-!
# Invariants of the topology analysis
-/

namespace Verif.Topology

open Verif.FlowNet
open Verif.Topology.Spec
open Verif.FlowNet.Spec (Causal sources Holds)

variable {G : Net} {root : ℕ} {sub : Bool}

/-- The passes of the loop, one by one. -/
inductive Step (G : Net) (root : ℕ) (sub : Bool) : Config → Config → Prop
  | pop {f fs s} : f.todo = [] → Step G root sub ⟨f :: fs, s⟩ ⟨fs, s⟩
  | skip {f fs s k ks} : f.todo = k :: ks →
      isSolved s (f.part, k) ∨ ((G.part f.part).channels ≠ [] ∧ ¬ f.channel <:+: G.portName (f.part, k)) →
      Step G root sub ⟨f :: fs, s⟩ ⟨{ f with todo := ks } :: fs, s⟩
  | brk {f fs s k ks a} : f.todo = k :: ks → ¬ isSolved s (f.part, k) →
      ((G.part f.part).channels ≠ [] → f.channel <:+: G.portName (f.part, k)) →
      flowRoutine G root s f (sideOf sub f k) k = .ok a → f.parent ≠ none →
      breaks G (apply s (f.part, k) f.parent a) f.part →
      Step G root sub ⟨f :: fs, s⟩ ⟨fs, apply s (f.part, k) f.parent a⟩
  | stay {f fs s k ks a} : f.todo = k :: ks → ¬ isSolved s (f.part, k) →
      ((G.part f.part).channels ≠ [] → f.channel <:+: G.portName (f.part, k)) →
      flowRoutine G root s f (sideOf sub f k) k = .ok a →
      (f.parent ≠ none → ¬ breaks G (apply s (f.part, k) f.parent a) f.part) →
      (∀ q, G.link (f.part, k) = some q → isSolved (apply s (f.part, k) f.parent a) q ∨
        ¬ inHydr G (apply s (f.part, k) f.parent a) q.1) →
      Step G root sub ⟨f :: fs, s⟩ ⟨{ f with todo := ks } :: fs, apply s (f.part, k) f.parent a⟩
  | push {f fs s k ks a q ch side} : f.todo = k :: ks → ¬ isSolved s (f.part, k) →
      ((G.part f.part).channels ≠ [] → f.channel <:+: G.portName (f.part, k)) →
      flowRoutine G root s f (sideOf sub f k) k = .ok a →
      (f.parent ≠ none → ¬ breaks G (apply s (f.part, k) f.parent a) f.part) →
      G.link (f.part, k) = some q → ¬ isSolved (apply s (f.part, k) f.parent a) q →
      (G.kind q.1 = .pump → q.1 = root) →
      ((G.part q.1).channels ≠ [] →
        lastChannel (G.part q.1).channels ((G.part q.1).name ++ ';' :: G.portName q) = some ch) →
      Step G root sub ⟨f :: fs, s⟩
        ⟨⟨q.1, order G q.1 q.2, some (f.part, k), side, ch⟩ :: { f with todo := ks } :: fs,
          apply s (f.part, k) f.parent a⟩

theorem step_sound {c c' : Config} (h : step G root sub c = .ok c') (hne : c.stack ≠ []) :
    Step G root sub c c' := by
  obtain ⟨stack, s⟩ := c
  cases stack with
  | nil => exact absurd rfl hne
  | cons f fs =>
    unfold step at h
    simp only at h
    cases ht : f.todo with
    | nil =>
      rw [ht] at h
      simp only [Except.ok.injEq] at h
      rw [← h]; exact .pop ht
    | cons k ks =>
      rw [ht] at h
      simp only at h
      by_cases h1 : isSolved s (f.part, k)
      · rw [if_pos h1] at h
        simp only [Except.ok.injEq] at h
        rw [← h]; exact .skip ht (.inl h1)
      rw [if_neg h1] at h
      by_cases h2 : (G.part f.part).channels ≠ [] ∧ ¬ f.channel <:+: G.portName (f.part, k)
      · rw [if_pos h2] at h
        simp only [Except.ok.injEq] at h
        rw [← h]; exact .skip ht (.inr h2)
      rw [if_neg h2] at h
      have h2' : (G.part f.part).channels ≠ [] → f.channel <:+: G.portName (f.part, k) := by
        intro hc; by_contra hn; exact h2 ⟨hc, hn⟩
      cases ha : flowRoutine G root s f (sideOf sub f k) k with
      | error e => rw [ha] at h; simp at h
      | ok a =>
        rw [ha] at h
        simp only at h
        by_cases h3 : f.parent ≠ none ∧ breaks G (apply s (f.part, k) f.parent a) f.part
        · rw [if_pos h3] at h
          simp only [Except.ok.injEq] at h
          rw [← h]; exact .brk ht h1 h2' ha h3.1 h3.2
        rw [if_neg h3] at h
        have h3' : f.parent ≠ none → ¬ breaks G (apply s (f.part, k) f.parent a) f.part := fun x y => h3 ⟨x, y⟩
        by_cases h4 : divides a.routine = true ∧ (G.part f.part).limitZero = true
        · rw [if_pos h4] at h; simp at h
        rw [if_neg h4] at h
        unfold descend at h
        simp only at h
        cases hl : G.link (f.part, k) with
        | none =>
          rw [hl] at h
          simp only [Except.ok.injEq] at h
          rw [← h]; exact .stay ht h1 h2' ha h3' (by rw [hl]; simp)
        | some q =>
          rw [hl] at h
          simp only at h
          by_cases h5 : isSolved (apply s (f.part, k) f.parent a) q
          · rw [if_pos h5] at h
            simp only [Except.ok.injEq] at h
            rw [← h]; refine .stay ht h1 h2' ha h3' ?_
            intro q' hq'; rw [hl] at hq'; simp only [Option.some.injEq] at hq'
            rw [← hq']; exact .inl h5
          rw [if_neg h5] at h
          by_cases h6 : G.kind q.1 = .pump ∧ q.1 ≠ root
          · rw [if_pos h6] at h; simp at h
          rw [if_neg h6] at h
          have h6' : G.kind q.1 = .pump → q.1 = root := by
            intro x; by_contra y; exact h6 ⟨x, y⟩
          by_cases h7 : inHydr G (apply s (f.part, k) f.parent a) q.1
          · rw [if_pos h7] at h
            by_cases h8 : (G.part q.1).channels = []
            · rw [if_pos h8] at h
              simp only [Except.ok.injEq] at h
              rw [← h]
              exact .push ht h1 h2' ha h3' hl h5 h6' (fun x => absurd h8 x)
            rw [if_neg h8] at h
            cases h9 : lastChannel (G.part q.1).channels ((G.part q.1).name ++ ';' :: G.portName q) with
            | none => rw [h9] at h; simp at h
            | some ch =>
              rw [h9] at h
              simp only [Except.ok.injEq] at h
              rw [← h]
              exact .push ht h1 h2' ha h3' hl h5 h6' (fun _ => h9)
          · rw [if_neg h7] at h
            simp only [Except.ok.injEq] at h
            rw [← h]; refine .stay ht h1 h2' ha h3' ?_
            intro q' hq'; rw [hl] at hq'; simp only [Option.some.injEq] at hq'
            rw [← hq']; exact .inr h7

/-! ## Which ports are solved -/

theorem flowRoutine_solves {s : State} {f : Frame} {side : Side} {k : ℕ} {a : Answer}
    (h : flowRoutine G root s f side k = .ok a) :
    a.solves = true ∨ (G.kind f.part = .pump ∧ f.part = root ∧ f.parent ≠ none ∧
      a = ⟨none, none, false, false⟩) := by
  unfold flowRoutine pumpRoutine pipeRoutine storageAnswer connectorAnswer valveAnswer pipeValveAnswer hexAnswer
    hexNumAnswer balance pass at h
  repeat' split at h
  all_goals first
    | (simp only [Except.ok.injEq] at h; subst h; left; rfl)
    | (simp at h; done)
    | skip
  simp only [Except.ok.injEq] at h
  subst h
  right
  simp_all

theorem isSolved_apply {s : State} {p : Port} {parent : Option Port} {a : Answer} {q : Port} :
    isSolved (apply s p parent a) q ↔ isSolved s q ∨ (a.solves = true ∧ q = p) := by
  unfold isSolved apply
  cases a.solves
  · simp
  · simp only [if_true]
    by_cases h : q.1 = p.1
    · simp only [h, if_true, List.mem_append, List.mem_singleton, true_and]
      constructor
      · rintro (h' | h')
        · exact .inl h'
        · exact .inr (Prod.ext h h')
      · rintro (h' | h')
        · exact .inl h'
        · exact .inr (by rw [h'])
    · simp only [h, if_false, true_and]
      constructor
      · exact .inl
      · rintro (h' | h')
        · exact h'
        · exact absurd (by rw [h']) h

theorem isSolved_mono {s : State} {p : Port} {parent : Option Port} {a : Answer} {q : Port} (h : isSolved s q) :
    isSolved (apply s p parent a) q := isSolved_apply.mpr (.inl h)

/-- Ports are solved once, and only ports of the net. -/
structure Clean (G : Net) (s : State) : Prop where
  nodup : ∀ i, (s.solved i).Nodup
  valid : ∀ p, isSolved s p → Valid G p

theorem clean_init : Clean G (init G) := ⟨fun _ => List.nodup_nil, fun p h => by simp [isSolved, init] at h⟩

theorem solved_apply (s : State) (p : Port) (parent : Option Port) (a : Answer) (i : ℕ) :
    (apply s p parent a).solved i = if a.solves = true ∧ i = p.1 then s.solved i ++ [p.2] else s.solved i := by
  unfold apply
  cases a.solves <;> simp

theorem clean_apply {s : State} {p : Port} {parent : Option Port} {a : Answer} (h : Clean G s) (hp : ¬ isSolved s p)
    (hv : Valid G p) : Clean G (apply s p parent a) := by
  constructor
  · intro i
    rw [solved_apply]
    split_ifs with hc
    · rw [List.nodup_append]
      refine ⟨h.nodup i, List.nodup_singleton _, ?_⟩
      intro x hx y hy
      rw [List.mem_singleton] at hy
      rintro rfl
      apply hp
      unfold isSolved
      rw [← hc.2, ← hy]; exact hx
    · exact h.nodup i
  · intro q hq
    rcases isSolved_apply.mp hq with h' | ⟨_, rfl⟩
    · exact h.valid q h'
    · exact hv

theorem clean_length {s : State} (h : Clean G s) (i : ℕ) : (s.solved i).length ≤ G.nports i := by
  have hsub : (s.solved i) ⊆ List.range (G.nports i) := by
    intro k hk
    exact List.mem_range.mpr (h.valid (i, k) hk).2
  have := ((h.nodup i).subperm hsub).length_le
  simpa using this

/-- Number of open ports. -/
def openPorts (G : Net) (s : State) : ℕ := ∑ i ∈ Finset.range G.n, cnt G s i

theorem cnt_apply {s : State} {p : Port} {parent : Option Port} {a : Answer} (i : ℕ) :
    cnt G (apply s p parent a) i = if a.solves = true ∧ i = p.1 then cnt G s i - 1 else cnt G s i := by
  unfold cnt
  rw [solved_apply]
  split_ifs with hc
  · rw [List.length_append, List.length_singleton]; omega
  · rfl

theorem open_of_unsolved {s : State} {p : Port} (h : Clean G s) (hp : ¬ isSolved s p) (hv : Valid G p) :
    0 < cnt G s p.1 := by
  unfold cnt
  have h2 := clean_length (clean_apply (parent := none) (a := ⟨none, none, true, false⟩) h hp hv) p.1
  rw [solved_apply] at h2
  simp at h2
  omega

theorem openPorts_apply {s : State} {p : Port} {parent : Option Port} {a : Answer} (h : Clean G s)
    (hp : ¬ isSolved s p) (hv : Valid G p) (ha : a.solves = true) :
    openPorts G (apply s p parent a) < openPorts G s := by
  unfold openPorts
  apply Finset.sum_lt_sum
  · intro i _
    rw [cnt_apply]
    split_ifs <;> omega
  · refine ⟨p.1, Finset.mem_range.mpr hv.1, ?_⟩
    rw [cnt_apply, if_pos ⟨ha, rfl⟩]
    have := open_of_unsolved h hp hv
    omega

theorem apply_unsolving (s : State) (p : Port) (parent : Option Port) :
    apply s p parent ⟨none, none, false, false⟩ = s := by
  unfold apply
  cases parent <;> simp

/-! ## Running calls -/

/-- What holds for every running call. -/
structure FrameOK (G : Net) (root : ℕ) (s : State) (f : Frame) : Prop where
  valid : f.part < G.n
  todo : ∀ k ∈ f.todo, k < G.nports f.part
  outer : f.parent = none → f.part = root
  parent : ∀ q, f.parent = some q → isSolved s q ∧ (∃ k, isSolved s (root, k))
  pump : ∀ q, f.parent = some q → G.kind f.part = .pump → f.part = root ∧
    ∀ k ∈ f.todo, isSolved s (f.part, k) ∨ G.link (f.part, k) = some q

structure ConfigOK (G : Net) (root : ℕ) (c : Config) : Prop where
  clean : Clean G c.state
  frames : ∀ f ∈ c.stack, FrameOK G root c.state f

theorem FrameOK.mono {s : State} {f : Frame} {p : Port} {parent : Option Port} {a : Answer} (h : FrameOK G root s f) :
    FrameOK G root (apply s p parent a) f := by
  refine ⟨h.valid, h.todo, h.outer, ?_, ?_⟩
  · intro q hq
    obtain ⟨h1, k, h2⟩ := h.parent q hq
    exact ⟨isSolved_mono h1, k, isSolved_mono h2⟩
  · intro q hq hk
    obtain ⟨h1, h2⟩ := h.pump q hq hk
    refine ⟨h1, fun k hk' => ?_⟩
    rcases h2 k hk' with h3 | h3
    · exact .inl (isSolved_mono h3)
    · exact .inr h3

theorem FrameOK.tail {s : State} {f : Frame} {k : ℕ} {ks : List ℕ} (h : FrameOK G root s f) (ht : f.todo = k :: ks) :
    FrameOK G root s { f with todo := ks } := by
  refine ⟨h.valid, fun j hj => h.todo j (by rw [ht]; exact List.mem_cons_of_mem _ hj), h.outer, h.parent, ?_⟩
  intro q hq hk
  obtain ⟨h1, h2⟩ := h.pump q hq hk
  exact ⟨h1, fun j hj => h2 j (by rw [ht]; exact List.mem_cons_of_mem _ hj)⟩

theorem mem_order {i k j : ℕ} : j ∈ order G i k ↔ j = k ∨ (j < G.nports i ∧ j ≠ k) := by
  unfold order
  simp

/-- A call that goes on to another part has solved its port. -/
theorem push_solves {s : State} {f : Frame} {k : ℕ} {ks : List ℕ} {a : Answer} {q : Port} {side : Side}
    (hok : FrameOK G root s f) (ht : f.todo = k :: ks) (hn : ¬ isSolved s (f.part, k))
    (ha : flowRoutine G root s f side k = .ok a) (hl : G.link (f.part, k) = some q)
    (hq : ¬ isSolved (apply s (f.part, k) f.parent a) q) : a.solves = true := by
  rcases flowRoutine_solves ha with h | ⟨hk, hr, hp, rfl⟩
  · exact h
  · exfalso
    rw [apply_unsolving] at hq
    obtain ⟨q', hq'⟩ := Option.ne_none_iff_exists'.mp hp
    rcases (hok.pump q' hq' hk).2 k (by rw [ht]; exact List.mem_cons_self) with h3 | h3
    · exact hn h3
    · rw [hl] at h3
      simp only [Option.some.injEq] at h3
      rw [h3] at hq
      exact hq (hok.parent q' hq').1

theorem configOK_step (wf : WellFormed G) {c c' : Config} (h : ConfigOK G root c) (hs : Step G root sub c c') :
    ConfigOK G root c' := by
  cases hs with
  | pop ht => exact ⟨h.clean, fun f hf => h.frames f (List.mem_cons_of_mem _ hf)⟩
  | skip ht _ =>
    refine ⟨h.clean, fun f hf => ?_⟩
    rcases List.mem_cons.mp hf with rfl | hf
    · exact (h.frames _ List.mem_cons_self).tail ht
    · exact h.frames f (List.mem_cons_of_mem _ hf)
  | @brk f fs s k ks a ht hn hc ha hp hb =>
    have hf := h.frames f List.mem_cons_self
    have hv : Valid G (f.part, k) := ⟨hf.valid, hf.todo k (by rw [ht]; exact List.mem_cons_self)⟩
    exact ⟨clean_apply h.clean hn hv, fun g hg => (h.frames g (List.mem_cons_of_mem _ hg)).mono⟩
  | @stay f fs s k ks a ht hn hc ha hb hl =>
    have hf := h.frames f List.mem_cons_self
    have hv : Valid G (f.part, k) := ⟨hf.valid, hf.todo k (by rw [ht]; exact List.mem_cons_self)⟩
    refine ⟨clean_apply h.clean hn hv, fun g hg => ?_⟩
    rcases List.mem_cons.mp hg with rfl | hg
    · exact (hf.tail ht).mono
    · exact (h.frames g (List.mem_cons_of_mem _ hg)).mono
  | @push f fs s k ks a q ch side ht hn hc ha hb hl hq hpump hch =>
    have hf := h.frames f List.mem_cons_self
    have hv : Valid G (f.part, k) := ⟨hf.valid, hf.todo k (by rw [ht]; exact List.mem_cons_self)⟩
    have hsol := push_solves hf ht hn ha hl hq
    have hvq := wf.valid _ _ hl
    have hcl : Clean G (apply s (f.part, k) f.parent a) := clean_apply h.clean hn hv
    have hroot : ∃ j, isSolved (apply s (f.part, k) f.parent a) (root, j) := by
      cases hp : f.parent with
      | none =>
        refine ⟨k, ?_⟩
        rw [← hf.outer hp]
        exact isSolved_apply.mpr (.inr ⟨hsol, rfl⟩)
      | some q' =>
        obtain ⟨_, j, hj⟩ := hf.parent q' hp
        exact ⟨j, isSolved_mono hj⟩
    refine ⟨hcl, fun g hg => ?_⟩
    rcases List.mem_cons.mp hg with rfl | hg
    · refine ⟨hvq.1, ?_, by simp, ?_, ?_⟩
      · intro j hj
        rcases mem_order.mp hj with rfl | hj
        · exact hvq.2
        · exact hj.1
      · intro q' hq'
        simp only [Option.some.injEq] at hq'
        subst hq'
        exact ⟨isSolved_apply.mpr (.inr ⟨hsol, rfl⟩), hroot⟩
      · intro q' hq' hk
        simp only [Option.some.injEq] at hq'
        subst hq'
        refine ⟨hpump hk, ?_⟩
        intro j hj
        simp only at hk hj ⊢
        by_cases hjq : j = q.2
        · right; rw [hjq]; exact wf.symm _ _ hl
        · left
          obtain ⟨j', hj'⟩ := hroot
          have h2 := wf.two q.1 hvq.1 (.inl hk)
          have hlt : j < 2 := by
            rcases mem_order.mp hj with rfl | hj
            · exact absurd rfl hjq
            · rw [← h2]; exact hj.1
          have hq2 : q.2 < 2 := by rw [← h2]; exact hvq.2
          have hj2 : j' < 2 := by
            rw [← h2, hpump hk]; exact (hcl.valid _ hj').2
          have hne : j' ≠ q.2 := by
            rintro rfl
            apply hq
            have : q = (root, q.2) := Prod.ext (hpump hk) rfl
            rw [this]; exact hj'
          have : j = j' := by omega
          rw [this, hpump hk]; exact hj'
    · rcases List.mem_cons.mp hg with rfl | hg
      · exact (hf.tail ht).mono
      · exact (h.frames g (List.mem_cons_of_mem _ hg)).mono

/-! ## Termination -/

/-- Work left in the running calls. -/
def work (l : List Frame) : ℕ := (l.map fun f => f.todo.length + 1).sum

theorem step_decreases {c c' : Config} (h : ConfigOK G root c) (hs : Step G root sub c c') :
    openPorts G c'.state < openPorts G c.state ∨
      (openPorts G c'.state = openPorts G c.state ∧ work c'.stack < work c.stack) := by
  cases hs with
  | pop ht => right; exact ⟨rfl, by simp [work]⟩
  | skip ht _ => right; exact ⟨rfl, by simp [work, ht]⟩
  | @brk f fs s k ks a ht hn hc ha hp hb =>
    have hf := h.frames f List.mem_cons_self
    have hv : Valid G (f.part, k) := ⟨hf.valid, hf.todo k (by rw [ht]; exact List.mem_cons_self)⟩
    rcases flowRoutine_solves ha with hsol | ⟨_, _, _, rfl⟩
    · exact .inl (openPorts_apply h.clean hn hv hsol)
    · right; rw [apply_unsolving]; exact ⟨rfl, by simp [work]⟩
  | @stay f fs s k ks a ht hn hc ha hb hl =>
    have hf := h.frames f List.mem_cons_self
    have hv : Valid G (f.part, k) := ⟨hf.valid, hf.todo k (by rw [ht]; exact List.mem_cons_self)⟩
    rcases flowRoutine_solves ha with hsol | ⟨_, _, _, rfl⟩
    · exact .inl (openPorts_apply h.clean hn hv hsol)
    · right; rw [apply_unsolving]; exact ⟨rfl, by simp [work, ht]⟩
  | @push f fs s k ks a q ch side ht hn hc ha hb hl hq hpump hch =>
    have hf := h.frames f List.mem_cons_self
    have hv : Valid G (f.part, k) := ⟨hf.valid, hf.todo k (by rw [ht]; exact List.mem_cons_self)⟩
    exact .inl (openPorts_apply h.clean hn hv (push_solves hf ht hn ha hl hq))

theorem steps_succ (m : ℕ) (c : Config) : steps G root sub (m + 1) c =
    match step G root sub c with
    | .error e => .error e
    | .ok c => steps G root sub m c := rfl

/-- Every call ends. -/
theorem steps_terminate (wf : WellFormed G) : ∀ (u w : ℕ) (c : Config), ConfigOK G root c →
    openPorts G c.state = u → work c.stack = w →
    ∃ m, (∃ s', steps G root sub m c = .ok ⟨[], s'⟩) ∨ ∃ e, steps G root sub m c = .error e := by
  intro u
  induction u using Nat.strong_induction_on with
  | _ u ihu =>
    intro w
    induction w using Nat.strong_induction_on with
    | _ w ihw =>
      intro c hc hu hw
      by_cases hne : c.stack = []
      · refine ⟨0, .inl ⟨c.state, ?_⟩⟩
        unfold steps
        rw [← hne]
      · cases hst : step G root sub c with
        | error e => exact ⟨1, .inr ⟨e, by rw [steps_succ, hst]⟩⟩
        | ok c' =>
          have hs := step_sound hst hne
          have hc' := configOK_step wf hc hs
          have : ∃ m, (∃ s', steps G root sub m c' = .ok ⟨[], s'⟩) ∨ ∃ e, steps G root sub m c' = .error e := by
            rcases step_decreases hc hs with h | ⟨h1, h2⟩
            · exact ihu _ (by omega) _ c' hc' rfl rfl
            · exact ihw _ (by omega) c' hc' (by omega) rfl
          obtain ⟨m, hm⟩ := this
          refine ⟨m + 1, ?_⟩
          rw [steps_succ, hst]
          exact hm

/-- Anything that is kept by a pass is kept by a call. -/
theorem steps_invariant {P : Config → Prop} (hstep : ∀ c c', P c → Step G root sub c c' → P c') :
    ∀ (m : ℕ) (c c' : Config), P c → steps G root sub m c = .ok c' → P c' := by
  intro m
  induction m with
  | zero => intro c c' hc h; simp only [steps, Except.ok.injEq] at h; rw [← h]; exact hc
  | succ m ih =>
    intro c c' hc h
    rw [steps_succ] at h
    by_cases hne : c.stack = []
    · have : step G root sub c = .ok c := by unfold step; rw [hne]
      rw [this] at h
      exact ih c c' hc h
    · cases hst : step G root sub c with
      | error e => rw [hst] at h; simp at h
      | ok c1 =>
        rw [hst] at h
        exact ih c1 c' (hstep _ _ hc (step_sound hst hne)) h

theorem configOK_start {s : State} (hs : Clean G s) (hr : root < G.n) : ConfigOK G root (start G root s) := by
  refine ⟨hs, ?_⟩
  intro f hf
  simp only [start, List.mem_singleton] at hf
  subst hf
  exact ⟨hr, fun k hk => List.mem_range.mp hk, fun _ => rfl, by simp, by simp⟩

theorem run_clean (wf : WellFormed G) {s s' : State} (hs : Clean G s) (hr : root < G.n) (h : Run G root sub s s') :
    Clean G s' := by
  obtain ⟨m, hm⟩ := h
  exact (steps_invariant (fun _ _ => configOK_step wf) m _ _ (configOK_start hs hr) hm).clean

theorem run_or_raises (wf : WellFormed G) {s : State} (hs : Clean G s) (hr : root < G.n) :
    (∃ s', Run G root sub s s') ∨ ∃ e, Raises G root sub s e := by
  obtain ⟨m, hm | hm⟩ := steps_terminate (sub := sub) wf _ _ _ (configOK_start hs hr) rfl rfl
  · obtain ⟨s', h⟩ := hm; exact .inl ⟨s', m, h⟩
  · obtain ⟨e, h⟩ := hm; exact .inr ⟨e, m, h⟩

end Verif.Topology
