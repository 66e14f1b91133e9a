import Verif.Spec.FlowNet
import Mathlib.Data.Rat.Defs
import Mathlib.Algebra.Order.Ring.Rat
import Mathlib.Tactic.Ring
import Mathlib.Tactic.Linarith
import Mathlib.Tactic.LinearCombination
import Mathlib.Tactic.FieldSimp
import Mathlib.Tactic.FinCases
import Mathlib.Data.Fintype.Basic
import Mathlib.Data.List.Range

/-!
# C17, C18: mass flow calculation
-/

namespace Verif.FlowNet

open Spec

variable {K : Type*} [Field K]

/-! ## C17 -/

omit [Field K] in
@[simp] theorem write_self (s : ℕ → K) (t v) : write s t v t = v := by simp [write]

omit [Field K] in
theorem write_ne (s : ℕ → K) {t i : ℕ} (v) (h : i ≠ t) : write s t v i = s i := by simp [write, h]

theorem foldl_other (t : ℕ) : ∀ (rest : List ℕ) (s : ℕ → K) (i : ℕ), i ≠ t →
    rest.foldl (fun s b => write s t (s t - s b)) s i = s i
  | [], s, i, _ => rfl
  | b :: rest, s, i, h => by
    rw [List.foldl_cons, foldl_other t rest _ i h, write_ne _ _ h]

theorem foldl_self (t : ℕ) : ∀ (rest : List ℕ) (s : ℕ → K), t ∉ rest →
    rest.foldl (fun s b => write s t (s t - s b)) s t = s t - (rest.map s).sum
  | [], s, _ => by simp
  | b :: rest, s, h => by
    simp only [List.mem_cons, not_or] at h
    rw [List.foldl_cons, foldl_self t rest _ h.2, write_self]
    have : rest.map (write s t (s t - s b)) = rest.map s := by
      apply List.map_congr_left
      intro i hi
      exact write_ne _ _ fun hh => h.2 (hh ▸ hi)
    rw [this, List.map_cons, List.sum_cons]
    ring

/-- Executing a routine changes no other cell. -/
theorem exec_other (s : ℕ → K) (r : Routine) (i : ℕ) (h : i ≠ r.tgt) : exec s r i = s i := by
  unfold exec
  cases r.op <;> simp only [write_ne _ _ h]
  rw [foldl_other _ _ _ _ h, write_ne _ _ h]

theorem evalNet_other : ∀ (net : List Routine) (s : ℕ → K) (i : ℕ), (∀ r ∈ net, r.tgt ≠ i) →
    evalNet net s i = s i
  | [], _, _, _ => rfl
  | r :: net, s, i, h => by
    show evalNet net (exec s r) i = s i
    rw [evalNet_other net _ i fun r hr => h r (by simp [hr]), exec_other _ _ _ (h r (by simp)).symm]

/-- The equation of a routine depends on its target and sources only. -/
theorem holds_congr (s s' : ℕ → K) (r : Routine) (ht : s r.tgt = s' r.tgt)
    (hs : ∀ a ∈ sources r.op, s a = s' a) : Holds s r ↔ Holds s' r := by
  obtain ⟨t, op⟩ := r
  have hm : ∀ l : List ℕ, (∀ a ∈ l, s a = s' a) → l.map s = l.map s' := fun l h =>
    List.map_congr_left h
  cases op with
  | negSum a rest =>
    have h1 := hs a (by simp [sources])
    have h2 := hm rest fun b hb => hs b (by simp [sources, hb])
    simp only [Holds, ht, h1, h2]
  | sum l =>
    have h2 := hm l fun b hb => hs b (by simpa [sources] using hb)
    simp only [Holds, ht, h2]
  | _ => simp_all [Holds, sources]

/-- A routine that does not read its own target establishes its equation. -/
theorem exec_holds (s : ℕ → K) (r : Routine) (h : r.tgt ∉ sources r.op) : Holds (exec s r) r := by
  obtain ⟨t, op⟩ := r
  cases op with
  | negSum a rest =>
    simp only [sources, List.mem_cons, not_or] at h
    have ha : exec s ⟨t, .negSum a rest⟩ a = s a := exec_other s ⟨t, .negSum a rest⟩ a (Ne.symm h.1)
    have hr : rest.map (exec s ⟨t, .negSum a rest⟩) = rest.map s := by
      apply List.map_congr_left
      intro i hi
      exact exec_other s ⟨t, .negSum a rest⟩ i fun (hh : i = t) => h.2 (hh ▸ hi)
    have ht : exec s ⟨t, .negSum a rest⟩ t = -s a - (rest.map s).sum := by
      simp only [exec]
      rw [foldl_self t rest _ h.2, write_self]
      congr 2
      apply List.map_congr_left
      intro i hi
      exact write_ne _ _ fun hh => h.2 (hh ▸ hi)
    simp only [Holds, ha, hr, ht]
    ring
  | sum l =>
    simp only [sources] at h
    simp only [Holds, exec, write_self]
    congr 1
    apply List.map_congr_left
    intro i hi
    exact (write_ne _ _ fun (hh : i = t) => h (hh ▸ hi)).symm
  | idle => trivial
  | pass a =>
    simp only [sources, List.mem_singleton] at h
    simp [Holds, exec, write, Ne.symm h]
  | mulDiv a b c =>
    simp only [sources, List.mem_cons, not_or, List.not_mem_nil, not_false_eq_true, and_true] at h
    simp [Holds, exec, write, Ne.symm h.1, Ne.symm h.2.1, Ne.symm h.2.2]
  | negMul a b | negDiv a b | mul a b | div a b | sub a b =>
    simp only [sources, List.mem_cons, not_or, List.not_mem_nil, not_false_eq_true, and_true] at h
    simp [Holds, exec, write, Ne.symm h.1, Ne.symm h.2]

/-- If the equation of a routine holds already, executing it changes nothing. -/
theorem exec_of_holds (s : ℕ → K) (r : Routine) (h : r.tgt ∉ sources r.op) (hh : Holds s r) :
    exec s r = s := by
  have h1 := exec_holds s r h
  funext i
  by_cases hi : i = r.tgt
  · subst hi
    have hsrc : ∀ a ∈ sources r.op, exec s r a = s a := fun a ha =>
      exec_other s r a fun hh => h (hh ▸ ha)
    obtain ⟨t, op⟩ := r
    cases op with
    | negSum a rest =>
      simp only [Holds] at h1 hh
      have e1 := hsrc a (by simp [sources])
      have e2 : rest.map (exec s ⟨t, .negSum a rest⟩) = rest.map s :=
        List.map_congr_left fun b hb => hsrc b (by simp [sources, hb])
      rw [e1, e2] at h1
      have := h1.trans hh.symm
      exact add_right_cancel (add_right_cancel this)
    | sum l =>
      simp only [Holds] at h1 hh
      have e2 : l.map (exec s ⟨t, .sum l⟩) = l.map s :=
        List.map_congr_left fun b hb => hsrc b (by simpa [sources] using hb)
      rw [h1, hh, e2]
    | idle => rfl
    | _ => simp_all [Holds, sources]
  · exact exec_other s r i hi

/-- **C17** (one routine): a routine that does not read its own target changes only its target, and
afterwards its equation holds with the source values as they were. -/
theorem C17_single_routine (s : ℕ → K) (r : Routine) (h : r.tgt ∉ sources r.op) :
    (∀ i, i ≠ r.tgt → exec s r i = s i) ∧ Holds (exec s r) r :=
  ⟨fun i hi => exec_other s r i hi, exec_holds s r h⟩

example : (⟨3, .negSum 0 [1, 2]⟩ : Routine).tgt ∉ sources (⟨3, .negSum 0 [1, 2]⟩ : Routine).op := by
  decide

/-- **C17** (system of equations): after evaluating a causal net, the equations of all its routines hold
simultaneously, and every cell that is no target is unchanged. -/
theorem C17_equations_hold : ∀ (net : List Routine) (s : ℕ → K), Causal net →
    (∀ r ∈ net, Holds (evalNet net s) r) ∧ ∀ i, (∀ r ∈ net, r.tgt ≠ i) → evalNet net s i = s i
  | [], _, _ => ⟨by simp, fun _ _ => rfl⟩
  | r :: net, s, h => by
    obtain ⟨h1, h2, h3⟩ := h
    refine ⟨fun r' hr' => ?_, fun i hi => evalNet_other _ s i hi⟩
    show Holds (evalNet net (exec s r)) r'
    rcases List.mem_cons.1 hr' with rfl | hr'
    · refine (holds_congr _ _ r' ?_ ?_).2 (exec_holds s r' h1)
      · exact evalNet_other _ _ _ fun q hq => (h2 q hq).1
      · intro a ha
        exact evalNet_other _ _ _ fun q hq hh => (h2 q hq).2 (hh ▸ ha)
    · exact (C17_equations_hold net (exec s r) h3).1 r' hr'

/-- **C17** (idempotence): evaluating a causal net a second time changes nothing. -/
theorem C17_idempotent (net : List Routine) (s : ℕ → K) (h : Causal net) :
    evalNet net (evalNet net s) = evalNet net s := by
  have hh := (C17_equations_hold net s h).1
  generalize evalNet net s = u at hh ⊢
  induction net with
  | nil => rfl
  | cons r net ih =>
    show evalNet net (exec u r) = u
    rw [exec_of_holds u r h.1 (hh r (by simp))]
    exact ih h.2.2 fun r' hr' => hh r' (by simp [hr'])

instance decCausal : ∀ net : List Routine, Decidable (Causal net)
  | [] => isTrue trivial
  | _ :: rs =>
    have := decCausal rs
    inferInstanceAs (Decidable (_ ∧ _ ∧ _))

/-- A net around a pump (cell 0), a storage, a valve with openings in cells 8 and 9 and a connector. -/
example : Causal [⟨1, .pass 0⟩, ⟨2, .negSum 0 []⟩, ⟨3, .mul 1 8⟩, ⟨4, .mul 1 9⟩, ⟨5, .negSum 3 [2]⟩,
    ⟨6, .negSum 4 [5, 1]⟩] := by decide

/-! ## C18 -/

/-- Balance of a list of ports whose positive directions are all inwards. -/
def Balanced (s : ℕ → K) (cells : List ℕ) : Prop := (cells.map s).sum = 0

/-- Flow into the part at a port whose value counts inwards (`inward = true`) or outwards. -/
def inflow (inward : Bool) (v : K) : K := if inward then v else -v

/-- **C18** (connections): a routine which passes on the flow of the connected port lets exactly that flow enter
which leaves the connected part, whatever the positive directions of the two ports are. -/
theorem C18_connection (tgt parent : ℕ) (dirT dirP : Bool) (net : List Routine) (hc : Causal net)
    (hsub : passOn tgt parent (dirT == dirP) ∈ net) (s : ℕ → K) :
    inflow dirT (evalNet net s tgt) + inflow dirP (evalNet net s parent) = 0 := by
  have hr := (C17_equations_hold net s hc).1 _ hsub
  cases dirT <;> cases dirP <;> simp [passOn, Holds, inflow] at hr ⊢ <;>
    first | linear_combination hr | linear_combination -hr

example : Causal [passOn 1 0 (true == true), passOn 3 2 (true == false)] := by decide

/-- **C18** (connector): if the routines of a three-way connector, reached in any order of its three ports
and from any parents, are part of a causal net, then after evaluating the net the three flows add up to
zero. -/
theorem C18_connector (cell : Fin 3 → ℕ) (order : List (Fin 3)) (ho : order.Perm (List.finRange 3))
    (parent : Fin 3 → ℕ) (same : Fin 3 → Bool) (net : List Routine) (hc : Causal net)
    (hsub : ∀ r ∈ inOrder (fun sol p => connectorRoutine cell sol p (parent p) (same p)) [] order, r ∈ net)
    (s : ℕ → K) : Balanced (evalNet net s) [cell 0, cell 1, cell 2] := by
  have hl : order.length = 3 := by simpa using ho.length_eq
  obtain ⟨a, b, c, rfl⟩ : ∃ a b c, order = [a, b, c] := by
    match order, hl with
    | [a, b, c], _ => exact ⟨a, b, c, rfl⟩
  have hr := (C17_equations_hold net s hc).1 _ (hsub (connectorRoutine cell [a, b] c (parent c) (same c))
    (by simp [inOrder]))
  have h3 : List.finRange 3 = [0, 1, 2] := rfl
  unfold Balanced
  simp only [connectorRoutine, List.length_cons, List.length_nil, if_true, h3] at hr
  fin_cases c <;> simp [Holds] at hr ⊢ <;> linear_combination hr

/-- The routines of a connector reached at ports 1, 0, 2 in this order from the cells 10, 11. -/
example : Causal (inOrder (fun sol p => connectorRoutine (fun i => i.val) sol p (p.val + 10) false) []
    [1, 0, 2]) ∧ [(1 : Fin 3), 0, 2].Perm (List.finRange 3) := by decide

/-- **C18** (storage, branched pipe): if the last port of a storage with any number of ports is solved from
the inside, the flows add up to zero. -/
theorem C18_storage_partial (cell : ℕ → ℕ) (solved : List ℕ) (hne : solved ≠ []) (last : ℕ)
    (net : List Routine) (hc : Causal net) (hsub : storageRoutine cell solved last none ∈ net)
    (s : ℕ → K) : Balanced (evalNet net s) ((last :: solved).map cell) := by
  have hr := (C17_equations_hold net s hc).1 _ hsub
  match solved, hne with
  | a :: rest, _ =>
    simp only [storageRoutine, List.map_cons, Holds] at hr
    simp only [Balanced, List.map_cons, List.sum_cons]
    linear_combination hr

example : Causal [storageRoutine id [0, 1, 2] 3 none] := by decide

/-- If the last port of a storage is reached from outside (the code prefers this), its flow is passed on
from there and nothing forces the balance: here 1 kg/s enters at each of two ports. -/
theorem C18_fails_storage_last_port_from_outside :
    ∃ (net : List Routine) (s : ℕ → ℚ), Causal net ∧
      net = inOrder (fun sol p => storageRoutine id sol p (some (p + 10, false))) [] [0, 1] ∧
      ¬ Balanced (evalNet net s) [0, 1] := by
  refine ⟨_, fun _ => 1, ?_, rfl, ?_⟩
  · decide
  · simp [inOrder, storageRoutine, passOn, evalNet, exec, write, Balanced]
    norm_num

/-- **C18** (three-way valve): port AB first, then A and B in either order.  Whatever the openings, if they
add up to one (C19) the flow through A and B equals the flow through AB, whose positive direction is
opposite. -/
theorem C18_valve (cell pf : VPort → ℕ) (order : List VPort)
    (ho : order = [.AB, .A, .B] ∨ order = [.AB, .B, .A]) (parent : ℕ) (same : Bool) (net : List Routine)
    (hc : Causal net)
    (hsub : ∀ r ∈ inOrder (fun sol p => valveRoutine cell pf sol p parent same) [] order, r ∈ net)
    (hpf : ∀ p, ∀ r ∈ net, r.tgt ≠ pf p) (s : ℕ → K) (hs : s (pf .A) + s (pf .B) = 1) :
    evalNet net s (cell .A) + evalNet net s (cell .B) - evalNet net s (cell .AB) = 0 := by
  obtain ⟨h1, h2⟩ := C17_equations_hold net s hc
  have hA : Holds (evalNet net s) ⟨cell .A, .mul (cell .AB) (pf .A)⟩ := by
    apply h1
    apply hsub
    rcases ho with rfl | rfl <;> simp [inOrder, valveRoutine]
  have hB : Holds (evalNet net s) ⟨cell .B, .mul (cell .AB) (pf .B)⟩ := by
    apply h1
    apply hsub
    rcases ho with rfl | rfl <;> simp [inOrder, valveRoutine]
  simp only [Holds] at hA hB
  rw [hA, hB, h2 _ (hpf .A), h2 _ (hpf .B)]
  linear_combination evalNet net s (cell .AB) * hs

example : Causal (inOrder (fun sol p => valveRoutine
    (fun | .A => 1 | .B => 2 | .AB => 3) (fun | .A => 4 | .B => 5 | .AB => 6) sol p 0 false) []
    [.AB, .A, .B]) := by decide

/-- **C18** (pipe with valve): any of the three ports may be solved first and the others in any order.  If
the openings add up to one and are not zero where the code divides, the three flows add up to zero. -/
theorem C18_pipe_with_valve (cell pf : VPort → ℕ) (order : List VPort) (ho : order.Perm [.A, .B, .AB])
    (parent : ℕ) (same : Bool) (net : List Routine) (hc : Causal net)
    (hsub : ∀ r ∈ inOrder (fun sol p => pipeValveRoutine cell pf sol p parent same) [] order, r ∈ net)
    (hpf : ∀ p, ∀ r ∈ net, r.tgt ≠ pf p) (s : ℕ → K) (hs : s (pf .A) + s (pf .B) = 1)
    (h0 : order.head? ≠ some .AB → s (pf .A) ≠ 0 ∧ s (pf .B) ≠ 0) :
    Balanced (evalNet net s) [cell .A, cell .B, cell .AB] := by
  obtain ⟨h1, h2⟩ := C17_equations_hold net s hc
  have hl : order.length = 3 := by simpa using ho.length_eq
  have hn : order.Nodup := ho.nodup_iff.2 (by decide)
  obtain ⟨a, b, c, rfl⟩ : ∃ a b c, order = [a, b, c] := by
    match order, hl with
    | [a, b, c], _ => exact ⟨a, b, c, rfl⟩
  have hb := h1 _ (hsub (pipeValveRoutine cell pf [a] b parent same) (by simp [inOrder]))
  have hcc := h1 _ (hsub (pipeValveRoutine cell pf [a, b] c parent same) (by simp [inOrder]))
  have p1 := h2 _ (hpf .A)
  have p2 := h2 _ (hpf .B)
  have hs' : s (pf .B) = 1 - s (pf .A) := by linear_combination hs
  unfold Balanced
  simp only [List.map_cons, List.map_nil, List.sum_cons, List.sum_nil]
  cases a <;> cases b <;> cases c <;> simp at hn <;>
    simp [pipeValveRoutine, Holds, p1, p2] at hb hcc h0
  · obtain ⟨hA, hB⟩ := h0
    rw [hcc, hb, hs']; field_simp; ring
  · obtain ⟨hA, hB⟩ := h0
    rw [hcc, hb, hs']; field_simp; ring
  · obtain ⟨hA, hB⟩ := h0
    rw [hcc, hb]; field_simp; linear_combination evalNet net s (cell .B) * hs
  · obtain ⟨hA, hB⟩ := h0
    rw [hcc, hb]; field_simp; linear_combination evalNet net s (cell .B) * hs
  · rw [hcc, hb, hs']; ring
  · rw [hcc, hb, hs']; ring

example : Causal (inOrder (fun sol p => pipeValveRoutine
    (fun | .A => 1 | .B => 2 | .AB => 3) (fun | .A => 4 | .B => 5 | .AB => 6) sol p 0 false) []
    [.B, .AB, .A]) ∧ [VPort.B, .AB, .A].Perm [.A, .B, .AB] := by decide

end Verif.FlowNet
