import Verif.Lemmas.TopologyVia
import Mathlib.Tactic.FieldSimp
import Mathlib.Tactic.LinearCombination
import Mathlib.Tactic.IntervalCases
import Mathlib.Algebra.BigOperators.Fin

/-!
# Flows into a part
-/

namespace Verif.Topology

open Verif.FlowNet
open Verif.Topology.Spec
open Verif.FlowNet.Spec (Causal sources Holds)

variable {G : Net} {K : Type*} [Field K]

/-- Share of a port of a `PipeWith3wValve` in the flow at AB. -/
def share (u : ℕ → K) (i k : ℕ) : K := if k = 2 then 1 else -u (pfCell i k)

/-- What the routines say about the ports of a part, for all values which meet them. -/
structure PartsOK (K : Type*) [Field K] (G : Net) (s : State) : Prop where
  connector : ∀ u : ℕ → K, (∀ r ∈ s.net, Holds u r) → ∀ i, G.kind i = .connector → G.nports i = 3 →
    cnt G s i = 0 → u (own G (i, 0)) + u (own G (i, 1)) + u (own G (i, 2)) = 0
  valve : ∀ u : ℕ → K, (∀ r ∈ s.net, Holds u r) → ∀ i, G.kind i = .mixing ∨ G.kind i = .splitting →
    ∀ k, isSolved s (i, k) → k ≠ 2 → u (own G (i, k)) = u (own G (i, 2)) * u (pfCell i k)
  pipeValve : ∀ u : ℕ → K, (∀ r ∈ s.net, Holds u r) → ∀ i, G.kind i = .pipeValve → u (pfCell i 0) ≠ 0 →
    u (pfCell i 1) ≠ 0 → ∀ j k, isSolved s (i, j) → isSolved s (i, k) →
      u (own G (i, j)) * share u i k = u (own G (i, k)) * share u i j

theorem partsOK_init : PartsOK K G (init G) := by
  refine ⟨?_, ?_, ?_⟩
  · intro u _ i _ h3 hc
    simp [cnt, init, h3] at hc
  · intro u _ i _ k hk
    simp [isSolved, init] at hk
  · intro u _ i _ _ _ j k hj
    simp [isSolved, init] at hj

theorem share_ne_zero {u : ℕ → K} {i k : ℕ} (h0 : u (pfCell i 0) ≠ 0) (h1 : u (pfCell i 1) ≠ 0) (hk : k < 3) :
    share u i k ≠ 0 := by
  unfold share
  interval_cases k <;> simp [h0, h1]

theorem partsOK_apply (wf : WellFormed G) {s : State} {p : Port} {parent : Option Port} {a : Answer} (hg : Good G s)
    (h : PartsOK K G s) (hn : ¬ isSolved s p) (hv : Valid G p) (ha : Ans G s p parent a) :
    PartsOK K G (apply s p parent a) := by
  have hnet : ∀ u : ℕ → K, (∀ r ∈ (apply s p parent a).net, Holds u r) → ∀ r ∈ s.net, Holds u r := by
    intro u hu r hr
    exact hu r (by rw [net_apply]; exact List.mem_append_left _ hr)
  have haddr : G.kind p.1 ≠ .pipe → s.addr p = own G p := fun hk => hg.addr p (fun h => absurd h hk)
  have haddr' : ∀ k, G.kind p.1 ≠ .pipe → s.addr (p.1, k) = own G (p.1, k) :=
    fun k hk => hg.addr (p.1, k) (fun h => absurd h hk)
  refine ⟨?_, ?_, ?_⟩
  · intro u hu i hk h3 hc
    by_cases hip : a.solves = true ∧ i = p.1
    · obtain ⟨hs, rfl⟩ := hip
      rw [cnt_apply, if_pos ⟨hs, rfl⟩] at hc
      have hopen := open_of_unsolved hg.clean hn hv
      have hc1 : cnt G s p.1 = 1 := by omega
      cases ha with
      | reenter => simp at hs
      | pump hk' => rw [hk] at hk'; simp at hk'
      | pipe hk' => rw [hk] at hk'; simp at hk'
      | hexNum hk' => rw [hk] at hk'; simp at hk'
      | view hk' => rw [hk] at hk'; simp at hk'
      | copy hk' => rw [hk] at hk'; simp at hk'
      | handed _ hcn => exact absurd hc1 (hcn hk)
      | @compute op _ hcomp =>
        have hr := hu ⟨s.addr p, op⟩ (by rw [net_apply]; simp)
        have hp3 : p.2 < 3 := by rw [← h3]; exact hv.2
        cases hcomp with
        | @connector c rest _ _ hl =>
          have e : ((List.range (G.nports p.1)).filter fun k => k ≠ p.2).map (fun k => u (s.addr (p.1, k))) =
              u c :: rest.map u := by
            have := congrArg (List.map u) hl
            rw [List.map_map, List.map_cons] at this
            exact this
          simp only [Holds] at hr
          have e2 := congrArg List.sum e
          rw [List.sum_cons] at e2
          rw [h3] at e2
          rw [haddr (by rw [hk]; simp)] at hr
          have hk' : G.kind p.1 ≠ .pipe := by rw [hk]; simp
          simp only [haddr' _ hk'] at e2
          obtain ⟨i, j⟩ := p
          simp only at hp3 e2 hr ⊢
          have hrange : List.range 3 = [0, 1, 2] := rfl
          rw [hrange] at e2
          interval_cases j <;> simp at e2 <;> linear_combination hr + e2
        | storage hk' => rcases hk' with hk' | hk' <;> (rw [hk] at hk'; simp at hk')
        | valve hk' => rcases hk' with hk' | hk' <;> (rw [hk] at hk'; simp at hk')
        | negMul hk' => rw [hk] at hk'; simp at hk'
        | negDiv hk' => rw [hk] at hk'; simp at hk'
        | mulDiv hk' => rw [hk] at hk'; simp at hk'
    · rw [cnt_apply, if_neg hip] at hc
      exact h.connector u (hnet u hu) i hk h3 hc
  · intro u hu i hk k hsk hk2
    rcases isSolved_apply.mp hsk with hsk | ⟨hs, he⟩
    · exact h.valve u (hnet u hu) i hk k hsk hk2
    · subst he
      cases ha with
      | reenter => simp at hs
      | pump hk' => rcases hk with hk | hk <;> (simp only at hk'; rw [hk] at hk'; simp at hk')
      | pipe hk' => rcases hk with hk | hk <;> (simp only at hk'; rw [hk] at hk'; simp at hk')
      | hexNum hk' => rcases hk with hk | hk <;> (simp only at hk'; rw [hk] at hk'; simp at hk')
      | view hk' => rcases hk with hk | hk <;> (simp only at hk'; rw [hk] at hk'; simp at hk')
      | copy hk' => rcases hk with hk | hk <;> (simp only at hk'; rw [hk] at hk'; simp at hk')
      | handed _ _ _ _ _ h2 => exact absurd (h2 hk) hk2
      | @compute op _ hcomp =>
        have hr := hu ⟨s.addr (i, k), op⟩ (by rw [net_apply]; simp)
        have hkp : G.kind i ≠ .pipe := by rcases hk with hk | hk <;> rw [hk] <;> simp
        cases hcomp with
        | valve _ _ =>
          simp only [Holds] at hr
          rw [haddr hkp, haddr' 2 hkp] at hr
          exact hr
        | connector hk' => rcases hk with hk | hk <;> (simp only at hk'; rw [hk] at hk'; simp at hk')
        | storage hk' => rcases hk with hk | hk <;> (simp only at hk'; rw [hk] at hk'; simp at hk')
        | negMul hk' => rcases hk with hk | hk <;> (simp only at hk'; rw [hk] at hk'; simp at hk')
        | negDiv hk' => rcases hk with hk | hk <;> (simp only at hk'; rw [hk] at hk'; simp at hk')
        | mulDiv hk' => rcases hk with hk | hk <;> (simp only at hk'; rw [hk] at hk'; simp at hk')
  · intro u hu i hk h0 h1
    have hold := h.pipeValve u (hnet u hu) i hk h0 h1
    -- the new port follows one of the old ones
    by_cases hip : a.solves = true ∧ i = p.1
    · obtain ⟨hs, rfl⟩ := hip
      have hkp : G.kind p.1 ≠ .pipe := by rw [hk]; simp
      have h3 := wf.three p.1 hv.1 (by rw [hk]; simp)
      have hlt : ∀ j, isSolved s (p.1, j) → j < 3 := fun j hj => by
        have := (hg.clean.valid _ hj).2; simp only at this; omega
      have key : s.solved p.1 = [] ∨ ∃ j, isSolved s (p.1, j) ∧
          u (own G p) * share u p.1 j = u (own G (p.1, j)) * share u p.1 p.2 := by
        cases ha with
        | reenter => simp at hs
        | pump hk' => rw [hk] at hk'; simp at hk'
        | pipe hk' => rw [hk] at hk'; simp at hk'
        | hexNum hk' => rw [hk] at hk'; simp at hk'
        | view hk' => rw [hk] at hk'; simp at hk'
        | copy hk' => rw [hk] at hk'; simp at hk'
        | handed _ _ hpv => exact .inl (hpv hk)
        | @compute op _ hcomp =>
          have hr := hu ⟨s.addr p, op⟩ (by rw [net_apply]; simp)
          right
          cases hcomp with
          | connector hk' => rw [hk] at hk'; simp at hk'
          | storage hk' => rcases hk' with hk' | hk' <;> (rw [hk] at hk'; simp at hk')
          | valve hk' => rcases hk' with hk' | hk' <;> (rw [hk] at hk'; simp at hk')
          | negMul _ hp2 h2 =>
            simp only [Holds] at hr
            rw [haddr hkp, haddr' 2 hkp] at hr
            refine ⟨2, h2, ?_⟩
            rw [hr]
            simp only [share, if_true, if_neg hp2]
            ring
          | @negDiv j _ hp2 hj2 hj =>
            simp only [Holds] at hr
            rw [haddr hkp, haddr' j hkp] at hr
            refine ⟨j, hj, ?_⟩
            have hne := share_ne_zero (u := u) (i := p.1) h0 h1 (hlt j hj)
            simp only [share, if_pos hp2, if_neg hj2] at hne ⊢
            have hne' := neg_ne_zero.mp hne
            rw [hr]
            field_simp
          | @mulDiv j _ hp2 hj2 hj =>
            simp only [Holds] at hr
            rw [haddr hkp, haddr' j hkp] at hr
            refine ⟨j, hj, ?_⟩
            have hne := share_ne_zero (u := u) (i := p.1) h0 h1 (hlt j hj)
            simp only [share, if_neg hp2, if_neg hj2] at hne ⊢
            have hne' := neg_ne_zero.mp hne
            rw [hr]
            field_simp
      have hnew : ∀ j, isSolved s (p.1, j) → u (own G p) * share u p.1 j = u (own G (p.1, j)) * share u p.1 p.2 := by
        intro j hj
        rcases key with hnil | ⟨l, hl, he⟩
        · unfold isSolved at hj; simp only at hj; rw [hnil] at hj; simp at hj
        · have h2 := hold j l hj hl
          have hne := share_ne_zero (u := u) (i := p.1) h0 h1 (hlt l hl)
          apply mul_right_cancel₀ hne
          linear_combination share u p.1 j * he - share u p.1 p.2 * h2
      intro j k hj hk'
      have hj' := isSolved_apply.mp hj
      have hk'' := isSolved_apply.mp hk'
      rcases hj' with hj' | ⟨_, hj'⟩ <;> rcases hk'' with hk'' | ⟨_, hk''⟩
      · exact hold j k hj' hk''
      · have := hnew j hj'
        rw [← hk''] at this
        simp only at this ⊢
        linear_combination -this
      · have := hnew k hk''
        rw [← hj'] at this
        exact this
      · have e : j = k := by
          have := hj'.trans hk''.symm
          simpa using this
        rw [e]
    · intro j k hj hk'
      have conv : ∀ l, isSolved (apply s p parent a) (i, l) → isSolved s (i, l) := by
        intro l hl
        rcases isSolved_apply.mp hl with hl | ⟨hs, he⟩
        · exact hl
        · exact absurd ⟨hs, by rw [← he]⟩ hip
      exact hold j k (conv j hj) (conv k hk')

theorem analysed_parts (wf : WellFormed G) {s : State} (h : Analysed G (.ok s)) : PartsOK K G s :=
  analysed_induction wf partsOK_init (fun _ _ _ _ hg h hn hv ha => partsOK_apply wf hg h hn hv ha) h

end Verif.Topology
