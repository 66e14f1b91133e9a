import Verif.Lemmas.TopologyGood

/-!
# Progress of the topology analysis: what a finished call has solved
-/

namespace Verif.Topology

open Verif.FlowNet
open Verif.Topology.Spec

variable {G : Net} {root : ℕ} {sub : Bool}

/-! ## A sub net solves at least one port -/

theorem openPorts_step {c c' : Config} (h : ConfigOK G root c) (hs : Step G root sub c c') :
    openPorts G c'.state ≤ openPorts G c.state := by
  rcases step_decreases h hs with h | h
  · exact h.le
  · exact h.1.le

theorem breaks_kind {s : State} {i : ℕ} (h : breaks G s i) :
    G.kind i = .connector ∨ G.kind i = .storage ∨ G.kind i = .branched := by
  unfold breaks at h
  cases hk : G.kind i <;> rw [hk] at h <;> simp_all

theorem breaks_channels (wf : WellFormed G) {s : State} {i : ℕ} (hi : i < G.n) (h : breaks G s i) :
    (G.part i).channels = [] := by
  by_contra hne
  have := (wf.channels i hi).mp hne
  rcases breaks_kind h with h | h | h <;> rw [h] at this <;> simp at this

/-- Waiting for the first open port of the outermost call. -/
def Waiting (root k : ℕ) (u : ℕ) (G : Net) (c : Config) : Prop :=
  openPorts G c.state < u ∨ (openPorts G c.state = u ∧ ¬ isSolved c.state (root, k) ∧
    ∃ f, c.stack = [f] ∧ f.part = root ∧ f.parent = none ∧ k ∈ f.todo)

theorem run_decreases (wf : WellFormed G) {s s' : State} (hs : Clean G s) (hr : root < G.n)
    (hch : (G.part root).channels = []) {k : ℕ} (hk : k < G.nports root) (hn : ¬ isSolved s (root, k))
    (h : Run G root sub s s') : openPorts G s' < openPorts G s := by
  obtain ⟨m, hm⟩ := h
  have key : ∀ c c', (ConfigOK G root c ∧ Waiting root k (openPorts G s) G c) → Step G root sub c c' →
      (ConfigOK G root c' ∧ Waiting root k (openPorts G s) G c') := by
    rintro c c' ⟨hc, hw⟩ hst
    refine ⟨configOK_step wf hc hst, ?_⟩
    have hle := openPorts_step hc hst
    rcases hw with hw | ⟨hu, hns, f, hf, hfp, hpar, hmem⟩
    · exact .inl (by omega)
    · have hne : ∀ (f' : Frame) (fs : List Frame) (s1 : State), c = ⟨f' :: fs, s1⟩ → f' = f ∧ fs = [] ∧ s1 = c.state := by
        intro f' fs s1 he
        rw [he] at hf
        simp only [List.cons.injEq] at hf
        exact ⟨hf.1, hf.2, by rw [he]⟩
      cases hst with
      | @pop f' fs s1 ht =>
        obtain ⟨rfl, rfl, _⟩ := hne _ _ _ rfl
        rw [ht] at hmem; simp at hmem
      | @skip f' fs s1 k' ks ht hsk =>
        obtain ⟨rfl, rfl, _⟩ := hne _ _ _ rfl
        right
        refine ⟨hu, hns, _, rfl, hfp, hpar, ?_⟩
        rw [ht] at hmem
        rcases List.mem_cons.mp hmem with rfl | hmem
        · exfalso
          rcases hsk with hsk | hsk
          · rw [hfp] at hsk; exact hns hsk
          · rw [hfp] at hsk; exact hsk.1 hch
        · exact hmem
      | @brk f' fs s1 k' ks a ht hn' hc' ha hp hb =>
        obtain ⟨rfl, rfl, _⟩ := hne _ _ _ rfl
        exact absurd hpar hp
      | @stay f' fs s1 k' ks a ht hn' hc' ha hb hl =>
        obtain ⟨rfl, rfl, _⟩ := hne _ _ _ rfl
        left
        have hf := hc.frames f' List.mem_cons_self
        have hv : Valid G (f'.part, k') := ⟨hf.valid, hf.todo k' (by rw [ht]; exact List.mem_cons_self)⟩
        rcases flowRoutine_solves ha with hsol | ⟨_, _, hp, _⟩
        · have := openPorts_apply (parent := f'.parent) hc.clean hn' hv hsol
          simp only at this hu ⊢
          omega
        · exact absurd hpar hp
      | @push f' fs s1 k' ks a q ch side ht hn' hc' ha hb hl hq hpump hch' =>
        obtain ⟨rfl, rfl, _⟩ := hne _ _ _ rfl
        left
        have hf := hc.frames f' List.mem_cons_self
        have hv : Valid G (f'.part, k') := ⟨hf.valid, hf.todo k' (by rw [ht]; exact List.mem_cons_self)⟩
        have := openPorts_apply (parent := f'.parent) hc.clean hn' hv (push_solves hf ht hn' ha hl hq)
        simp only at this hu ⊢
        omega
  have hfin := (steps_invariant key m _ _ ⟨configOK_start hs hr, .inr ⟨rfl, hn, _, rfl, rfl, rfl,
    List.mem_range.mpr hk⟩⟩ hm).2
  rcases hfin with h | ⟨_, _, f, hf, _⟩
  · exact h
  · simp at hf

theorem exists_open {s : State} (hs : Clean G s) {i : ℕ} (hc : 0 < cnt G s i) :
    ∃ k < G.nports i, ¬ isSolved s (i, k) := by
  by_contra hcon
  push Not at hcon
  have hsub : List.range (G.nports i) ⊆ s.solved i := fun k hk => hcon k (List.mem_range.mp hk)
  have := (List.nodup_range.subperm hsub).length_le
  unfold cnt at hc
  rw [List.length_range] at this
  omega

theorem eligible_decreases (wf : WellFormed G) {s s' : State} (hs : Clean G s) (hr : root < G.n)
    (he : eligible2 G s root) (h : Run G root sub s s') : openPorts G s' < openPorts G s := by
  obtain ⟨k, hk, hn⟩ := exists_open hs (i := root) (by rw [he.2]; norm_num)
  exact run_decreases wf hs hr (breaks_channels wf hr he.1) hk hn h

/-! ## Monotony -/

theorem cnt_mono {s : State} {p : Port} {parent : Option Port} {a : Answer} (i : ℕ) :
    cnt G (apply s p parent a) i ≤ cnt G s i := by
  rw [cnt_apply]; split_ifs <;> omega

theorem breaks_anti {s : State} {p : Port} {parent : Option Port} {a : Answer} {i : ℕ}
    (h : breaks G (apply s p parent a) i) : breaks G s i := by
  have := cnt_mono (G := G) (s := s) (p := p) (parent := parent) (a := a) i
  unfold breaks at h ⊢
  cases hk : G.kind i <;> rw [hk] at h <;> simp_all <;> omega

end Verif.Topology
