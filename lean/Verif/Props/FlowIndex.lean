import Verif.Model.FlowIndex
import Verif.Props.Ports

/-!
# C154: every port has its own place among the mass flows
-/

namespace Verif.FlowIndex

open Verif.Ports

/-- Specification: every port has a place in the array, and two ports share a place only if `same` holds, i.e. if the same flow
passes both. -/
def Apart (p : Part) (same : ℕ → ℕ → Prop) : Prop :=
  (∀ (k : ℕ) (hk : k < p.names.length), ∃ i < p.size, flowCell p p.names[k] = some i) ∧
  ∀ (k : ℕ) (hk : k < p.names.length) (l : ℕ) (hl : l < p.names.length),
    flowCell p p.names[k] = flowCell p p.names[l] → same k l

theorem addPorts_names (g : Geo) : ∀ (new : List (String × Pos)) (t t' : Table), addPorts g t new = some t' →
    t'.names.Perm (t.names ++ new.map Prod.fst)
  | [], t, t', h => by cases h; simp
  | (key, pos) :: rest, t, t', h => by
    rw [addPorts] at h
    split at h
    · cases h
    · rename_i v _
      have h1 := addPorts_names g rest _ _ h
      have h2 : (insertPort t key v).names.Perm (key :: t.names) := insertAt_perm _ _ _
      refine h1.trans ((h2.append_right _).trans ?_)
      simpa using List.perm_middle.symm

theorem flowCell_listed {p : Part} (hi : p.invariant = false) (hm : p.multiple = false) (hs : p.size = p.names.length)
    {a : String} (ha : a ∈ p.names) : flowCell p a = some (p.names.idxOf a) := by
  have : p.names.idxOf a < p.names.length := List.idxOf_lt_length_of_mem ha
  simp [flowCell, start, ha, hi, hm, hs, this]

theorem flowCell_number {p : Part} (hi : p.invariant = false) (hm : p.multiple = false) (hs : p.size = p.names.length)
    (hn : p.names.Nodup) (k : ℕ) (hk : k < p.names.length) : flowCell p p.names[k] = some k := by
  rw [flowCell_listed hi hm hs (List.getElem_mem hk), List.Nodup.idxOf_getElem hn k hk]

theorem apart_listed {p : Part} (hi : p.invariant = false) (hm : p.multiple = false) (hs : p.size = p.names.length)
    (hn : p.names.Nodup) : Apart p (· = ·) := by
  refine ⟨fun k hk => ⟨k, hs ▸ hk, flowCell_number hi hm hs hn k hk⟩, fun k hk l hl h => ?_⟩
  rw [flowCell_number hi hm hs hn k hk, flowCell_number hi hm hs hn l hl] at h
  exact Option.some.inj h

/-- **C154**, partial (storages): every port of a storage has its own place, the one with its number.  Missing: ports named
like others (`C154_fails_name`). -/
theorem C154_storage_partial {g : Geo} {new : List (String × Pos)} {t : Table} (h : addPorts g (branched g) new = some t)
    (hn : ("in" :: "out" :: new.map Prod.fst).Nodup) :
    Apart (storage t new) (· = ·) ∧ ∀ (k : ℕ) (hk : k < t.names.length), flowCell (storage t new) t.names[k] = some k := by
  have hp := addPorts_names g new _ _ h
  have hl : (storage t new).size = (storage t new).names.length := by
    show 2 + new.length = t.names.length
    rw [hp.length_eq]; simp [branched]; omega
  have : (storage t new).names.Nodup := hp.nodup_iff.2 (by simpa [branched] using hn)
  exact ⟨apart_listed rfl rfl hl this, flowCell_number rfl rfl hl this⟩

/-- **C154**, partial (branched pipes): as for storages if at least one port was added.  Missing: branched pipes without
added ports (`C154_fails_no_ports`) and ports named like others (`C154_fails_name`). -/
theorem C154_branched_partial {g : Geo} {new : List (String × Pos)} {t : Table} (h : addPorts g (branched g) new = some t)
    (hn : ("in" :: "out" :: new.map Prod.fst).Nodup) (hne : new ≠ []) :
    Apart (branchedPipe t new) (· = ·) ∧
      ∀ (k : ℕ) (hk : k < t.names.length), flowCell (branchedPipe t new) t.names[k] = some k := by
  have e : branchedPipe t new = storage t new := by simp [branchedPipe, storage, hne]
  rw [e]
  exact C154_storage_partial h hn

/-- **C154** (other parts): in pipes and pumps one flow passes both ports; connectors, valves and pipes with valve have a place for
each port; in heat exchangers the two ports of a side share one, and the sides do not. -/
theorem C154_other (n : ℕ) (t : Table) (counter : Bool) :
    Apart (pipe n) (fun _ _ => True) ∧ Apart (threeWay "C") (· = ·) ∧ Apart (threeWay "AB") (· = ·) ∧
    Apart (pipeValve t) (· = ·) ∧
    Apart (plateHex counter) (fun k l => k / 2 = l / 2) ∧ Apart condHex (fun k l => k / 2 = l / 2) := by
  refine ⟨?_, apart_listed rfl rfl rfl (by decide +kernel), apart_listed rfl rfl rfl (by decide +kernel),
    apart_listed rfl rfl rfl (by show ["A", "B", "AB"].Nodup; decide +kernel), ?_, ?_⟩
  · refine ⟨fun k hk => ⟨0, by simp [pipe], ?_⟩, fun _ _ _ _ _ => trivial⟩
    have : (pipe n).names[k] ∈ (pipe n).names := List.getElem_mem hk
    simp only [flowCell, start, if_pos this]
    simp [pipe]
  · have h : ∀ k < 4, (flowCell (plateHex counter) ((plateHex counter).names[k]?.getD "")) = some (k / 2) := by
      cases counter <;> decide +kernel
    have hlen : (plateHex counter).names.length = 4 := by cases counter <;> rfl
    refine ⟨fun k hk => ⟨k / 2, ?_, ?_⟩, fun k hk l hl he => ?_⟩
    · show k / 2 < 2; omega
    · have := h k (hlen ▸ hk); rwa [List.getElem?_eq_getElem hk] at this
    · have a := h k (hlen ▸ hk); have b := h l (hlen ▸ hl)
      rw [List.getElem?_eq_getElem hk] at a
      rw [List.getElem?_eq_getElem hl] at b
      simp only [Option.getD_some] at a b
      rw [a, b] at he
      exact Option.some.inj he
  · have h : ∀ k < 4, (flowCell condHex (condHex.names[k]?.getD "")) = some (k / 2) := by decide +kernel
    have hlen : condHex.names.length = 4 := rfl
    refine ⟨fun k hk => ⟨k / 2, ?_, ?_⟩, fun k hk l hl he => ?_⟩
    · show k / 2 < 2; omega
    · have := h k (hlen ▸ hk); rwa [List.getElem?_eq_getElem hk] at this
    · have a := h k (hlen ▸ hk); have b := h l (hlen ▸ hl)
      rw [List.getElem?_eq_getElem hk] at a
      rw [List.getElem?_eq_getElem hl] at b
      simp only [Option.getD_some] at a b
      rw [a, b] at he
      exact Option.some.inj he

/-- A branched pipe to which no port is added (`new_ports=None`, as its error message proposes) has no place for the flow
through its outlet. -/
theorem C154_fails_no_ports (g : Geo) (hg : 2 ≤ g.numGp) :
    ∃ t, addPorts g (branched g) [] = some t ∧ flowCell (branchedPipe t []) "in" = some 0 ∧
      flowCell (branchedPipe t []) "out" = none := by
  refine ⟨branched g, rfl, ?_, ?_⟩
  · simp [flowCell, start, branchedPipe, branched]
  · have h1 : ((g.numGp : ℤ) - 1).toNat = g.numGp - 1 := by omega
    have h2 : ("out" : String) ≠ "in" := by decide
    simp [flowCell, start, branchedPipe, branched, h1]
    omega

/-- A port named like an existing one shares its place, so that the flows of two ports overwrite each other. -/
theorem C154_fails_name : ∃ t, addPorts ⟨4, 1 / 10, 5⟩ (branched ⟨4, 1 / 10, 5⟩) [("out", .index 2)] = some t ∧
    t.names = ["in", "out", "out"] ∧ ∀ (k : ℕ) (hk : k < t.names.length),
      flowCell (branchedPipe t [("out", .index 2)]) t.names[k] ≠ some 2 :=
  ⟨⟨[0, 2, 3], ["in", "out", "out"], [.inward, .inward, .inward]⟩, by decide +kernel, rfl, by decide +kernel⟩

example : ∃ t, addPorts ⟨4, 1 / 10, 5⟩ (branched ⟨4, 1 / 10, 5⟩) [("p", .index 2), ("q", .index 0)] = some t ∧
    flowCell (branchedPipe t [("p", .index 2), ("q", .index 0)]) "q" = some 0 ∧
    flowCell (branchedPipe t [("p", .index 2), ("q", .index 0)]) "out" = some 3 :=
  ⟨⟨[0, 0, 2, 3], ["q", "in", "p", "out"], [.inward, .inward, .inward, .inward]⟩, by decide +kernel, by decide +kernel,
    by decide +kernel⟩

example : ("in" :: "out" :: [("p", Pos.index 2), ("q", .index 0)].map Prod.fst).Nodup := by decide +kernel

end Verif.FlowIndex
