import Verif.Model.Sensor
import Verif.Props.Ports

/-! # The sensor of a controller: C138 -/

namespace Verif.Sensor

open Verif.Ports

/-- Specification: the sensor reads `x` and nothing else. -/
def Reads {α : Type*} (p : Part) (T : List α) (a : Arg) (x : α) : Prop :=
  ∃ i, resolve p a = some i ∧ view T i = [x]

theorem view_get {α : Type*} (T : List α) (i : ℕ) (h : i < T.length) : view T i = [T[i]] := by
  unfold view
  rw [List.drop_eq_getElem_cons h]; rfl

theorem view_beyond {α : Type*} (T : List α) (i : ℕ) (h : T.length ≤ i) : view T i = [] := by
  unfold view
  rw [List.drop_of_length_le h]; rfl

/-- **C138** (named ports).  In a part with one temperature per cell whose port names differ, the sensor at the `k`-th port
reads the temperature of the cell of that port. -/
theorem C138_named_partial {α : Type*} (p : Part) (T : List α) (hT : T.length = p.rows) (hn : p.names.Nodup)
    (k : ℕ) (hk : k < p.names.length) (ho : k < p.own.length) (hr : p.own[k] < p.rows) :
    Reads p T (.name p.names[k]) (T[p.own[k]]'(hT ▸ hr)) := by
  refine ⟨p.own[k], ?_, view_get _ _ (hT ▸ hr)⟩
  simp only [resolve, List.getElem_mem, if_true]
  rw [List.Nodup.idxOf_getElem hn k hk, List.getElem?_eq_getElem ho]

/-- **C138** (cell numbers).  A cell number is accepted exactly if it is at most the number of cells away from the top
(`j ≥ 0`) or from the bottom (`j < 0`), and the sensor reads that cell. -/
theorem C138_index {α : Type*} (p : Part) (T : List α) (hT : T.length = p.rows) (j : ℤ) :
    ((resolve p (.index j)).isSome ↔ -(T.length : ℤ) ≤ j ∧ j < T.length) ∧
    (∀ (i : ℕ) (h : i < T.length), j = i → Reads p T (.index j) T[i]) ∧
    (∀ (i : ℕ) (h : i < T.length), j = -1 - (i : ℤ) → Reads p T (.index j) (T[T.length - 1 - i])) := by
  refine ⟨?_, ?_, ?_⟩
  · simp only [resolve]
    split_ifs with h <;> simp <;> omega
  · rintro i h rfl
    refine ⟨i, ?_, view_get _ _ h⟩
    simp only [resolve]
    rw [if_pos (by omega), if_pos (by omega)]; simp
  · rintro i h rfl
    refine ⟨T.length - 1 - i, ?_, view_get _ _ (by omega)⟩
    simp only [resolve]
    rw [if_pos (by omega), if_neg (by omega)]
    congr 1
    omega

/-- **C138** (refusal).  A name that no port has and anything that is neither a name nor a whole number is refused. -/
theorem C138_refused (p : Part) : (∀ s, s ∉ p.names → resolve p (.name s) = none) ∧ resolve p .other = none :=
  ⟨fun s h => by simp [resolve, h], rfl⟩

/-- Specification: the temperature of a fluid entering or leaving a part with one temperature per cell, by name. -/
def AtEnds {α : Type*} (T : List α) (first last : α) : Prop := T.head? = some first ∧ T.getLast? = some last

/-- **C138** (pipes, pumps, storages).  `in` is the first cell and `out` the last. -/
theorem C138_pipe {α : Type*} (n : ℕ) (T : List α) (hT : T.length = n) (a b : α) (h : AtEnds T a b) :
    Reads (pipe n) T (.name "in") a ∧ Reads (pipe n) T (.name "out") b := by
  obtain ⟨h1, h2⟩ := h
  have hne : T ≠ [] := by rintro rfl; simp at h1
  have hl : 0 < T.length := List.length_pos_iff.2 hne
  rw [List.head?_eq_getElem?, List.getElem?_eq_getElem hl] at h1
  rw [List.getLast?_eq_getElem?, List.getElem?_eq_getElem (by omega)] at h2
  simp only [Option.some.injEq] at h1 h2
  refine ⟨⟨0, by simp [resolve, pipe], ?_⟩, ⟨n - 1, by simp [resolve, pipe], ?_⟩⟩
  · rw [view_get _ _ hl, h1]
  · subst hT
    rw [view_get _ _ (by omega), h2]

example : AtEnds [80, 70, 60] 80 60 ∧ Reads (pipe 3) [80, 70, 60] (.name "out") 60 ∧
    Reads (pipe 3) [80, 70, 60] (.index (-2)) 70 := by
  refine ⟨⟨rfl, rfl⟩, ⟨2, by decide +kernel, rfl⟩, ⟨1, by decide +kernel, rfl⟩⟩

/-- **C138** (three ways, plate heat exchangers).  Every port has its own temperature. -/
theorem C138_valves {α : Type*} (a b c d : α) (last : String) (hl : last ≠ "A" ∧ last ≠ "B") :
    Reads (threeWay last) [a, b, c] (.name "A") a ∧ Reads (threeWay last) [a, b, c] (.name "B") b ∧
    Reads (threeWay last) [a, b, c] (.name last) c ∧
    Reads plateHex [a, b, c, d] (.name "sup_in") a ∧ Reads plateHex [a, b, c, d] (.name "sup_out") b ∧
    Reads plateHex [a, b, c, d] (.name "dmd_in") c ∧ Reads plateHex [a, b, c, d] (.name "dmd_out") d := by
  obtain ⟨h1, h2⟩ := hl
  refine ⟨⟨0, ?_, rfl⟩, ⟨1, ?_, rfl⟩, ⟨2, ?_, rfl⟩, ⟨0, by decide +kernel, rfl⟩, ⟨1, by decide +kernel, rfl⟩,
    ⟨2, by decide +kernel, rfl⟩, ⟨3, by decide +kernel, rfl⟩⟩
  · simp [resolve, threeWay]
  · simp [resolve, threeWay]
  · simp [resolve, threeWay, Ne.symm h1, Ne.symm h2]

/-- **C138** (added ports).  In a storage or branched pipe whose added ports have names of their own, the sensor at
an added port reads the cell that was meant by the position of the port, and `in` and `out` remain the ends. -/
theorem C138_added_partial {α : Type*} (g : Geo) (hg : 0 < g.numGp) (hV : 2 / 10 ^ 9 < g.vCell) (hL : 0 < g.length)
    (new : List (String × Pos)) (t : Table) (ht : addPorts g (branched g) new = some t)
    (hn : ("in" :: "out" :: new.map Prod.fst).Nodup) (T : List α) (hT : T.length = g.numGp) :
    (∀ q ∈ new, ∃ (c : ℕ) (hc : c < T.length), Means g q.2 c ∧ Reads (ofTable g t) T (.name q.1) T[c]) ∧
    ∀ a b, AtEnds T a b → Reads (ofTable g t) T (.name "in") a ∧ Reads (ofTable g t) T (.name "out") b := by
  obtain ⟨-, r2, r3, -, -, cells, r6, r7⟩ := C16_ports_aligned g hg hV hL new (branched g) t
    (by simp [branched]; omega) (by simp [branched]; omega) rfl rfl (by simp [branched]) ht
  have hlen : cells.length = new.length := r6.length_eq.symm
  -- the names of the table are distinct
  have hnames : t.names.Perm ("in" :: "out" :: new.map Prod.fst) := by
    have := r7.map Prod.snd
    rw [List.map_snd_zip (by omega)] at this
    refine this.trans (List.Perm.of_eq ?_)
    rw [List.map_append, List.map_snd_zip (by simp [branched]), List.map_snd_zip (by simp [hlen])]
    rfl
  have hnd : t.names.Nodup := hnames.nodup_iff.2 hn
  -- a pair of the table is read at its cell
  have key : ∀ (c : ℤ) (s : String), (c, s) ∈ t.idx.zip t.names →
      ∃ (i : ℕ) (hi : i < T.length), c = i ∧ Reads (ofTable g t) T (.name s) T[i] := by
    intro c s hm
    obtain ⟨k, hk, e⟩ := List.getElem_of_mem hm
    simp only [List.length_zip, lt_min_iff] at hk
    simp only [List.getElem_zip, Prod.mk.injEq] at e
    obtain ⟨e1, e2⟩ := e
    obtain ⟨c1, c2⟩ := r2 c (e1 ▸ List.getElem_mem _)
    refine ⟨c.toNat, by omega, by omega, ?_⟩
    have := C138_named_partial (ofTable g t) T hT hnd k hk.2 (by simpa [ofTable] using hk.1)
      (by simp [ofTable, e1]; omega)
    simpa [ofTable, e1, e2] using this
  constructor
  · intro q hq
    obtain ⟨k, hk, rfl⟩ := List.getElem_of_mem hq
    have hkc : k < cells.length := by omega
    have hM : Means g (new[k]).2 cells[k] := (List.forall₂_iff_get.1 r6).2 k hk hkc
    obtain ⟨i, hi, e, hR⟩ := key cells[k] (new[k]).1 (r7.symm.mem_iff.1 (List.mem_append_right _ (by
      rw [List.mem_iff_getElem]
      exact ⟨k, by simp; omega, by simp⟩)))
    exact ⟨i, hi, e ▸ hM, hR⟩
  · rintro a b ⟨h1, h2⟩
    have hl : 0 < T.length := by omega
    rw [List.head?_eq_getElem?, List.getElem?_eq_getElem hl] at h1
    rw [List.getLast?_eq_getElem?, List.getElem?_eq_getElem (by omega)] at h2
    simp only [Option.some.injEq] at h1 h2
    obtain ⟨i, hi, e, hR⟩ := key 0 "in" (r7.symm.mem_iff.1 (List.mem_append_left _ (by simp [branched])))
    obtain ⟨i', hi', e', hR'⟩ := key (g.numGp - 1) "out"
      (r7.symm.mem_iff.1 (List.mem_append_left _ (by simp [branched])))
    have e0 : i = 0 := by omega
    have e0' : i' = T.length - 1 := by omega
    subst e0 e0'
    exact ⟨h1 ▸ hR, h2 ▸ hR'⟩

example : ∃ t, addPorts ⟨4, 1 / 10, 5⟩ (branched ⟨4, 1 / 10, 5⟩) [("mid", .volume (25 / 100)), ("top", .index 0)] = some t ∧
    ("in" :: "out" :: [("mid", Pos.volume (25 / 100)), ("top", .index 0)].map Prod.fst).Nodup ∧
    Reads (ofTable ⟨4, 1 / 10, 5⟩ t) [80, 70, 60, 50] (.name "mid") 60 := by
  refine ⟨⟨[0, 0, 2, 3], ["top", "in", "mid", "out"], [.inward, .inward, .inward, .inward]⟩,
    by decide +kernel, by decide +kernel, 2, by decide +kernel, rfl⟩

/-- **C138** (pipes with valve).  `A` and `AB` are the ends and `B` is the cell given by `valve_location`. -/
theorem C138_valve {α : Type*} (g : Geo) (loc : ℕ) (T : List α) (hT : T.length = g.numGp) (hl : loc < T.length) (a b : α)
    (h : AtEnds T a b) :
    Reads (pipeValve g loc) T (.name "A") a ∧ Reads (pipeValve g loc) T (.name "B") T[loc] ∧
    Reads (pipeValve g loc) T (.name "AB") b := by
  obtain ⟨h1, h2⟩ := h
  rw [List.head?_eq_getElem?, List.getElem?_eq_getElem (by omega)] at h1
  rw [List.getLast?_eq_getElem?, List.getElem?_eq_getElem (by omega)] at h2
  simp only [Option.some.injEq] at h1 h2
  have e : (pipeValve g loc).own = [0, loc, T.length - 1] := by
    simp only [pipeValve, insertPort, branched, searchsorted, insertAt]
    by_cases h0 : loc = 0
    · subst h0
      simp; omega
    · have h3 : 0 < loc := by omega
      have h4 : ¬ ((g.numGp : ℤ) - 1 < loc) := by omega
      simp [List.takeWhile, h3, h4]; omega
  refine ⟨⟨0, ?_, ?_⟩, ⟨loc, ?_, view_get _ _ hl⟩, ⟨T.length - 1, ?_, ?_⟩⟩
  · simp only [resolve, e]; simp [pipeValve]
  · rw [view_get _ _ (by omega), h1]
  · simp only [resolve, e]; simp [pipeValve]
  · simp only [resolve, e]; simp [pipeValve]
  · rw [view_get _ _ (by omega), h2]

example : AtEnds [80, 70, 60] 80 60 ∧ Reads (pipeValve ⟨3, 1, 1⟩ 1) [80, 70, 60] (.name "B") 70 :=
  ⟨⟨rfl, rfl⟩, 1, by decide +kernel, rfl⟩

/-- The names have to differ: a port added to a storage may be called `in` like the inlet, and is then not found. -/
theorem C138_fails_name : ∃ t, addPorts ⟨4, 1 / 10, 5⟩ (branched ⟨4, 1 / 10, 5⟩) [("in", .index 2)] = some t ∧
    Reads (ofTable ⟨4, 1 / 10, 5⟩ t) [80, 70, 60, 50] (.name "in") 80 :=
  ⟨⟨[0, 2, 3], ["in", "in", "out"], [.inward, .inward, .inward]⟩, by decide +kernel, 0, by decide +kernel, rfl⟩

/-- The claim fails for heat exchangers with a grid of temperatures, since the number of a port is that of the flattened cell
but picks a row.  In a numeric heat exchanger with at least two rows the sensor at the supply outlet or at the demand inlet
reads nothing, that at the supply inlet reads three temperatures, and that at the demand outlet (in the first row) reads the
third row or nothing. -/
theorem C138_fails_hexnum {α : Type*} (n : ℕ) (hn : 2 ≤ n) (T : List (α × α × α)) (hT : T.length = n) :
    (∃ i, resolve (hexNum n) (.name "sup_out") = some i ∧ view T i = []) ∧
    (∃ i, resolve (hexNum n) (.name "dmd_in") = some i ∧ view T i = []) ∧
    (∃ r, T.head? = some r ∧ Reads (hexNum n) T (.name "sup_in") r) ∧
    ∃ i, resolve (hexNum n) (.name "dmd_out") = some i ∧ view T i = T[2]?.toList := by
  refine ⟨⟨(n - 1) * 3, by simp [resolve, hexNum], view_beyond _ _ (by omega)⟩,
    ⟨n * 3 - 1, by simp [resolve, hexNum], view_beyond _ _ (by omega)⟩,
    ⟨T[0], by rw [List.head?_eq_getElem?, List.getElem?_eq_getElem], 0, by simp [resolve, hexNum], view_get _ _ (by omega)⟩,
    ⟨2, by simp [resolve, hexNum], ?_⟩⟩
  by_cases h : 2 < T.length
  · rw [view_get _ _ h, List.getElem?_eq_getElem h]; rfl
  · rw [view_beyond _ _ (by omega), List.getElem?_eq_none (by omega)]; rfl

/-- Likewise in a condensing heat exchanger: the sensors at both outlets read nothing and those at the inlets read two
temperatures, that at the flue gas inlet those of the outlets. -/
theorem C138_fails_condensing {α : Type*} (waterIn gasIn waterOut gasOut : α) :
    let T := [(waterIn, gasIn), (waterOut, gasOut)]
    (∃ i, resolve condHex (.name "water_out") = some i ∧ view T i = []) ∧
    (∃ i, resolve condHex (.name "fluegas_out") = some i ∧ view T i = []) ∧
    Reads condHex T (.name "water_in") (waterIn, gasIn) ∧ Reads condHex T (.name "fluegas_in") (waterOut, gasOut) :=
  ⟨⟨2, by decide +kernel, rfl⟩, ⟨3, by decide +kernel, rfl⟩, ⟨0, by decide +kernel, rfl⟩, ⟨1, by decide +kernel, rfl⟩⟩

end Verif.Sensor
