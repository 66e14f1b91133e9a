import Verif.Model.Ports
import Mathlib.Tactic.Linarith
import Mathlib.Tactic.NormNum
import Mathlib.Tactic.FieldSimp
import Mathlib.Tactic.Ring
import Mathlib.Data.List.Perm.Basic
import Mathlib.Data.List.Sort

/-! # Additional ports: C16 -/

namespace Verif.Ports

/-- Specification: cell `c` (of `g.numGp` cells) is the one a user means by the position.  A position on
a border between two cells (up to a nanometre / cubic millimetre) may go to either of them. -/
def Means (g : Geo) : Pos → ℤ → Prop
  | .index i, c => (i = -1 ∧ c = g.numGp - 1) ∨ (0 ≤ i ∧ c = i)
  | .volume v, c => c * g.vCell ≤ v + 1 / 10 ^ 9 ∧ v ≤ (c + 1) * g.vCell
  | .distance d, c =>
    c * (g.length / g.numGp) ≤ d ∧ d ≤ (c + 1) * (g.length / g.numGp) + 1 / 10 ^ 9 * g.length

theorem pyRound_spec (q : ℚ) : q - 1 / 2 ≤ pyRound q ∧ (pyRound q : ℚ) ≤ q + 1 / 2 := by
  have h1 := Int.floor_le q
  have h2 := Int.lt_floor_add_one q
  unfold pyRound
  split_ifs with h3 h4 h5 <;> push_cast <;> constructor <;> linarith

theorem clipCell_range (g : Geo) (hg : 0 < g.numGp) (i : ℤ) :
    0 ≤ clipCell g i ∧ clipCell g i < g.numGp := by
  unfold clipCell; split_ifs <;> omega

/-- The computed cell is inside the part and is the one meant. -/
theorem cell_spec (g : Geo) (hg : 0 < g.numGp) (hV : 2 / 10 ^ 9 < g.vCell) (hL : 0 < g.length) (p : Pos)
    (c : ℤ) (h : cell g p = some c) : 0 ≤ c ∧ c < g.numGp ∧ Means g p c := by
  have hn : (0 : ℚ) < g.numGp := by exact_mod_cast hg
  cases p with
  | index i =>
    simp only [cell] at h
    split_ifs at h with h1 h2
    · simp at h; subst h
      unfold Means clipCell
      subst h2
      split_ifs <;> omega
    · simp at h; subst h
      unfold Means clipCell
      split_ifs <;> omega
  | volume v =>
    simp only [cell] at h
    split_ifs at h with h1
    simp only [Option.some.injEq] at h
    have hVp : 0 < g.vCell := by linarith [show (0 : ℚ) < 2 / 10 ^ 9 by norm_num]
    set x := (v - (g.vCell / 2 - 1 / 10 ^ 9)) / g.vCell with hx
    have hxv : x * g.vCell = v - (g.vCell / 2 - 1 / 10 ^ 9) := by rw [hx]; field_simp
    obtain ⟨r1, r2⟩ := pyRound_spec x
    have r1' : (x - 1 / 2) * g.vCell ≤ pyRound x * g.vCell := mul_le_mul_of_nonneg_right r1 hVp.le
    have r2' : pyRound x * g.vCell ≤ (x + 1 / 2) * g.vCell := mul_le_mul_of_nonneg_right r2 hVp.le
    have hr := clipCell_range g hg (pyRound x)
    rw [h] at hr
    refine ⟨hr.1, hr.2, ?_⟩
    unfold clipCell at h
    unfold Means
    split_ifs at h with h2 h3
    · subst h
      have h2' : (g.numGp : ℚ) ≤ pyRound x := by exact_mod_cast h2
      have h2'' : (g.numGp : ℚ) * g.vCell ≤ pyRound x * g.vCell := mul_le_mul_of_nonneg_right h2' hVp.le
      push_cast
      constructor
      · nlinarith
      · nlinarith
    · exfalso
      have h3' : (pyRound x : ℚ) ≤ -1 := by exact_mod_cast (by omega : pyRound x ≤ -1)
      have : pyRound x * g.vCell ≤ -1 * g.vCell := mul_le_mul_of_nonneg_right h3' hVp.le
      nlinarith [show (0 : ℚ) < 1 / 10 ^ 9 by norm_num]
    · subst h
      constructor
      · nlinarith
      · nlinarith [show (0 : ℚ) < 1 / 10 ^ 9 by norm_num]
  | distance d =>
    simp only [cell] at h
    have hn1 : (1 : ℚ) ≤ g.numGp := by exact_mod_cast hg
    set y := d / g.length * g.numGp with hy
    have hd : d = y * (g.length / g.numGp) := by rw [hy]; field_simp
    have hLn : 0 < g.length / g.numGp := by positivity
    have hLn' : g.length / g.numGp ≤ g.length := div_le_self hL.le hn1
    have hf1 := Int.floor_le (y - 1 / 10 ^ 9)
    have hf2 := Int.lt_floor_add_one (y - 1 / 10 ^ 9)
    set i := ⌊y - 1 / 10 ^ 9⌋ with hi
    have key : ∀ c : ℤ, (c : ℚ) ≤ y → y ≤ c + 1 + 1 / 10 ^ 9 → Means g (.distance d) c := by
      intro c h1 h2
      unfold Means
      rw [hd]
      have e1 : (c : ℚ) * (g.length / g.numGp) ≤ y * (g.length / g.numGp) :=
        mul_le_mul_of_nonneg_right h1 hLn.le
      have e2 : y * (g.length / g.numGp) ≤ (c + 1 + 1 / 10 ^ 9) * (g.length / g.numGp) :=
        mul_le_mul_of_nonneg_right h2 hLn.le
      exact ⟨e1, by nlinarith⟩
    split_ifs at h with h1 h2
    · simp only [Option.some.injEq] at h
      have hy0 : y ≤ g.numGp := by
        rw [hy]
        calc d / g.length * g.numGp ≤ 1 * g.numGp :=
              mul_le_mul_of_nonneg_right ((div_le_one hL).2 h1.2) hn.le
          _ = g.numGp := one_mul _
      have hin : i < g.numGp := by
        have : (i : ℚ) < g.numGp := by linarith [show (0 : ℚ) < 1 / 10 ^ 9 by norm_num]
        exact_mod_cast this
      have hc : c = i := by
        rw [← h]; unfold clipCell
        rw [if_neg (not_le.2 hin), if_neg (not_lt.2 h2)]
      subst hc
      exact ⟨h2, hin, key _ (by linarith [show (0 : ℚ) < 1 / 10 ^ 9 by norm_num]) (by linarith)⟩
    · simp only [Option.some.injEq] at h
      have hc : c = 0 := by
        rw [← h]; unfold clipCell
        rw [if_neg (not_le.2 (by exact_mod_cast hg)), if_neg (lt_irrefl _)]
      subst hc
      have hy0 : 0 ≤ y := by rw [hy]; have := h1.1; positivity
      have hi1 : (i : ℚ) ≤ -1 := by exact_mod_cast (by omega : i ≤ -1)
      refine ⟨le_rfl, by exact_mod_cast hg, key _ (by simpa using hy0) ?_⟩
      push_cast
      linarith [show (0 : ℚ) < 1 / 10 ^ 9 by norm_num]

/-- Inserting at the same place of two lists inserts the pair into the zipped list. -/
theorem zip_insertAt {α β : Type} : ∀ (l : List α) (m : List β) (i : ℕ) (a : α) (b : β),
    l.length = m.length → (insertAt l i a).zip (insertAt m i b) = insertAt (l.zip m) i (a, b)
  | l, m, 0, a, b, _ => by simp [insertAt]
  | [], [], i + 1, a, b, _ => by simp [insertAt]
  | x :: l, y :: m, i + 1, a, b, h => by
    have := zip_insertAt l m i a b (by simpa using h)
    simpa [insertAt] using this

theorem insertAt_perm {α : Type} (l : List α) (i : ℕ) (a : α) : (insertAt l i a).Perm (a :: l) := by
  unfold insertAt
  refine List.perm_middle.trans ?_
  rw [List.take_append_drop]

theorem insertAt_length {α : Type} (l : List α) (i : ℕ) (a : α) :
    (insertAt l i a).length = l.length + 1 := (insertAt_perm l i a).length_eq

/-- Inserting at the `searchsorted` position keeps a list sorted. -/
theorem insertAt_sorted : ∀ (l : List ℤ) (v : ℤ), l.Pairwise (· ≤ ·) →
    (insertAt l (searchsorted l v) v).Pairwise (· ≤ ·)
  | [], v, _ => by simp [insertAt, searchsorted]
  | x :: l, v, h => by
    rw [List.pairwise_cons] at h
    by_cases hx : x < v
    · have ih := insertAt_sorted l v h.2
      have e : insertAt (x :: l) (searchsorted (x :: l) v) v = x :: insertAt l (searchsorted l v) v := by
        simp [insertAt, searchsorted, hx]
      rw [e, List.pairwise_cons]
      refine ⟨fun y hy => ?_, ih⟩
      have := (insertAt_perm l (searchsorted l v) v).mem_iff.1 hy
      rcases List.mem_cons.1 this with rfl | hy
      · exact hx.le
      · exact h.1 y hy
    · have e : insertAt (x :: l) (searchsorted (x :: l) v) v = v :: x :: l := by
        simp [insertAt, searchsorted, hx]
      rw [e, List.pairwise_cons]
      refine ⟨fun y hy => ?_, List.pairwise_cons.2 h⟩
      rcases List.mem_cons.1 hy with rfl | hy
      · exact not_lt.1 hx
      · exact (not_lt.1 hx).trans (h.1 y hy)

/-- **C16**.  Start with any table whose cells are sorted and inside the part and whose ports all face
inwards (that is what branched pipes, pipes with valve and storages start with).  If the new ports are
accepted, then afterwards
* the cell indices are sorted and inside the part,
* the three tables have the same length,
* the (cell, name) pairs are the old ones plus one pair for every new port, whose cell is the one the
  user meant by the position,
* every port is marked as facing inwards, which is how all of them were declared. -/
theorem C16_ports_aligned (g : Geo) (hg : 0 < g.numGp) (hV : 2 / 10 ^ 9 < g.vCell) (hL : 0 < g.length)
    (new : List (String × Pos)) : ∀ (t t' : Table), t.idx.Pairwise (· ≤ ·) →
    (∀ c ∈ t.idx, 0 ≤ c ∧ c < g.numGp) → t.names.length = t.idx.length →
    t.chars.length = t.idx.length → (∀ d ∈ t.chars, d = .inward) → addPorts g t new = some t' →
    t'.idx.Pairwise (· ≤ ·) ∧ (∀ c ∈ t'.idx, 0 ≤ c ∧ c < g.numGp) ∧
      t'.names.length = t'.idx.length ∧ t'.chars.length = t'.idx.length ∧
      (∀ d ∈ t'.chars, d = .inward) ∧
      ∃ cells : List ℤ, List.Forall₂ (fun p c => Means g p.2 c) new cells ∧
        (t'.idx.zip t'.names).Perm (t.idx.zip t.names ++ cells.zip (new.map Prod.fst)) := by
  induction new with
  | nil =>
    intro t t' h1 h2 h3 h4 h5 h
    simp only [addPorts, Option.some.injEq] at h
    subst h
    exact ⟨h1, h2, h3, h4, h5, [], .nil, by simp⟩
  | cons kp rest ih =>
    intro t t' h1 h2 h3 h4 h5 h
    obtain ⟨key, pos⟩ := kp
    simp only [addPorts] at h
    cases hc : cell g pos with
    | none => simp [hc] at h
    | some v =>
      simp only [hc] at h
      obtain ⟨c1, c2, c3⟩ := cell_spec g hg hV hL pos v hc
      obtain ⟨r1, r2, r3, r4, r5, cells, r6, r7⟩ := ih (insertPort t key v) t'
        (insertAt_sorted _ _ h1)
        (fun c hm => by
          rcases List.mem_cons.1 ((insertAt_perm _ _ _).mem_iff.1 hm) with rfl | hm
          · exact ⟨c1, c2⟩
          · exact h2 c hm)
        (by simp [insertPort, insertAt_length, h3])
        (by simp [insertPort, insertAt_length, h4])
        (fun d hd => by
          simp only [insertPort, List.mem_append, List.mem_singleton] at hd
          rcases hd with hd | hd
          · exact h5 d hd
          · exact hd) h
      refine ⟨r1, r2, r3, r4, r5, v :: cells, .cons c3 r6, r7.trans ?_⟩
      simp only [insertPort, zip_insertAt _ _ _ _ _ h3.symm, List.map_cons, List.zip_cons_cons]
      refine ((insertAt_perm _ _ _).append_right _).trans ?_
      exact List.perm_middle.symm

/-- The hypotheses are met by a branched pipe with three new ports of all kinds. -/
example : ∃ t', addPorts ⟨10, 1 / 10, 5⟩ (branched ⟨10, 1 / 10, 5⟩)
    [("p1", .index (-1)), ("p2", .volume (3 / 10)), ("p3", .distance (5 / 2))] = some t' ∧
    t'.idx = [0, 3, 4, 9, 9] ∧ t'.names = ["in", "p2", "p3", "p1", "out"] := by
  exact ⟨⟨[0, 3, 4, 9, 9], ["in", "p2", "p3", "p1", "out"], [.inward, .inward, .inward, .inward, .inward]⟩,
    by decide +kernel, rfl, rfl⟩

/-- **C16** (acceptance): a position is refused exactly if it is outside the part. -/
theorem C16_position_accepted_iff (g : Geo) (p : Pos) :
    (cell g p).isSome ↔ match p with
      | .index i => -1 ≤ i ∧ i < g.numGp
      | .volume v => 0 ≤ v ∧ v ≤ g.numGp * g.vCell
      | .distance d => 0 ≤ d ∧ d ≤ g.length := by
  cases p with
  | index i =>
    simp only [cell]
    split_ifs with h h2 <;> simp <;> omega
  | volume v => simp only [cell]; split_ifs with h <;> simp [h]
  | distance d => simp only [cell]; split_ifs with h <;> simp [h]

/-- The direction marks are appended at the end and not inserted with the name.  Parts whose ports do not
all face inwards would get wrong directions: this is why the hypothesis on the marks in
`C16_ports_aligned` is needed.  A plain pipe claims `can_add_ports` but never adds ports. -/
theorem C16_fails_for_mixed_directions :
    ∃ t', addPorts ⟨10, 1 / 10, 5⟩ (plain ⟨10, 1 / 10, 5⟩) [("p", .index 4)] = some t' ∧
      t'.names = ["in", "p", "out"] ∧ t'.chars = [.inward, .outward, .inward] :=
  ⟨⟨[0, 4, 9], ["in", "p", "out"], [.inward, .outward, .inward]⟩, by decide +kernel, rfl, rfl⟩

end Verif.Ports
