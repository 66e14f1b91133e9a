import Verif.Model.TimeLoop
import Mathlib.Tactic.Linarith
import Mathlib.Tactic.Ring

/-! Helper lemmas about the result buffers. -/

namespace Verif.TimeLoop

variable {R : Type*}

/-- Refinement relation: the buffer holds history `hist` (initial row and all rows written so far). -/
structure Holds (p : Par R) (size : ℕ) (b : Buf R) (hist : List R) : Prop where
  /-- stored rows, then the first `stepnum` rows of the buffer -/
  split : hist = b.stored ++ b.rows.take b.stepnum
  len : b.rows.length = b.numSteps + 1
  step_pos : 0 < b.stepnum
  step_le : b.stepnum ≤ b.numSteps + 1
  total : b.totalStep = b.stored.length
  nodisk : p.disk = false → b.stored = []
  disk_size : p.disk = true → b.numSteps = size ∧ ∃ k, b.stored.length = k * size

theorem holds_init (p : Par R) (n : ℕ) (row0 : R) :
    Holds p n (Buf.init p n row0) [row0] := by
  constructor <;> simp [Buf.init]

/-- Writing a row after which the run goes on. -/
theorem write_more {p : Par R} {n : ℕ} (hn : 0 < n) (hb : 0 < p.base) {b : Buf R} {hist : List R}
    (h : Holds p n b hist) (hle : b.stepnum ≤ b.numSteps) (r : R) :
    ∃ b', writeRow p true b r = .ok b' ∧ Holds p n b' (hist ++ [r]) ∧
      b'.stepnum ≤ b'.numSteps := by
  have hlt : b.stepnum < b.rows.length := by rw [h.len]; omega
  have htake : (b.rows.set b.stepnum r).take (b.stepnum + 1) = b.rows.take b.stepnum ++ [r] := by
    rw [List.take_add_one]
    rw [List.take_set, List.set_eq_of_length_le (by simp)]
    simp [hlt]
  by_cases hfull : b.stepnum = b.numSteps
  · cases hd : p.disk with
    | true =>
      obtain ⟨hs, k, hk⟩ := h.disk_size hd
      have hget : (b.rows.set b.stepnum r)[b.numSteps]? = some r := by
        rw [hfull]; simp [hfull ▸ hlt]
      have hset : b.rows.set b.numSteps r = b.rows.take b.numSteps ++ [r] := by
        rw [← hfull, ← htake, List.take_of_length_le]
        rw [List.length_set, h.len]; omega
      refine ⟨⟨r :: List.replicate b.numSteps p.zero, 1, b.numSteps,
        b.stored ++ b.rows.take b.numSteps, b.totalStep + b.numSteps⟩, ?_, ?_, ?_⟩
      · have hlt' : b.numSteps < b.rows.length := by rw [← hfull]; exact hlt
        simp only [writeRow, hlt', if_true, bind, Except.bind, hfull, freeMemory, hd, and_self]
        have hget' : (b.rows.set b.numSteps r)[b.numSteps]? = some r := by
          rw [hfull] at hget; exact hget
        rw [hget']
        simp only [hset, List.dropLast_concat]
        simp [h.len]
      · constructor
        · simp [h.split, hfull]
        · simp
        · simp
        · simp
        · simp [h.total, h.len]
        · intro hf; rw [hd] at hf; cases hf
        · intro _
          refine ⟨hs, k + 1, ?_⟩
          simp only [List.length_append, List.length_take, h.len, hk]
          rw [min_eq_left (by omega), hs]; ring
      · simp only; omega
    | false =>
      have hst := h.nodisk hd
      refine ⟨⟨b.rows.set b.stepnum r ++ List.replicate p.base p.zero, b.stepnum + 1,
        b.rows.length + p.base - 1, b.stored, b.totalStep⟩, ?_, ?_, ?_⟩
      · simp [writeRow, bind, Except.bind, hfull, freeMemory, hd, hfull ▸ hlt]
      · constructor
        · simp only
          rw [List.take_append_of_le_length (by simp; omega), htake, h.split, hst]; simp
        · simp [h.len]; omega
        · simp
        · simp [h.len]; omega
        · exact h.total
        · intro _; exact hst
        · intro hf; rw [hd] at hf; cases hf
      · simp only [h.len]; omega
  · refine ⟨{ b with rows := b.rows.set b.stepnum r, stepnum := b.stepnum + 1 }, ?_, ?_, ?_⟩
    · simp [writeRow, hlt, bind, Except.bind, hfull]
    · constructor
      · simp only [htake, h.split, List.append_assoc]
      · simp [h.len]
      · simp
      · simp; omega
      · exact h.total
      · exact h.nodisk
      · exact h.disk_size
    · simp only; omega

/-- Writing the last row of a run. -/
theorem write_last {p : Par R} {n : ℕ} {b : Buf R} {hist : List R}
    (h : Holds p n b hist) (hle : b.stepnum ≤ b.numSteps) (r : R) :
    ∃ b', writeRow p false b r = .ok b' ∧ Holds p n b' (hist ++ [r]) ∧ 2 ≤ b'.stepnum := by
  have hlt : b.stepnum < b.rows.length := by rw [h.len]; omega
  have htake : (b.rows.set b.stepnum r).take (b.stepnum + 1) = b.rows.take b.stepnum ++ [r] := by
    rw [List.take_add_one]
    rw [List.take_set, List.set_eq_of_length_le (by simp)]
    simp [hlt]
  refine ⟨{ b with rows := b.rows.set b.stepnum r, stepnum := b.stepnum + 1 }, ?_, ?_, ?_⟩
  · simp [writeRow, hlt, bind, Except.bind]
  · constructor
    · simp only [htake, h.split, List.append_assoc]
    · simp [h.len]
    · simp
    · simp; omega
    · exact h.total
    · exact h.nodisk
    · exact h.disk_size
  · have := h.step_pos; simp only; omega

theorem loop_holds {p : Par R} {n : ℕ} (hn : 0 < n) (hb : 0 < p.base) (rs : List R) :
    ∀ {b : Buf R} {hist : List R}, Holds p n b hist → b.stepnum ≤ b.numSteps →
      ∃ b', loop p b rs = .ok b' ∧ Holds p n b' (hist ++ rs) ∧ (rs ≠ [] → 2 ≤ b'.stepnum) := by
  induction rs with
  | nil => intro b hist h _; exact ⟨b, rfl, by simpa using h, by simp⟩
  | cons r rs ih =>
    intro b hist h hle
    cases rs with
    | nil =>
      obtain ⟨b', h1, h2, h3⟩ := write_last h hle r
      exact ⟨b', by simp [loop, h1, bind, Except.bind], h2, fun _ => h3⟩
    | cons r' rs =>
      obtain ⟨b', h1, h2, h3⟩ := write_more hn hb h hle r
      obtain ⟨b'', h4, h5, h6⟩ := ih h2 h3
      refine ⟨b'', ?_, by simpa using h5, fun _ => h6 (by simp)⟩
      rw [loop]
      simp [h1, bind, Except.bind, h4]

theorem finalize_holds {p : Par R} {n : ℕ} {b : Buf R} {hist : List R} (h : Holds p n b hist) :
    finalize p b = if p.disk = true ∧ b.stepnum = n + 1 then .error .indexError else .ok hist := by
  cases hd : p.disk with
  | false =>
    have hst := h.nodisk hd
    simp [finalize, hd, bind, Except.bind, h.total, hst, h.split]
  | true =>
    obtain ⟨hs, k, hk⟩ := h.disk_size hd
    by_cases hfull : b.stepnum = n + 1
    · have : b.rows[b.stepnum]? = none := by
        rw [List.getElem?_eq_none_iff, h.len]; omega
      simp [finalize, hd, bind, Except.bind, freeMemory, hfull]
      rw [hfull] at this
      simp [this]
    · have hlt : b.stepnum < b.rows.length := by rw [h.len]; have := h.step_le; omega
      have hle : b.stepnum ≤ b.rows.length := hlt.le
      simp only [finalize, hd, if_true, bind, Except.bind, freeMemory, List.getElem?_eq_getElem hlt,
        hfull, and_false, if_false]
      rw [List.take_append_of_le_length]
      · rw [h.total, List.take_of_length_le, ← h.split]
        simp
      · simp [h.total]; omega

theorem holds_length {p : Par R} {n : ℕ} {b : Buf R} {hist : List R} (h : Holds p n b hist) :
    hist.length = b.stored.length + b.stepnum := by
  rw [h.split, List.length_append, List.length_take, min_eq_left]
  rw [h.len]; exact h.step_le

end Verif.TimeLoop
