import Verif.Props.TimeLoop

/-!
# C144: recorded powers
-/

namespace Verif.TimeLoop

universe u

variable {R S : Type u}

/-- The array of the part as if it were the main buffer. -/
def asBuf (b : Buf R) (s : Special S) : Buf S := ⟨s.rows, b.stepnum, b.numSteps, s.stored, b.totalStep⟩

theorem writeBoth_disk {p : Par R} (hd : p.disk = true) {zero : S} {more : Bool} {b b' : Buf R} {s : Special S}
    {c : Buf S} {r : R} {x : S} (h1 : writeRow p more b r = .ok b')
    (h2 : writeRow ⟨zero, true, p.base⟩ more (asBuf b s) x = .ok c) :
    writeBoth p zero more b s r x = .ok (b', ⟨c.rows, c.stored⟩) ∧ asBuf b' ⟨c.rows, c.stored⟩ = c := by
  by_cases hs : b.stepnum < s.rows.length
  · by_cases hb : b.stepnum < b.rows.length
    · by_cases hm : b.stepnum = b.numSteps ∧ more = true
      · obtain ⟨e, rfl⟩ := hm
        simp only [writeRow, asBuf, e, bind, Except.bind, freeMemory, hd, if_true, and_self] at h1 h2
        simp only [writeBoth, writeRow, asBuf, e, bind, Except.bind, freeMemory, freeSpecial, hd, if_true, and_self]
        rw [if_pos (e ▸ hs)] at h2
        rw [if_pos (e ▸ hb)] at h1
        rw [if_pos (e ▸ hs), if_pos (e ▸ hb)]
        cases g1 : (b.rows.set b.numSteps r)[b.numSteps]? with
        | none => rw [g1] at h1; cases h1
        | some y =>
          cases g2 : (s.rows.set b.numSteps x)[b.numSteps]? with
          | none => rw [g2] at h2; cases h2
          | some z =>
            rw [g1] at h1
            rw [g2] at h2
            cases h1
            cases h2
            exact ⟨rfl, rfl⟩
      · simp only [writeRow, asBuf, hs, hb, hm, bind, Except.bind, if_true, if_false] at h1 h2
        simp only [writeBoth, writeRow, asBuf, hs, hb, hm, bind, Except.bind, if_true, if_false]
        cases h1
        cases h2
        exact ⟨rfl, rfl⟩
    · simp [writeRow, hb, bind, Except.bind] at h1
  · simp [writeRow, asBuf, hs, bind, Except.bind] at h2

theorem loopBoth_disk {p : Par R} (hd : p.disk = true) {zero : S} {xs : List (R × S)} :
    ∀ {b b' : Buf R} {s : Special S} {c : Buf S}, loop p b (xs.map Prod.fst) = .ok b' →
      loop ⟨zero, true, p.base⟩ (asBuf b s) (xs.map Prod.snd) = .ok c →
      loopBoth p zero b s xs = .ok (b', ⟨c.rows, c.stored⟩) ∧ asBuf b' ⟨c.rows, c.stored⟩ = c := by
  induction xs with
  | nil =>
    intro b b' s c h1 h2
    cases h1
    cases h2
    exact ⟨rfl, rfl⟩
  | cons x xs ih =>
    intro b b' s c h1 h2
    simp only [List.map_cons, loop, bind, Except.bind, List.isEmpty_map] at h1 h2
    cases g1 : writeRow p (!xs.isEmpty) b x.1 with
    | error e => rw [g1] at h1; cases h1
    | ok b1 =>
      cases g2 : writeRow ⟨zero, true, p.base⟩ (!xs.isEmpty) (asBuf b s) x.2 with
      | error e => rw [g2] at h2; cases h2
      | ok c1 =>
        rw [g1] at h1
        rw [g2] at h2
        obtain ⟨e1, e2⟩ := writeBoth_disk hd g1 g2
        rw [← e2] at h2
        obtain ⟨e3, e4⟩ := ih h1 h2
        refine ⟨?_, e4⟩
        simp only [loopBoth, bind, Except.bind, e1]
        exact e3

/-- **C144**, with disk saving: after a run the recorded powers are the initial zero and the value of every step, exactly
when the run can be finished (C09).  For all parts, buffer sizes and runs. -/
theorem C144_disk_partial (p : Par R) (hd : p.disk = true) {n : ℕ} (hn : 0 < n) (hbase : 0 < p.base) (row0 : R) (zero : S)
    {xs : List (R × S)} (hxs : xs ≠ []) (hne : ¬ n ∣ xs.length) :
    runSpecial p zero n row0 xs = .ok (zero :: xs.map Prod.snd) := by
  obtain ⟨b, h1, h2, -⟩ := loop_holds hn hbase (xs.map Prod.fst) (holds_init p n row0) hn
  have hn' : (Buf.init (⟨zero, true, p.base⟩ : Par S) n zero).stepnum ≤ (Buf.init (⟨zero, true, p.base⟩ : Par S) n zero).numSteps := hn
  obtain ⟨c, g1, g2, -⟩ := loop_holds (p := (⟨zero, true, p.base⟩ : Par S)) hn hbase (xs.map Prod.snd)
    (holds_init (⟨zero, true, p.base⟩ : Par S) n zero) hn'
  have ei : asBuf (Buf.init p n row0) (Special.init zero n) = Buf.init (⟨zero, true, p.base⟩ : Par S) n zero := by
    simp [asBuf, Buf.init, Special.init, List.replicate_succ]
  rw [← ei] at g1
  obtain ⟨e1, e2⟩ := loopBoth_disk hd h1 g1
  have r1 := C08_C09_run_result p hn hbase row0 (rs := xs.map Prod.fst) (by simpa using hxs)
  have r2 := C08_C09_run_result (⟨zero, true, p.base⟩ : Par S) hn hbase zero (rs := xs.map Prod.snd) (by simpa using hxs)
  rw [if_neg (by simpa [hd] using hne)] at r1 r2
  rw [ei] at g1
  simp only [run, h1, bind, Except.bind] at r1
  simp only [run, g1, bind, Except.bind] at r2
  simp only [runSpecial, e1, bind, Except.bind, hd, if_true]
  simp only [finalize, hd, if_true, freeMemory, bind, Except.bind] at r1 r2
  have hst : c.stepnum = b.stepnum := by rw [← e2]; rfl
  have htot : c.totalStep = b.totalStep := by rw [← e2]; rfl
  rw [hst] at r2
  simp only [freeSpecial, freeMemory, hd, if_true]
  cases q1 : b.rows[b.stepnum]? with
  | none => rw [q1] at r1; cases r1
  | some y =>
    cases q2 : c.rows[b.stepnum]? with
    | none => rw [q2] at r2; cases r2
    | some z =>
      rw [q2] at r2
      simp only [htot] at r2 ⊢
      exact r2

theorem loopBoth_memory {p : Par R} (hd : p.disk = false) {n m : ℕ} (hb : 0 < p.base) {zero : S} {xs : List (R × S)} :
    ∀ {b : Buf R} {s : Special S} {hist : List R}, 0 < m → Holds p m b hist → b.stepnum ≤ b.numSteps →
      s.rows.length = n + 1 → b.stepnum + xs.length ≤ n + 1 →
      ∃ b' s', loopBoth p zero b s xs = .ok (b', s') ∧ b'.stepnum = b.stepnum + xs.length ∧ b'.totalStep = 0 ∧
        s'.rows.take b'.stepnum = s.rows.take b.stepnum ++ xs.map Prod.snd := by
  induction xs with
  | nil =>
    intro b s hist _ h _ _ _
    exact ⟨b, s, rfl, rfl, by rw [h.total, h.nodisk hd]; rfl, by simp⟩
  | cons x xs ih =>
    intro b s hist hm h hle hl hs
    simp only [List.length_cons] at hs
    have hlt : b.stepnum < s.rows.length := by omega
    have htake : (s.rows.set b.stepnum x.2).take (b.stepnum + 1) = s.rows.take b.stepnum ++ [x.2] := by
      rw [List.take_add_one]
      rw [List.take_set, List.set_eq_of_length_le (by simp)]
      simp [hlt]
    have step : ∀ b1, writeRow p (!xs.isEmpty) b x.1 = .ok b1 → b1.stepnum = b.stepnum + 1 ∧
        writeBoth p zero (!xs.isEmpty) b s x.1 x.2 = .ok (b1, { s with rows := s.rows.set b.stepnum x.2 }) := by
      intro b1 h1
      constructor
      · simp only [writeRow, bind, Except.bind, freeMemory, hd, Bool.false_eq_true, if_false] at h1
        have hlb : b.stepnum < b.rows.length := by rw [h.len]; omega
        rw [if_pos hlb] at h1
        split_ifs at h1 <;> cases h1 <;> rfl
      · simp only [writeBoth, bind, Except.bind, hlt, if_true, freeSpecial, hd, h1]
        simp
    by_cases he : xs = []
    · subst he
      obtain ⟨b1, h1, h2, -⟩ := write_last h hle x.1
      obtain ⟨h3, h4⟩ := step b1 (by simpa using h1)
      refine ⟨b1, { s with rows := s.rows.set b.stepnum x.2 }, ?_, h3, by rw [h2.total, h2.nodisk hd]; rfl, ?_⟩
      · simp only [loopBoth, h4, bind, Except.bind]
      · rw [h3]; simpa using htake
    · obtain ⟨b1, h1, h2, h2'⟩ := write_more hm hb h hle x.1
      have hemp : (!xs.isEmpty) = true := by simpa using he
      obtain ⟨h3, h4⟩ := step b1 (by rw [hemp]; exact h1)
      obtain ⟨b', s', e1, e2, e3, e4⟩ := ih (s := { s with rows := s.rows.set b.stepnum x.2 }) hm h2 h2'
        (by simpa using hl) (by omega)
      refine ⟨b', s', ?_, by rw [e2, h3, List.length_cons]; omega, e3, ?_⟩
      · simp only [loopBoth, h4, bind, Except.bind]
        exact e1
      · rw [e4, h3]
        simp only [htake, List.map_cons, List.append_assoc, List.singleton_append]

/-- **C144**, without disk saving: the same for runs which fit into the first buffer. -/
theorem C144_memory_partial (p : Par R) (hd : p.disk = false) {n : ℕ} (hn : 0 < n) (hbase : 0 < p.base) (row0 : R)
    (zero : S) {xs : List (R × S)} (hle : xs.length ≤ n) :
    runSpecial p zero n row0 xs = .ok (zero :: xs.map Prod.snd) := by
  obtain ⟨b, s, h1, h2, h3, h4⟩ := loopBoth_memory (n := n) (zero := zero) (xs := xs) hd hbase hn (holds_init p n row0)
    (s := Special.init zero n) hn (by simp [Special.init]) (by simp [Buf.init]; omega)
  simp only [runSpecial, h1, hd, bind, Except.bind, h3, Nat.add_zero, if_false, Bool.false_eq_true]
  rw [h4]
  simp [Special.init, Buf.init, List.replicate_succ]

theorem loopBoth_overflow {p : Par R} (hd : p.disk = false) {n m : ℕ} (hb : 0 < p.base) {zero : S} {xs : List (R × S)} :
    ∀ {b : Buf R} {s : Special S} {hist : List R}, 0 < m → Holds p m b hist → b.stepnum ≤ b.numSteps →
      s.rows.length = n + 1 → b.stepnum ≤ n + 1 → n + 1 < b.stepnum + xs.length →
      loopBoth p zero b s xs = .error .indexError := by
  induction xs with
  | nil => intro b s hist _ _ _ _ h1 h2; simp at h2; omega
  | cons x xs ih =>
    intro b s hist hm h hle hl hs1 hs
    simp only [List.length_cons] at hs
    by_cases hlt : b.stepnum < s.rows.length
    · have step : ∀ b1, writeRow p (!xs.isEmpty) b x.1 = .ok b1 → b1.stepnum = b.stepnum + 1 ∧
          writeBoth p zero (!xs.isEmpty) b s x.1 x.2 = .ok (b1, { s with rows := s.rows.set b.stepnum x.2 }) := by
        intro b1 h1
        constructor
        · simp only [writeRow, bind, Except.bind, freeMemory, hd, Bool.false_eq_true, if_false] at h1
          have hlb : b.stepnum < b.rows.length := by rw [h.len]; omega
          rw [if_pos hlb] at h1
          split_ifs at h1 <;> cases h1 <;> rfl
        · simp only [writeBoth, bind, Except.bind, hlt, if_true, freeSpecial, hd, h1]
          simp
      have he : xs ≠ [] := by rintro rfl; simp at hs; omega
      obtain ⟨b1, h1, h2, h2'⟩ := write_more hm hb h hle x.1
      have hemp : (!xs.isEmpty) = true := by simpa using he
      obtain ⟨h3, h4⟩ := step b1 (by rw [hemp]; exact h1)
      simp only [loopBoth, h4, bind, Except.bind]
      exact ih hm h2 h2' (by simpa using hl) (by omega) (by omega)
    · simp [loopBoth, writeBoth, hlt, bind, Except.bind]

/-- **C144** is false for longer runs without disk saving: the arrays of temperatures and flows are enlarged, those of the
powers are not, and the first step after the enlargement writes behind their end.  For all buffer sizes and runs. -/
theorem C144_fails_enlarged (p : Par R) (hd : p.disk = false) {n : ℕ} (hn : 0 < n) (hbase : 0 < p.base) (row0 : R)
    (zero : S) {xs : List (R × S)} (hlt : n < xs.length) :
    runSpecial p zero n row0 xs = .error .indexError ∧ run p n row0 (xs.map Prod.fst) = .ok (row0 :: xs.map Prod.fst) := by
  constructor
  · have := loopBoth_overflow (n := n) (zero := zero) (xs := xs) hd hbase hn (holds_init p n row0)
      (s := Special.init zero n) hn (by simp [Special.init]) (by simp [Buf.init]) (by simp [Buf.init]; omega)
    simp only [runSpecial, this, bind, Except.bind]
  · rw [C08_C09_run_result p hn hbase row0 (by rintro h; simp at h; simp [h] at hlt), if_neg (by simp [hd])]

example : runSpecial ⟨(0 : ℕ), true, 3⟩ (0 : ℕ) 2 10 [(11, 1), (12, 2), (13, 3), (14, 4), (15, 5)] =
    .ok [0, 1, 2, 3, 4, 5] := by decide

example : runSpecial ⟨(0 : ℕ), false, 3⟩ (0 : ℕ) 2 10 [(11, 1), (12, 2)] = .ok [0, 1, 2] := by decide

example : runSpecial ⟨(0 : ℕ), false, 3⟩ (0 : ℕ) 2 10 [(11, 1), (12, 2), (13, 3)] = .error .indexError := by decide

end Verif.TimeLoop
