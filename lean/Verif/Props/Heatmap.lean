import Verif.Model.Heatmap
import Mathlib.Tactic.Common

/-!
# C185: a heat map shows the data of its call
-/

namespace Verif.Heatmap

variable {D : Type*}

/-! ## Earlier calls -/

theorem after_append (s : Store D) (l : List (Call D)) (c : Call D) : after s (l ++ [c]) = (draw (after s l) c).1 := by
  simp [after]

/-- Specification: the last of the calls `l` with the property. -/
def LastWith (l : List (Call D)) (p : Call D → Prop) (c : Call D) : Prop := ∃ a b, l = a ++ c :: b ∧ p c ∧ ∀ d ∈ b, ¬ p d

theorem norm_none {s : Store D} {l : List (Call D)} {k : ℕ} (h : ∀ d ∈ l, ¬ (d.log = true ∧ d.plt = k)) : (after s l).norm k = s.norm k := by
  induction l using List.reverseRecOn with
  | nil => rfl
  | append_singleton l c ih =>
    rw [after_append]
    have hc := h c (by simp)
    have := ih fun d hd => h d (by simp [hd])
    rw [← this]
    simp only [draw]
    by_cases hl : c.log = true
    · rw [if_pos hl]
      have : k ≠ c.plt := fun e => hc ⟨hl, e.symm⟩
      simp [put, this]
    · rw [if_neg hl]

theorem norm_last {s : Store D} {l : List (Call D)} {k : ℕ} {c : Call D} (h : LastWith l (fun d => d.log = true ∧ d.plt = k) c) :
    (after s l).norm k = some c.data := by
  obtain ⟨a, b, rfl, ⟨h1, h2⟩, h3⟩ := h
  have e : after s (a ++ c :: b) = after (draw (after s a) c).1 b := by simp [after]
  rw [e, norm_none h3]
  simp [draw, h1, put, h2]

theorem ext_none {s : Store D} {l : List (Call D)} {k : ℕ} (h : ∀ d ∈ l, ¬ ((d.over = true ∨ d.under = true) ∧ d.cbar = k)) :
    (after s l).ext k = s.ext k := by
  induction l using List.reverseRecOn with
  | nil => rfl
  | append_singleton l c ih =>
    rw [after_append]
    have hc := h c (by simp)
    rw [← ih fun d hd => h d (by simp [hd])]
    simp only [draw]
    by_cases e : c.cbar = k
    · have : ¬ (c.over = true ∨ c.under = true) := fun h => hc ⟨h, e⟩
      push Not at this
      rw [if_neg this.2, if_neg this.1]
    · have e' : k ≠ c.cbar := fun h => e h.symm
      by_cases h1 : c.over = true <;> by_cases h2 : c.under = true <;> simp [h1, h2, put, e']

/-- **C185**, partial: what a call draws after any other calls is what it draws alone, if no call before it has written into its dictionaries:
none with a logarithmic scale into `plt_kwds`, or it has one itself; none with an extended colour bar into `cbar_kwds`, or it has one itself.
Missing: all other histories (`C185_fails_scale`, `C185_fails_ends`). -/
theorem C185_alone_partial (s : Store D) (l : List (Call D)) (c : Call D)
    (hn : c.log = true ∨ ∀ d ∈ l, d.log = true → d.plt ≠ c.plt)
    (he : (c.over = true ∨ c.under = true) ∨ ∀ d ∈ l, (d.over = true ∨ d.under = true) → d.cbar ≠ c.cbar) :
    (draw (after s l) c).2 = (draw s c).2 := by
  have h1 : (draw (after s l) c).2.norm = (draw s c).2.norm := by
    simp only [draw]
    rcases hn with h | h
    · simp [h, put]
    · by_cases hc : c.log = true
      · simp [hc, put]
      · rw [if_neg hc, if_neg hc, norm_none fun d hd hh => h d hd hh.1 hh.2]
  have h2 : (draw (after s l) c).2.ext = (draw s c).2.ext := by
    simp only [draw]
    rcases he with h | h
    · by_cases a : c.over = true <;> by_cases b : c.under = true <;> simp [a, b, put] at h ⊢
    · by_cases a : c.over = true <;> by_cases b : c.under = true <;> simp only [a, b, if_true, if_false, put, reduceCtorEq]
      rw [ext_none fun d hd hh => h d hd hh.1 hh.2]
  have h3 : (draw (after s l) c).2.data = (draw s c).2.data := rfl
  cases hx : (draw (after s l) c).2
  cases hy : (draw s c).2
  rw [hx] at h1 h2 h3
  rw [hy] at h1 h2 h3
  simp only at h1 h2 h3
  simp [h1, h2, h3]

/-- **C185** (scale): a logarithmic scale that is asked for has the limits of the data of the call. -/
theorem C185_log (s : Store D) (l : List (Call D)) (c : Call D) (h : c.log = true) : (draw (after s l) c).2.norm = some c.data := by
  simp [draw, h, put]

/-- **C185 is false of the code**: after one call with a logarithmic scale, all calls without one that use the same dictionary, such as all
calls that give none, get the logarithmic scale too, with the limits of the data of that other call. -/
theorem C185_fails_scale (s : Store D) {l : List (Call D)} {c d : Call D} (hc : c.log = false)
    (hd : LastWith l (fun e => e.log = true ∧ e.plt = c.plt) d) : (draw (after s l) c).2.norm = some d.data := by
  simp only [draw, hc]
  exact norm_last hd

/-- **C185 is false of the code**: after one call with an extended colour bar, all calls without one that use the same dictionary have a colour
bar with extended ends. -/
theorem C185_fails_ends (s : Store D) {l : List (Call D)} {c d : Call D} (hc : c.over = false ∧ c.under = false)
    (hd : LastWith l (fun e => (e.over = true ∨ e.under = true) ∧ e.cbar = c.cbar) d) :
    (draw (after s l) c).2.ext = some (if d.over then if d.under then .both else .max else .min) := by
  obtain ⟨a, b, rfl, ⟨h1, h2⟩, h3⟩ := hd
  simp only [draw, hc]
  have e : after s (a ++ d :: b) = after (draw (after s a) d).1 b := by simp [after]
  rw [e, ← h2]
  simp only [Bool.false_eq_true, if_false]
  rw [ext_none (by rw [h2]; exact h3)]
  by_cases p : d.over = true <;> by_cases q : d.under = true <;> simp [p, q, draw, put] at h1 ⊢

/-! ## The part of the table -/

theorem first_le {n : ℕ} {v : ℕ → Bool} {i k : ℕ} (hv : v i = true) (h : firstValid n v = some k) : k ≤ i := by
  unfold firstValid at h
  rw [List.find?_range_eq_some] at h
  by_contra hn
  have := h.2.2 i (by omega)
  simp [hv] at this

theorem first_valid {n : ℕ} {v : ℕ → Bool} {k : ℕ} (h : firstValid n v = some k) : k < n ∧ v k = true := by
  unfold firstValid at h
  exact ⟨List.mem_range.1 (List.mem_of_find?_eq_some h), List.find?_some h⟩

theorem last_valid {n : ℕ} {v : ℕ → Bool} {k : ℕ} (h : lastValid n v = some k) : k < n ∧ v k = true := by
  unfold lastValid at h
  exact ⟨List.mem_range.1 (List.mem_reverse.1 (List.mem_of_find?_eq_some h)), List.find?_some h⟩

theorem le_last {n : ℕ} {v : ℕ → Bool} {i k : ℕ} (hi : i < n) (hv : v i = true) (h : lastValid n v = some k) : i ≤ k := by
  unfold lastValid at h
  induction n with
  | zero => omega
  | succ n ih =>
    rw [List.range_succ, List.reverse_append, List.reverse_singleton, List.singleton_append, List.find?_cons] at h
    by_cases hn : v n = true
    · simp only [hn, Option.some.injEq] at h
      omega
    · simp only [hn] at h
      have : i ≠ n := by rintro rfl; exact hn hv
      exact ih (by omega) h

theorem first_some {n : ℕ} {v : ℕ → Bool} {i : ℕ} (hi : i < n) (hv : v i = true) : ∃ k, firstValid n v = some k := by
  rw [← Option.isSome_iff_exists]
  unfold firstValid
  rw [List.find?_isSome]
  exact ⟨i, List.mem_range.2 hi, hv⟩

theorem last_some {n : ℕ} {v : ℕ → Bool} {i : ℕ} (hi : i < n) (hv : v i = true) : ∃ k, lastValid n v = some k := by
  rw [← Option.isSome_iff_exists]
  unfold lastValid
  rw [List.find?_isSome]
  exact ⟨i, List.mem_reverse.2 (List.mem_range.2 hi), hv⟩

/-- **C185** (cutting): every value of the table is drawn. -/
theorem C185_values {V : Type*} {rows cols : ℕ} {val : ℕ → ℕ → Option V} {i j : ℕ} (hi : i < rows) (hj : j < cols)
    (hv : val i j ≠ none) : cut rows cols val i j := by
  have h : (val i j).isSome = true := by
    cases hx : val i j
    · exact absurd hx hv
    · rfl
  have hr : ((List.range cols).any fun j => (val i j).isSome) = true := List.any_eq_true.2 ⟨j, List.mem_range.2 hj, h⟩
  have hc : ((List.range rows).any fun i => (val i j).isSome) = true := List.any_eq_true.2 ⟨i, List.mem_range.2 hi, h⟩
  exact ⟨⟨hi, fun k hk => first_le (v := fun i => (List.range cols).any fun j => (val i j).isSome) hr hk, fun k hk => le_last (v := fun i => (List.range cols).any fun j => (val i j).isSome) hi hr hk⟩,
    hj, fun k hk => first_le (v := fun j => (List.range rows).any fun i => (val i j).isSome) hc hk, fun k hk => le_last (v := fun j => (List.range rows).any fun i => (val i j).isSome) hj hc hk⟩

/-- **C185** (cutting): no more is drawn than the values need; above and below, left and right of a cell that is drawn, or in its own row and
column, there are values, if there is a value at all. -/
theorem C185_tight {V : Type*} {rows cols : ℕ} {val : ℕ → ℕ → Option V} {i j : ℕ} (h : cut rows cols val i j)
    (hv : ∃ a < rows, ∃ b < cols, val a b ≠ none) :
    (∃ a b, a ≤ i ∧ b < cols ∧ val a b ≠ none) ∧ (∃ a b, i ≤ a ∧ a < rows ∧ b < cols ∧ val a b ≠ none) ∧
      (∃ a b, b ≤ j ∧ a < rows ∧ val a b ≠ none) ∧ ∃ a b, j ≤ b ∧ b < cols ∧ a < rows ∧ val a b ≠ none := by
  obtain ⟨a, ha, b, hb, hab⟩ := hv
  have hs : (val a b).isSome = true := by
    cases hx : val a b
    · exact absurd hx hab
    · rfl
  have hr : (fun i => (List.range cols).any fun j => (val i j).isSome) a = true := List.any_eq_true.2 ⟨b, List.mem_range.2 hb, hs⟩
  have hc : (fun j => (List.range rows).any fun i => (val i j).isSome) b = true := List.any_eq_true.2 ⟨a, List.mem_range.2 ha, hs⟩
  have ne : ∀ {a b}, (val a b).isSome = true → val a b ≠ none := by
    intro a b h e; rw [e] at h; simp at h
  obtain ⟨⟨-, h1, h2⟩, -, h3, h4⟩ := h
  refine ⟨?_, ?_, ?_, ?_⟩
  · obtain ⟨k, hk⟩ := first_some (v := fun i => (List.range cols).any fun j => (val i j).isSome) ha hr
    obtain ⟨x, hx, hx'⟩ := List.any_eq_true.1 (first_valid hk).2
    exact ⟨k, x, h1 k hk, List.mem_range.1 hx, ne hx'⟩
  · obtain ⟨k, hk⟩ := last_some (v := fun i => (List.range cols).any fun j => (val i j).isSome) ha hr
    obtain ⟨x, hx, hx'⟩ := List.any_eq_true.1 (last_valid hk).2
    exact ⟨k, x, h2 k hk, (last_valid hk).1, List.mem_range.1 hx, ne hx'⟩
  · obtain ⟨k, hk⟩ := first_some (v := fun j => (List.range rows).any fun i => (val i j).isSome) hb hc
    obtain ⟨x, hx, hx'⟩ := List.any_eq_true.1 (first_valid hk).2
    exact ⟨x, k, h3 k hk, List.mem_range.1 hx, ne hx'⟩
  · obtain ⟨k, hk⟩ := last_some (v := fun j => (List.range rows).any fun i => (val i j).isSome) hb hc
    obtain ⟨x, hx, hx'⟩ := List.any_eq_true.1 (last_valid hk).2
    exact ⟨x, k, h4 k hk, (last_valid hk).1, List.mem_range.1 hx, ne hx'⟩

/-- **C185** (cutting): a table without values is drawn as it is. -/
theorem C185_empty {V : Type*} {rows cols : ℕ} {val : ℕ → ℕ → Option V} (hv : ∀ a < rows, ∀ b < cols, val a b = none) {i j : ℕ}
    (hi : i < rows) (hj : j < cols) : cut rows cols val i j := by
  have hr : ∀ k, firstValid rows (fun i => (List.range cols).any fun j => (val i j).isSome) ≠ some k ∧
      lastValid rows (fun i => (List.range cols).any fun j => (val i j).isSome) ≠ some k := by
    intro k
    constructor <;> intro hk
    · obtain ⟨h1, h2⟩ := first_valid hk
      obtain ⟨x, hx, hx'⟩ := List.any_eq_true.1 h2
      simp [hv k h1 x (List.mem_range.1 hx)] at hx'
    · obtain ⟨h1, h2⟩ := last_valid hk
      obtain ⟨x, hx, hx'⟩ := List.any_eq_true.1 h2
      simp [hv k h1 x (List.mem_range.1 hx)] at hx'
  have hc : ∀ k, firstValid cols (fun j => (List.range rows).any fun i => (val i j).isSome) ≠ some k ∧
      lastValid cols (fun j => (List.range rows).any fun i => (val i j).isSome) ≠ some k := by
    intro k
    constructor <;> intro hk
    · obtain ⟨h1, h2⟩ := first_valid hk
      obtain ⟨x, hx, hx'⟩ := List.any_eq_true.1 h2
      simp [hv x (List.mem_range.1 hx) k h1] at hx'
    · obtain ⟨h1, h2⟩ := last_valid hk
      obtain ⟨x, hx, hx'⟩ := List.any_eq_true.1 h2
      simp [hv x (List.mem_range.1 hx) k h1] at hx'
  exact ⟨⟨hi, fun k hk => absurd hk (hr k).1, fun k hk => absurd hk (hr k).2⟩, hj, fun k hk => absurd hk (hc k).1, fun k hk => absurd hk (hc k).2⟩

/-! ## Witnesses -/

/-- A heat map of the data 5 after one of the data 7 with a logarithmic scale: it has that scale, with the limits of the data 7. -/
example : (draw (after ⟨fun _ => none, fun _ => none⟩ [⟨7, true, false, false, 0, 0⟩]) ⟨5, false, false, false, 0, 0⟩).2 = ⟨5, some 7, none⟩ ∧
    (draw (D := ℕ) ⟨fun _ => none, fun _ => none⟩ ⟨5, false, false, false, 0, 0⟩).2 = ⟨5, none, none⟩ := by decide

/-- With a dictionary of its own it has not. -/
example : (draw (after ⟨fun _ => none, fun _ => none⟩ [⟨7, true, false, false, 0, 0⟩]) ⟨5, false, false, false, 1, 0⟩).2 = ⟨5, none, none⟩ := by
  decide

end Verif.Heatmap
