import Verif.Model.Saving
import Mathlib.Tactic.NormNum
import Mathlib.Tactic.Push
import Mathlib.Data.List.Nodup

/-!
# C140, C141: saved cells and the names of saved data
-/

namespace Verif.Saving

section Select

variable {V : Type*}

/-- The number of a cell as Python reads it: negative numbers count from the end. -/
def cellNo (n : ℕ) (j : ℤ) : ℕ := (if j < 0 then n + j else j).toNat

/-- Specification: the cells a user asks for. -/
def Wanted (n : ℕ) : Choice → List ℕ
  | .bool true => List.range n
  | .bool false => []
  | .int j => [cellNo n j]
  | .list l => l.map (cellNo n)
  | .slice a b => (List.range n).filter fun k =>
      decide ((∀ x ∈ a, (if x < 0 then (n : ℤ) + x else x) ≤ k) ∧ ∀ x ∈ b, (k : ℤ) < if x < 0 then (n : ℤ) + x else x)

/-- The numbers in a choice of cells; those of slices may be out of range. -/
def numbers : Choice → List ℤ
  | .int j => [j]
  | .list l => l
  | _ => []

theorem filter_between (n A B : ℕ) :
    ((List.range n).filter fun k => decide (A ≤ k ∧ k < B)) = ((List.range n).take B).drop A := by
  induction n with
  | zero => simp
  | succ n ih =>
    rw [List.range_succ, List.filter_append, ih]
    by_cases h2 : n < B
    · have e1 : (List.range n).take B = List.range n := List.take_of_length_le (by simp; omega)
      have e2 : (List.range n ++ [n]).take B = List.range n ++ [n] := List.take_of_length_le (by simp; omega)
      rw [e1, e2]
      by_cases h1 : A ≤ n
      · rw [List.drop_append_of_le_length (by simpa using h1)]
        simp [h1, h2]
      · rw [List.drop_eq_nil_of_le (by simp; omega), List.drop_eq_nil_of_le (by simp; omega)]
        simp [h1]
    · rw [List.take_append_of_le_length (by simp; omega)]
      simp [h2]

theorem column_some {cols : List V} {j : ℤ} (h1 : -(cols.length : ℤ) ≤ j) (h2 : j < cols.length) :
    ∃ v, column cols j = some v ∧ cols[cellNo cols.length j]? = some v := by
  unfold column cellNo
  by_cases h : 0 ≤ j
  · rw [if_pos h, if_neg (by omega)]
    have : j.toNat < cols.length := by omega
    exact ⟨cols[j.toNat], by simp [this], by simp [this]⟩
  · rw [if_neg h, if_pos h1, if_pos (by omega)]
    have : (cols.length + j).toNat < cols.length := by omega
    exact ⟨cols[(cols.length + j).toNat], by simp [this], by simp [this]⟩

theorem mapM_column {cols : List V} (l : List ℤ) (h : ∀ j ∈ l, -(cols.length : ℤ) ≤ j ∧ j < cols.length) :
    ∃ r, l.mapM (column cols) = some r ∧ r.map some = (l.map (cellNo cols.length)).map (cols[·]?) := by
  induction l with
  | nil => exact ⟨[], by simp, rfl⟩
  | cons j l ih =>
    obtain ⟨r, h1, h2⟩ := ih fun j hj => h j (List.mem_cons_of_mem _ hj)
    obtain ⟨v, h3, h4⟩ := column_some (h j List.mem_cons_self).1 (h j List.mem_cons_self).2
    exact ⟨v :: r, by simp [h1, h3], by simp [h2, h4]⟩

theorem map_drop_take_range (cols : List V) (A B : ℕ) :
    (((List.range cols.length).take B).drop A).map (cols[·]?) = ((cols.take B).drop A).map some := by
  have e : (List.range cols.length).map (cols[·]?) = cols.map some := by
    apply List.ext_getElem
    · simp
    · intro i h1 h2; simp
  rw [List.map_drop, List.map_take, e, ← List.map_take, ← List.map_drop]

theorem select_wanted {c : Choice} {cols : List V} (hn : cols.length ≠ 1)
    (h : ∀ j ∈ numbers c, -(cols.length : ℤ) ≤ j ∧ j < cols.length) :
    ∃ l, select c cols = some l ∧ l.map some = (Wanted cols.length c).map (cols[·]?) := by
  cases c with
  | bool b =>
    cases b with
    | false => exact ⟨[], rfl, rfl⟩
    | true =>
      refine ⟨cols, rfl, ?_⟩
      have := map_drop_take_range cols 0 cols.length
      simpa [Wanted, List.take_of_length_le] using this.symm
  | int j =>
    obtain ⟨v, h1, h2⟩ := column_some (h j (by simp [numbers])).1 (h j (by simp [numbers])).2
    exact ⟨[v], by simp [select, hn, h1], by simp [Wanted, h2]⟩
  | list l =>
    obtain ⟨r, h1, h2⟩ := mapM_column l h
    exact ⟨r, by simp only [select, if_neg hn, h1], by simpa [Wanted] using h2⟩
  | slice a b =>
    refine ⟨_, by simp only [select, if_neg hn]; rfl, ?_⟩
    rw [← map_drop_take_range, ← filter_between]
    congr 1
    unfold Wanted
    apply List.filter_congr
    intro k hk
    have hk : k < cols.length := by simpa using hk
    have e1 : clampIdx cols.length (a.getD 0) ≤ k ↔
        ∀ x ∈ a, (if x < 0 then (cols.length : ℤ) + x else x) ≤ k := by
      cases a with
      | none => simp [clampIdx]
      | some x =>
        simp only [clampIdx, Option.getD_some, Option.mem_some_iff, forall_eq']
        split <;> omega
    have e2 : k < clampIdx cols.length (b.getD cols.length) ↔
        ∀ x ∈ b, (k : ℤ) < if x < 0 then (cols.length : ℤ) + x else x := by
      cases b with
      | none =>
        simp only [clampIdx, Option.getD_none, Option.not_mem_none, false_imp_iff, implies_true, iff_true]
        split <;> omega
      | some x =>
        simp only [clampIdx, Option.getD_some, Option.mem_some_iff, forall_eq']
        split <;> omega
    exact decide_eq_decide.2 (and_congr e1 e2)

theorem register_accepted {e : Env} {name : String} (h : (register e name).2 = true) :
    e.added name = false ∧ (register e name).1 = { e with added := Function.update e.added name true } := by
  unfold register at h ⊢
  by_cases hb : e.added name = true
  · rw [if_pos hb] at h; cases h
  · rw [if_neg hb]; exact ⟨by simpa using hb, rfl⟩

/-- The choice that is written down: without `grid_points` it is all or nothing. -/
def effective (grid : Option ℕ) (c : Choice) : Choice := if grid.isSome then c else .bool (truthy c)

theorem addPart_accepted {e : Env} {name : String} {grid : Option ℕ} {c : Choice}
    (h : (addPart e name grid c).2 = true) :
    e.added name = false ∧
      (addPart e name grid c).1 =
        ⟨Function.update e.chosen name (some (effective grid c)), Function.update e.added name true⟩ ∧
      ∀ j ∈ numbers (effective grid c), j < (grid.getD 1 : ℕ) := by
  unfold effective
  unfold addPart at h ⊢
  generalize hc : (if grid.isSome = true then c else Choice.bool (truthy c)) = c' at h ⊢
  cases c' with
  | bool b =>
    obtain ⟨h1, h2⟩ := register_accepted h
    exact ⟨h1, h2, by simp [numbers]⟩
  | slice a b =>
    obtain ⟨h1, h2⟩ := register_accepted h
    exact ⟨h1, h2, by simp [numbers]⟩
  | int j =>
    simp only at h ⊢
    by_cases hj : j < ((grid.getD 1 : ℕ) : ℤ)
    · rw [if_pos hj] at h ⊢
      obtain ⟨h1, h2⟩ := register_accepted h
      exact ⟨h1, h2, by simpa [numbers] using hj⟩
    · rw [if_neg hj] at h; cases h
  | list l =>
    simp only at h ⊢
    by_cases hj : ∀ j ∈ l, j < ((grid.getD 1 : ℕ) : ℤ)
    · rw [if_pos hj] at h ⊢
      obtain ⟨h1, h2⟩ := register_accepted h
      exact ⟨h1, h2, hj⟩
    · rw [if_neg hj] at h; cases h

/-- No call is refused. -/
def AllAccepted (e : Env) : List Call → Prop
  | [] => True
  | c :: cs => (addPart e c.name c.grid c.choice).2 = true ∧ AllAccepted (addPart e c.name c.grid c.choice).1 cs

theorem addAll_keeps {e : Env} {calls : List Call} (h : AllAccepted e calls) {name : String}
    (hn : e.added name = true) : (addAll e calls).chosen name = e.chosen name := by
  induction calls generalizing e with
  | nil => rfl
  | cons c cs ih =>
    obtain ⟨h1, h2⟩ := h
    obtain ⟨h3, h4, -⟩ := addPart_accepted h1
    have hne : name ≠ c.name := by rintro rfl; rw [hn] at h3; cases h3
    rw [addAll, ih h2 (by rw [h4]; simp [Function.update_of_ne hne, hn]), h4]
    simp [Function.update_of_ne hne]

theorem addAll_chosen {e : Env} {calls : List Call} (h : AllAccepted e calls) {c : Call} (hc : c ∈ calls) :
    (addAll e calls).chosen c.name = some (effective c.grid c.choice) ∧
      ∀ j ∈ numbers (effective c.grid c.choice), j < (c.grid.getD 1 : ℕ) := by
  induction calls generalizing e with
  | nil => cases hc
  | cons d cs ih =>
    obtain ⟨h1, h2⟩ := h
    rcases List.mem_cons.1 hc with rfl | hc
    · obtain ⟨-, h4, h5⟩ := addPart_accepted h1
      refine ⟨?_, h5⟩
      rw [addAll, addAll_keeps h2 (by rw [h4]; simp), h4]
      simp
    · exact ih h2 hc

theorem finalStore_get {f : String → Option Choice} {tables : List ((String × String) × List V)}
    (hk : (tables.map Prod.fst).Nodup)
    (h : ∀ t ∈ tables, ∃ l, ((f t.1.1).bind fun c => select c t.2) = some l) :
    ∃ st, finalStore true f tables = some st ∧ (∀ x ∈ st, x.1 ∈ tables.map Prod.fst) ∧
      ∀ t ∈ tables, ∀ l, ((f t.1.1).bind fun c => select c t.2) = some l →
        get st t.1 = if l.isEmpty then none else some l := by
  induction tables with
  | nil => exact ⟨[], rfl, by simp, by simp⟩
  | cons t ts ih =>
    obtain ⟨hk1, hk2⟩ := List.nodup_cons.1 (by simpa using hk : (t.1 :: ts.map Prod.fst).Nodup)
    obtain ⟨st, h1, h2, h3⟩ := ih hk2 fun t ht => h t (List.mem_cons_of_mem _ ht)
    obtain ⟨l, hl⟩ := h t List.mem_cons_self
    have e : finalStore true f (t :: ts) = some (if l.isEmpty then st else (t.1, l) :: st) := by
      obtain ⟨k, cols⟩ := t
      simp only [finalStore, if_true]
      simp only at hl
      rw [hl, h1]
      rfl
    have hnot : get st t.1 = none := by
      unfold get
      rw [Option.map_eq_none_iff, List.find?_eq_none]
      intro x hx hx'
      exact hk1 (by rw [← of_decide_eq_true hx']; exact h2 x hx)
    refine ⟨_, e, ?_, ?_⟩
    · intro x hx
      split at hx
      · exact List.mem_cons_of_mem _ (h2 x hx)
      · rcases List.mem_cons.1 hx with rfl | hx
        · exact List.mem_cons_self
        · exact List.mem_cons_of_mem _ (h2 x hx)
    · intro t' ht' l' hl'
      rcases List.mem_cons.1 ht' with rfl | ht'
      · rw [hl] at hl'
        cases hl'
        cases he : l.isEmpty with
        | true => simpa [he] using hnot
        | false => simp [get]
      · have hne : t.1 ≠ t'.1 := fun he => hk1 (he ▸ List.mem_map_of_mem ht')
        rw [← h3 t' ht' l' hl']
        split
        · rfl
        · simp [get, hne]

/-- **C140**, partial: with compression, the saved tables of a part contain the cells that were asked for, in the order
asked for, and tables without such cells are missing.  For all sequences of accepted calls and all tables, for parts
with `grid_points` whose tables have one column per cell (at least two cells) or a single column — these are saved
whole unless the part is not to be saved — and for other parts, if the choice is all or nothing.  Missing: numeric heat
exchangers, choices of cells of other parts, numbers below the range, refused calls, stores without compression. -/
theorem C140_saved_partial {calls : List Call} (h : AllAccepted Env.empty calls)
    {tables : List ((String × String) × List V)} (hk : (tables.map Prod.fst).Nodup)
    (howned : ∀ t ∈ tables, ∃ c ∈ calls, c.name = t.1.1)
    (hgrid : ∀ c ∈ calls, ∀ n ∈ c.grid, 2 ≤ n ∧ (∀ j ∈ numbers c.choice, -(n : ℤ) ≤ j) ∧
      ∀ t ∈ tables, t.1.1 = c.name → t.2.length = n ∨ t.2.length = 1)
    (hfix : ∀ c ∈ calls, c.grid = none → ∃ b, c.choice = .bool b) :
    ∃ st, finalStore true (addAll Env.empty calls).chosen tables = some st ∧
      ∀ t ∈ tables, ∀ c ∈ calls, c.name = t.1.1 → get st t.1 ≠ some [] ∧
        ((c.grid = none ∨ c.grid = some t.2.length) →
          ((get st t.1).getD []).map some = (Wanted t.2.length c.choice).map (t.2[·]?)) ∧
        (t.2.length = 1 → (get st t.1).getD [] = match c.choice with | .bool false => [] | _ => t.2) := by
  have key : ∀ t ∈ tables, ∀ c ∈ calls, c.name = t.1.1 →
      (addAll Env.empty calls).chosen t.1.1 = some c.choice ∧ ∃ l, select c.choice t.2 = some l ∧
        ((c.grid = none ∨ c.grid = some t.2.length) → l.map some = (Wanted t.2.length c.choice).map (t.2[·]?)) ∧
        (t.2.length = 1 → l = match c.choice with | .bool false => [] | _ => t.2) := by
    intro t ht c hc hct
    obtain ⟨h1, h2⟩ := addAll_chosen h hc
    have eff : effective c.grid c.choice = c.choice := by
      cases hg : c.grid with
      | some n => simp [effective]
      | none =>
        obtain ⟨b, hb⟩ := hfix c hc hg
        simp [effective, hb, truthy]
    rw [eff] at h1 h2
    refine ⟨hct ▸ h1, ?_⟩
    have one : t.2.length = 1 → select c.choice t.2 = some (match c.choice with | .bool false => [] | _ => t.2) := by
      intro h
      cases hcc : c.choice with
      | bool b => cases b <;> rfl
      | int j => simp [select, h]
      | list l => simp [select, h]
      | slice a b => simp [select, h]
    cases hg : c.grid with
    | none =>
      obtain ⟨b, hb⟩ := hfix c hc hg
      have all : ∀ cols : List V, cols.map some = (Wanted cols.length (.bool true)).map (cols[·]?) := by
        intro cols
        have := map_drop_take_range cols 0 cols.length
        simpa [Wanted, List.take_of_length_le] using this.symm
      cases b with
      | false => exact ⟨[], by rw [hb]; rfl, fun _ => by rw [hb]; rfl, fun _ => by rw [hb]⟩
      | true => exact ⟨t.2, by rw [hb]; rfl, fun _ => by rw [hb]; exact all _, fun _ => by rw [hb]⟩
    | some n =>
      obtain ⟨hn, hlow, hlen⟩ := hgrid c hc n hg
      rcases hlen t ht hct.symm with hl | hl
      · rw [hg] at h2
        obtain ⟨l, hl1, hl2⟩ := select_wanted (c := c.choice) (cols := t.2) (by omega)
          (fun j hj => ⟨by rw [hl]; exact hlow j hj, by rw [hl]; exact h2 j hj⟩)
        exact ⟨l, hl1, fun _ => hl2, fun h => by omega⟩
      · refine ⟨_, one hl, fun h => ?_, fun _ => rfl⟩
        rcases h with h | h
        · cases h
        · rw [Option.some.injEq] at h; omega
  obtain ⟨st, hs, -, hg⟩ := finalStore_get (f := (addAll Env.empty calls).chosen) hk (by
    intro t ht
    obtain ⟨c, hc, hct⟩ := howned t ht
    obtain ⟨h1, l, h2, -⟩ := key t ht c hc hct
    exact ⟨l, by rw [h1]; exact h2⟩)
  refine ⟨st, hs, fun t ht c hc hct => ?_⟩
  obtain ⟨h1, l, h2, h3, h4⟩ := key t ht c hc hct
  have := hg t ht l (by rw [h1]; exact h2)
  have e : (get st t.1).getD [] = l := by
    rw [this]
    cases l with
    | nil => rfl
    | cons a l => rfl
  refine ⟨?_, fun h => by rw [e]; exact h3 h, fun h => by rw [e]; exact h4 h⟩
  rw [this]
  cases l with
  | nil => simp
  | cons a l => simp

/-- **C140** is false of numeric heat exchangers: the choice of any row behind the second one is accepted and lets the
finalisation of the simulation fail, because it is applied to the two columns of mass flows, too. -/
theorem C140_fails_heat_exchanger {n j : ℕ} (h1 : 2 ≤ j) (h2 : j < n) {res dm : List V} (hd : dm.length = 2)
    (name : String) :
    let a := addPart Env.empty name (some n) (.int j)
    a.2 = true ∧ finalStore true a.1.chosen [((name, "dm"), dm), ((name, "res"), res)] = none := by
  have hj : ((j : ℕ) : ℤ) < ((n : ℕ) : ℤ) := by exact_mod_cast h2
  have hc : column dm (j : ℤ) = none := by simp [column]; omega
  refine ⟨by simp [addPart, hj, register, Env.empty], ?_⟩
  simp [finalStore, addPart, hj, register, Env.empty, select, hd, hc]

/-- **C140** is false of numeric heat exchangers: the cells of the saved table have numbers up to three times the
number of rows, but those from the number of rows on are refused. -/
theorem C140_fails_rows {n j : ℕ} (h : n ≤ j) (e : Env) (name : String) :
    (addPart e name (some n) (.int j)).2 = false := by
  have : ¬ ((j : ℕ) : ℤ) < ((n : ℕ) : ℤ) := by omega
  simp [addPart, this]

/-- **C140** is false for numbers below the range: they are accepted and let the finalisation fail. -/
theorem C140_fails_negative {n : ℕ} {j : ℤ} (hn : 2 ≤ n) (h : j < -(n : ℤ)) {res : List V} (hr : res.length = n)
    (name : String) :
    let a := addPart Env.empty name (some n) (.int j)
    a.2 = true ∧ finalStore true a.1.chosen [((name, "res"), res)] = none := by
  have hj : j < ((n : ℕ) : ℤ) := by omega
  have hc : column res j = none := by
    unfold column
    rw [if_neg (by omega), if_neg (by omega)]
  have h1 : res.length ≠ 1 := by omega
  refine ⟨by simp [addPart, hj, register, Env.empty], ?_⟩
  simp [finalStore, addPart, hj, register, Env.empty, select, h1, hc]

/-- **C140** is false of pumps, valves, connectors and heat exchangers without grid: the choice of the first cell by
its number saves nothing, its choice by a list saves all cells. -/
theorem C140_fails_other_parts (name : String) (cols : List V) :
    finalStore true (addPart Env.empty name none (.int 0)).1.chosen [((name, "res"), cols)] = some [] ∧
      (cols ≠ [] → finalStore true (addPart Env.empty name none (.list [0])).1.chosen [((name, "res"), cols)] =
        some [((name, "res"), cols)]) := by
  refine ⟨by simp [finalStore, addPart, register, Env.empty, truthy, select], fun h => ?_⟩
  simp [finalStore, addPart, register, Env.empty, truthy, select, h]

/-- **C140** is false after a refused call: a second part of the same name is refused, but its choice of cells replaces
the one of the first part. -/
theorem C140_fails_refused (name : String) (m n : ℕ) (a b : Option ℤ) (c : Bool) :
    let first := addPart Env.empty name (some m) (.slice a b)
    let second := addPart first.1 name (some n) (.bool c)
    first.2 = true ∧ second.2 = false ∧ second.1.chosen name = some (.bool c) := by
  simp [addPart, register, Env.empty]

/-- **C140** is false without compression: everything is saved, whatever was chosen. -/
theorem C140_fails_uncompressed (f : String → Option Choice) (tables : List ((String × String) × List V))
    (h : ∀ t ∈ tables, t.2 ≠ []) : finalStore false f tables = some tables := by
  induction tables with
  | nil => rfl
  | cons t ts ih =>
    obtain ⟨k, cols⟩ := t
    have h1 : cols ≠ [] := h (k, cols) List.mem_cons_self
    simp only [finalStore]
    rw [ih fun t ht => h t (List.mem_cons_of_mem _ ht)]
    simp [h1]

/-- A storage of five cells of which the first, the third and the last are saved, a pipe of three cells of which the
last two are saved, and a pump which is not saved. -/
example : finalStore true (addAll Env.empty
      [⟨"tes", some 5, .list [0, 2, -1]⟩, ⟨"pipe", some 3, .slice (some (-2)) none⟩, ⟨"pump", none, .bool false⟩]).chosen
      [(("tes", "res"), [10, 11, 12, 13, 14]), (("pipe", "dm"), [7]), (("pipe", "res"), [20, 21, 22]),
        (("pump", "res"), [30, 31])] =
    some [(("tes", "res"), [10, 12, 14]), (("pipe", "dm"), [7]), (("pipe", "res"), [21, 22])] := by decide +kernel

example : AllAccepted Env.empty
    [⟨"tes", some 5, .list [0, 2, -1]⟩, ⟨"pipe", some 3, .slice (some (-2)) none⟩, ⟨"pump", none, .bool false⟩] := by
  refine ⟨by decide, by decide, by decide, trivial⟩

end Select

section Names

variable {V : Type*}

/-- The simulation whose data are in the store: parts with their two tables, meters, the vectors. -/
structure Saved (V : Type*) where
  parts : List (Name × V × V)
  meters : List (Name × V)
  vecs : V

/-- Specification: what the store contains, in whatever order. -/
def Contains (st : Store V) (d : Saved V) : Prop :=
  (st.map Prod.fst).Nodup ∧ ∀ k v, (k, v) ∈ st ↔
    (∃ p ∈ d.parts, k = key p.1 "res".toList ∧ v = p.2.1 ∨ k = key p.1 "dm".toList ∧ v = p.2.2) ∨
      (∃ m ∈ d.meters, k = key metersName m.1 ∧ v = m.2) ∨ (k = '/' :: vecsName ∧ v = d.vecs)

theorem store_get {st : Store V} (h : (st.map Prod.fst).Nodup) {k : Name} {v : V} (hv : (k, v) ∈ st) :
    st.get k = some v := by
  induction st with
  | nil => cases hv
  | cons x t ih =>
    obtain ⟨h1, h2⟩ := List.nodup_cons.1 (by simpa using h : (x.1 :: t.map Prod.fst).Nodup)
    rcases List.mem_cons.1 hv with rfl | hv
    · simp [Store.get]
    · have hne : x.1 ≠ k := fun e => h1 (e ▸ List.mem_map_of_mem (f := Prod.fst) hv)
      have := ih h2 hv
      unfold Store.get at this ⊢
      rw [List.find?_cons_of_neg (by simpa using hne)]
      exact this

/-- A word without slash inside a path is inside one of its pieces. -/
theorem infix_pieces {w a b : Name} (hw : '/' ∉ w) (h : w <:+: a ++ '/' :: b) : w <:+: a ∨ w <:+: b := by
  obtain ⟨s, t, h⟩ := h
  rcases List.append_eq_append_iff.1 h with ⟨d, h1, h2⟩ | ⟨d, h1, h2⟩
  · exact Or.inl ⟨s, d, h1.symm⟩
  · cases d with
    | nil => exact Or.inl ⟨s, [], by simpa using h1⟩
    | cons x d =>
      obtain ⟨rfl, h3⟩ := List.cons.inj h2
      rcases List.append_eq_append_iff.1 h1 with ⟨e, h4, h5⟩ | ⟨e, h4, h5⟩
      · exact absurd (by rw [h5]; simp) hw
      · cases e with
        | nil =>
          rw [List.nil_append] at h5
          exact absurd (by rw [← h5]; simp) hw
        | cons y e =>
          obtain ⟨rfl, h6⟩ := List.cons.inj h5
          exact Or.inr ⟨e, t, by rw [h3, h6]; rfl⟩

theorem infix_key {w a b : Name} (hw : '/' ∉ w) (hne : w ≠ []) (h : w <:+: key a b) : w <:+: a ∨ w <:+: b := by
  rcases infix_pieces (a := []) hw (by simpa [key] using h) with h | h
  · exact absurd (List.infix_nil.1 h) hne
  · exact infix_pieces hw h

theorem slash_meters : '/' ∉ metersName := by decide

theorem meters_ne_nil : metersName ≠ [] := by decide

theorem meters_in_key (m : Name) : metersName <:+: key metersName m := ⟨['/'], '/' :: m, by simp [key]⟩

/-- The third piece of the key of a table. -/
theorem third_piece {a b : Name} (ha : '/' ∉ a) (hb : '/' ∉ b) : ((key a b).splitOn '/').getD 2 [] = b := by
  have : (key a b).splitOn '/' = [[], a, b] := by
    have e : key a b = ['/'].intercalate [[], a, b] := by simp [key, List.intercalate]
    rw [e]
    exact List.splitOn_intercalate '/' (by simp [ha, hb]) (by simp)
  rw [this]
  rfl

theorem key_inj {a b c d : Name} (ha : '/' ∉ a) (hc : '/' ∉ c) (h : key a b = key c d) : a = c ∧ b = d := by
  have h := (List.cons.inj h).2
  rcases List.append_eq_append_iff.1 h with ⟨e, h1, h2⟩ | ⟨e, h1, h2⟩
  · cases e with
    | nil => simp at h1 h2; exact ⟨h1.symm, h2⟩
    | cons x e =>
      obtain ⟨rfl, -⟩ := List.cons.inj h2
      exact absurd (by rw [h1]; simp) hc
  · cases e with
    | nil => simp at h1 h2; exact ⟨h1, h2.symm⟩
    | cons x e =>
      obtain ⟨rfl, -⟩ := List.cons.inj h2
      exact absurd (by rw [h1]; simp) ha

/-- **C141**, partial: every part is returned with its own tables.  For all plants, all meters and all orders of the
store; missing: parts named `meters` or `sim_vecs`.  (Names of parts contain no slash, `simenv.py:798`.) -/
theorem C141_parts_partial {st : Store V} {d : Saved V} (h : Contains st d) {p : Name × V × V} (hp : p ∈ d.parts)
    (h1 : p.1 ≠ metersName) (h2 : p.1 ≠ vecsName) :
    returned st (d.parts.map Prod.fst) p.1 = some (.part p.2.1 p.2.2) := by
  have r := store_get h.1 ((h.2 _ _).2 (Or.inl ⟨p, hp, Or.inl ⟨rfl, rfl⟩⟩))
  have m := store_get h.1 ((h.2 _ _).2 (Or.inl ⟨p, hp, Or.inr ⟨rfl, rfl⟩⟩))
  unfold returned
  rw [if_neg (by simp [h1]), if_neg h2, if_pos (List.mem_map_of_mem hp), r, m]

/-- **C141**: the vectors of the simulation are returned under their name. -/
theorem C141_vectors {st : Store V} {d : Saved V} (h : Contains st d) (parts : List Name) :
    returned st parts vecsName = some (.vecs d.vecs) := by
  have r := store_get h.1 ((h.2 _ _).2 (Or.inr (Or.inr ⟨rfl, rfl⟩)))
  unfold returned
  rw [if_neg (by rintro ⟨h, -⟩; revert h; decide), if_pos rfl, r]
  rfl

theorem metersOf_spec {st : Store V} (m : Name → Option V)
    (hu : (st.filter fun x => decide (metersName <:+: x.1)).Pairwise
      fun x y => (x.1.splitOn '/').getD 2 [] ≠ (y.1.splitOn '/').getD 2 []) (n : Name) :
    (∀ x ∈ st, metersName <:+: x.1 → (x.1.splitOn '/').getD 2 [] = n → metersOf st m n = some x.2) ∧
      ((∀ x ∈ st, metersName <:+: x.1 → (x.1.splitOn '/').getD 2 [] ≠ n) → metersOf st m n = m n) := by
  induction st generalizing m with
  | nil => exact ⟨by simp, fun _ => rfl⟩
  | cons y t ih =>
    obtain ⟨k, v⟩ := y
    by_cases hk : metersName <:+: k
    · have hu' : ((k, v) :: t.filter fun x => decide (metersName <:+: x.1)).Pairwise
          fun x y => (x.1.splitOn '/').getD 2 [] ≠ (y.1.splitOn '/').getD 2 [] := by
        rw [List.filter_cons_of_pos (by simpa using hk)] at hu; exact hu
      obtain ⟨hu1, hu2⟩ := List.pairwise_cons.1 hu'
      obtain ⟨i1, i2⟩ := ih (Function.update m ((k.splitOn '/').getD 2 []) (some v)) hu2
      rw [metersOf, if_pos hk]
      constructor
      · intro x hx hm hn
        rcases List.mem_cons.1 hx with rfl | hx
        · rw [i2 fun z hz hz' hzn => hu1 z (List.mem_filter.2 ⟨hz, by simpa using hz'⟩) (by rw [hzn]; exact hn), ← hn]
          simp
        · exact i1 x hx hm hn
      · intro hall
        rw [i2 fun z hz => hall z (List.mem_cons_of_mem _ hz)]
        have := hall (k, v) List.mem_cons_self hk
        exact Function.update_of_ne (Ne.symm this) _ _
    · have hu' : (t.filter fun x => decide (metersName <:+: x.1)).Pairwise
          fun x y => (x.1.splitOn '/').getD 2 [] ≠ (y.1.splitOn '/').getD 2 [] := by
        rw [List.filter_cons_of_neg (by simpa using hk)] at hu; exact hu
      obtain ⟨i1, i2⟩ := ih m hu'
      rw [metersOf, if_neg hk]
      constructor
      · intro x hx hm hn
        rcases List.mem_cons.1 hx with rfl | hx
        · exact absurd hm hk
        · exact i1 x hx hm hn
      · intro hall
        exact i2 fun z hz => hall z (List.mem_cons_of_mem _ hz)

/-- **C141**, partial: the dictionary of meters contains the meters under their names, and nothing else.  For all
plants, all meters and all orders of the store; missing: parts whose name contains `meters`, meters whose name
contains a slash. -/
theorem C141_meters_partial {st : Store V} {d : Saved V} (h : Contains st d) (parts : List Name)
    (hp : ∀ p ∈ d.parts, ¬ metersName <:+: p.1) (hm : ∀ m ∈ d.meters, '/' ∉ m.1) (hne : d.meters ≠ []) :
    ∃ m, returned st parts metersName = some (.meters m) ∧ ∀ n v, m n = some v ↔ (n, v) ∈ d.meters := by
  have isM : ∀ x ∈ st, metersName <:+: x.1 → ∃ m ∈ d.meters, x.1 = key metersName m.1 ∧ x.2 = m.2 := by
    intro x hx hi
    rcases (h.2 x.1 x.2).1 hx with ⟨p, hp', (⟨e, -⟩ | ⟨e, -⟩)⟩ | ⟨m, hm', e⟩ | ⟨e, -⟩
    · rw [e] at hi
      rcases infix_key slash_meters meters_ne_nil hi with h | h
      · exact absurd h (hp p hp')
      · exact absurd h (by decide)
    · rw [e] at hi
      rcases infix_key slash_meters meters_ne_nil hi with h | h
      · exact absurd h (hp p hp')
      · exact absurd h (by decide)
    · exact ⟨m, hm', e⟩
    · rw [e] at hi
      exact absurd hi (by decide)
  have piece : ∀ m ∈ d.meters, ((key metersName m.1).splitOn '/').getD 2 [] = m.1 := fun m hm' =>
    third_piece slash_meters (hm m hm')
  have hu : (st.filter fun x => decide (metersName <:+: x.1)).Pairwise
      fun x y => (x.1.splitOn '/').getD 2 [] ≠ (y.1.splitOn '/').getD 2 [] := by
    have hnd : st.Pairwise fun x y => x.1 ≠ y.1 := by
      have := h.1
      rwa [List.Nodup, List.pairwise_map] at this
    refine List.Pairwise.imp_of_mem ?_ (hnd.sublist List.filter_sublist)
    intro x y hx hy hxy he
    obtain ⟨hx1, hx2⟩ := List.mem_filter.1 hx
    obtain ⟨hy1, hy2⟩ := List.mem_filter.1 hy
    obtain ⟨m, hm', e1, -⟩ := isM x hx1 (of_decide_eq_true hx2)
    obtain ⟨m', hm'', e2, -⟩ := isM y hy1 (of_decide_eq_true hy2)
    rw [e1, e2, piece m hm', piece m' hm''] at he
    exact hxy (by rw [e1, e2, he])
  obtain ⟨m0, hm0⟩ := List.exists_mem_of_ne_nil _ hne
  have inSt : ∀ m ∈ d.meters, (key metersName m.1, m.2) ∈ st := fun m hm' =>
    (h.2 _ _).2 (Or.inr (Or.inl ⟨m, hm', rfl, rfl⟩))
  refine ⟨metersOf st fun _ => none, ?_, ?_⟩
  · unfold returned
    rw [if_pos ⟨rfl, _, inSt m0 hm0, meters_in_key _⟩]
  · intro n v
    obtain ⟨s1, s2⟩ := metersOf_spec (st := st) (fun _ => none) hu n
    constructor
    · intro hv
      by_cases hex : ∃ x ∈ st, metersName <:+: x.1 ∧ (x.1.splitOn '/').getD 2 [] = n
      · obtain ⟨x, hx, hi, hn⟩ := hex
        rw [s1 x hx hi hn] at hv
        obtain ⟨m, hm', e1, e2⟩ := isM x hx hi
        rw [e1, piece m hm'] at hn
        have e3 := Option.some.inj hv
        rw [← hn, ← e3, e2]
        exact hm'
      · push Not at hex
        rw [s2 hex] at hv
        cases hv
    · intro hv
      exact s1 _ (inSt _ hv) (meters_in_key _) (piece _ hv)

/-- **C141** is false of a part named `meters`: its results are not returned. -/
theorem C141_fails_part_meters {st : Store V} {d : Saved V} (h : Contains st d) {p : Name × V × V} (hp : p ∈ d.parts)
    (h1 : p.1 = metersName) : ∃ m, returned st (d.parts.map Prod.fst) p.1 = some (.meters m) := by
  refine ⟨metersOf st fun _ => none, ?_⟩
  unfold returned
  rw [if_pos ⟨h1, _, (h.2 _ _).2 (Or.inl ⟨p, hp, Or.inl ⟨rfl, rfl⟩⟩), h1 ▸ meters_in_key _⟩]

/-- **C141** is false of a part named `sim_vecs`: its results are not returned. -/
theorem C141_fails_part_vectors {st : Store V} {d : Saved V} (h : Contains st d) {p : Name × V × V}
    (_hp : p ∈ d.parts) (h1 : p.1 = vecsName) : returned st (d.parts.map Prod.fst) p.1 = some (.vecs d.vecs) :=
  h1 ▸ C141_vectors h _

/-- **C141** is false if the name of a part contains `meters`: its tables are returned as meters `res` and `dm`, also if
there are no meters at all. -/
theorem C141_fails_name :
    ∃ m, returned (V := ℕ) [("/heatmeters/dm".toList, 1), ("/heatmeters/res".toList, 2), ("/sim_vecs".toList, 3)]
      ["heatmeters".toList] metersName = some (.meters m) ∧ m "res".toList = some 2 ∧ m "dm".toList = some 1 := by
  refine ⟨_, rfl, ?_, ?_⟩ <;> decide

/-- **C141** is false if the name of a meter contains a slash: it is returned under another name and replaces the
meter of that name. -/
theorem C141_fails_slash :
    ∃ m, returned (V := ℕ) [("/meters/flow".toList, 1), ("/meters/flow/hot".toList, 2), ("/sim_vecs".toList, 3)]
      [] metersName = some (.meters m) ∧ m "flow".toList = some 2 ∧ m "flow/hot".toList = none := by
  refine ⟨_, rfl, ?_, ?_⟩ <;> decide

/-- A store of the data. -/
def storeOf (d : Saved V) : Store V :=
  (d.parts.flatMap fun p => [(key p.1 "res".toList, p.2.1), (key p.1 "dm".toList, p.2.2)]) ++
    d.meters.map (fun m => (key metersName m.1, m.2)) ++ [('/' :: vecsName, d.vecs)]

theorem contains_storeOf {d : Saved V} (h : ((storeOf d).map Prod.fst).Nodup) : Contains (storeOf d) d := by
  refine ⟨h, fun k v => ?_⟩
  simp only [storeOf, List.mem_append, List.mem_flatMap, List.mem_map, List.mem_cons, List.not_mem_nil, or_false,
    Prod.mk.injEq, or_assoc]
  refine or_congr Iff.rfl (or_congr ?_ Iff.rfl)
  exact exists_congr fun m => and_congr_right fun _ => and_congr eq_comm eq_comm

/-- A plant with two parts and two meters. -/
example : Contains (V := ℕ)
    (storeOf ⟨[("boiler".toList, 1, 2), ("pipe".toList, 3, 4)], [("a".toList, 6), ("b".toList, 7)], 5⟩)
    ⟨[("boiler".toList, 1, 2), ("pipe".toList, 3, 4)], [("a".toList, 6), ("b".toList, 7)], 5⟩ :=
  contains_storeOf (by decide)

end Names

end Verif.Saving
