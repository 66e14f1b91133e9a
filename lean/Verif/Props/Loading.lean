import Verif.Model.Loading
import Mathlib.Data.List.Nodup
import Mathlib.Tactic.Linarith

/-!
# C145: loading saved results
-/

namespace Verif.Loading

open Verif.Saving (Name vecsName)

variable {V : Type*}

/-- Specification: the file as a set of tables with the path of their group and their name, and the keys a user may ask
for, with or without leading slash. -/
def Table (w : Walk V) (p l : Name) (v : V) : Prop := ∃ ls, (p, ls) ∈ w ∧ (l, v) ∈ ls

def Asked (keys : Option (List Name)) (p l : Name) : Prop :=
  ∀ ks, keys = some ks → ∃ k ∈ ks, k = p ++ '/' :: l ∨ '/' :: k = p ++ '/' :: l

/-- Paths as they are: empty for the root, otherwise a slash and a name. -/
def WellFormed (w : Walk V) : Prop :=
  ∀ x ∈ w, (x.1 = [] ∨ ∃ c q, x.1 = '/' :: c :: q ∧ c ≠ '/') ∧ ∀ y ∈ x.2, y.1 ≠ [] ∧ '/' ∉ y.1

theorem wanted_iff {keys : Option (List Name)} {p l : Name}
    (hp : p = [] ∧ l ≠ [] ∧ '/' ∉ l ∨ ∃ c q, p = '/' :: c :: q ∧ c ≠ '/') :
    wanted keys (p ++ '/' :: l) = true ↔ Asked keys p l := by
  have hd : ∃ c r, p ++ '/' :: l = '/' :: c :: r ∧ c ≠ '/' := by
    rcases hp with ⟨rfl, h1, h2⟩ | ⟨c, q, rfl, hc⟩
    · cases l with
      | nil => exact absurd rfl h1
      | cons c r => exact ⟨c, r, rfl, by rintro rfl; exact h2 List.mem_cons_self⟩
    · exact ⟨c, q ++ '/' :: l, rfl, hc⟩
  obtain ⟨c, r, e, hc⟩ := hd
  cases keys with
  | none => simp [wanted, Asked]
  | some ks =>
    simp only [wanted, decide_eq_true_eq, List.mem_map, Asked, Option.some.injEq, forall_eq']
    rw [e]
    constructor
    · rintro ⟨k, hk, h⟩
      refine ⟨k, hk, ?_⟩
      unfold slash at h
      split_ifs at h
      · exact Or.inl h
      · exact Or.inr h
    · rintro ⟨k, hk, h | h⟩
      · exact ⟨k, hk, by subst h; simp [slash]⟩
      · refine ⟨k, hk, ?_⟩
        cases h
        simp [slash, hc]

theorem entries_group {keys : Option (List Name)} {w : Walk V} {d : List (Name × Loaded V)} (h : entries keys w = some d) :
    ∀ n tabs, (n, Loaded.group tabs) ∈ d ↔ ∃ p ls, (p, ls) ∈ w ∧ p ≠ [] ∧ p.tail = n ∧
      tabs = ls.filter fun x => wanted keys (p ++ '/' :: x.1) := by
  induction w generalizing d with
  | nil => cases h; simp
  | cons x t ih =>
    obtain ⟨p, ls⟩ := x
    simp only [entries, Option.bind_eq_some_iff] at h
    obtain ⟨rest, h1, h2⟩ := h
    intro n tabs
    have := ih h1 n tabs
    by_cases hp : p = []
    · rw [if_pos hp] at h2
      have key : (n, Loaded.group tabs) ∈ d ↔ (n, Loaded.group tabs) ∈ rest := by
        cases ls with
        | nil => cases h2
        | cons y ys =>
          obtain ⟨l, v⟩ := y
          simp only at h2
          split_ifs at h2 <;> cases h2 <;> simp
      rw [key, this]
      constructor
      · rintro ⟨p', ls', hm, h⟩
        exact ⟨p', ls', List.mem_cons_of_mem _ hm, h⟩
      · rintro ⟨p', ls', hm, hne, h⟩
        rcases List.mem_cons.1 hm with hm | hm
        · cases hm; exact absurd hp hne
        · exact ⟨p', ls', hm, hne, h⟩
    · rw [if_neg hp] at h2
      cases h2
      rw [List.mem_cons, this]
      constructor
      · rintro (h | ⟨p', ls', hm, h⟩)
        · cases h
          exact ⟨p, ls, List.mem_cons_self, hp, rfl, rfl⟩
        · exact ⟨p', ls', List.mem_cons_of_mem _ hm, h⟩
      · rintro ⟨p', ls', hm, hne, h3, h4⟩
        rcases List.mem_cons.1 hm with hm | hm
        · cases hm
          exact Or.inl (by rw [← h3, h4])
        · exact Or.inr ⟨p', ls', hm, hne, h3, h4⟩

theorem load_spec {keys : Option (List Name)} {w : Walk V} {d : List (Name × Loaded V)} (h : load keys w = some d) :
    ∃ d', entries keys w = some d' ∧ d = d'.filter fun x => nonempty x.2 := by
  simp only [load, Option.bind_eq_some_iff] at h
  obtain ⟨d', h1, h2⟩ := h
  split_ifs at h2
  cases h2
  exact ⟨d', h1, rfl⟩

/-- **C145**: the dictionary contains, under the path of its group and its name, every table of a group that was asked
for, with its contents, and nothing else.  For all files and keys. -/
theorem C145_tables {keys : Option (List Name)} {w : Walk V} (hw : WellFormed w) {d : List (Name × Loaded V)}
    (h : load keys w = some d) (n l : Name) (v : V) :
    (∃ tabs, (n, Loaded.group tabs) ∈ d ∧ (l, v) ∈ tabs) ↔ Table w ('/' :: n) l v ∧ Asked keys ('/' :: n) l := by
  obtain ⟨d', h1, rfl⟩ := load_spec h
  constructor
  · rintro ⟨tabs, hm, hl⟩
    obtain ⟨hm, -⟩ := List.mem_filter.1 hm
    obtain ⟨p, ls, hp, hne, rfl, rfl⟩ := (entries_group h1 n tabs).1 hm
    obtain ⟨hl', hwn⟩ := List.mem_filter.1 hl
    obtain ⟨hpath, -⟩ := hw _ hp
    rcases hpath with h | ⟨c, q, hq, hc⟩
    · exact absurd h hne
    · simp only at hq
      subst hq
      exact ⟨⟨ls, hp, hl'⟩, (wanted_iff (Or.inr ⟨c, q, rfl, hc⟩)).1 hwn⟩
  · rintro ⟨⟨ls, hp, hl⟩, ha⟩
    obtain ⟨hpath, -⟩ := hw _ hp
    rcases hpath with h | ⟨c, q, hq, hc⟩
    · cases h
    · have hwn := (wanted_iff (Or.inr ⟨c, q, hq, hc⟩)).2 ha
      have hin : (l, v) ∈ ls.filter fun x => wanted keys (('/' :: n) ++ '/' :: x.1) :=
        List.mem_filter.2 ⟨hl, hwn⟩
      refine ⟨_, List.mem_filter.2 ⟨(entries_group h1 n _).2 ⟨'/' :: n, ls, hp, by simp, rfl, rfl⟩, ?_⟩, hin⟩
      simp only [nonempty, Bool.not_eq_true']
      rw [List.isEmpty_eq_false_iff]
      exact List.ne_nil_of_mem hin

theorem entries_root {keys : Option (List Name)} {w : Walk V} {l : Name} {v : V} (hn : (w.map Prod.fst).Nodup)
    (hr : ([], [(l, v)]) ∈ w) :
    ∃ d, entries keys w = some d ∧ ∀ n x, (n, Loaded.table x) ∈ d ↔ n = l ∧ x = v ∧ wanted keys ('/' :: l) = true := by
  have noroot : ∀ t : Walk V, (∀ x ∈ t, x.1 ≠ []) → ∃ d, entries keys t = some d ∧ ∀ n x, (n, Loaded.table x) ∉ d := by
    intro t
    induction t with
    | nil => exact fun _ => ⟨[], rfl, by simp⟩
    | cons y t ih =>
      intro h
      obtain ⟨p, ls⟩ := y
      obtain ⟨d, h1, h2⟩ := ih fun x hx => h x (List.mem_cons_of_mem _ hx)
      have hp : p ≠ [] := h (p, ls) List.mem_cons_self
      refine ⟨(p.tail, .group (ls.filter fun x => wanted keys (p ++ '/' :: x.1))) :: d, ?_, ?_⟩
      · simp only [entries, h1, Option.bind_some, if_neg hp]
      · intro n x hm
        rcases List.mem_cons.1 hm with hm | hm
        · cases hm
        · exact h2 n x hm
  induction w with
  | nil => cases hr
  | cons y t ih =>
    obtain ⟨p, ls⟩ := y
    simp only [List.map_cons, List.nodup_cons] at hn
    rcases List.mem_cons.1 hr with hr' | hr'
    · cases hr'
      obtain ⟨d, h1, h2⟩ := noroot t fun x hx hx' => hn.1 (by rw [← hx']; exact List.mem_map_of_mem hx)
      simp only [entries, h1, Option.bind_some, if_true]
      by_cases hwn : wanted keys ('/' :: l) = true
      · rw [if_pos hwn]
        refine ⟨_, rfl, fun n x => ?_⟩
        rw [List.mem_cons]
        constructor
        · rintro (h | h)
          · cases h; exact ⟨rfl, rfl, hwn⟩
          · exact absurd h (h2 n x)
        · rintro ⟨rfl, rfl, -⟩; exact Or.inl rfl
      · rw [if_neg hwn]
        refine ⟨d, rfl, fun n x => ⟨fun h => absurd h (h2 n x), fun h => absurd h.2.2 hwn⟩⟩
    · have hp : p ≠ [] := by
        rintro rfl
        exact hn.1 (List.mem_map.2 ⟨_, hr', rfl⟩)
      obtain ⟨d, h1, h2⟩ := ih hn.2 hr'
      simp only [entries, h1, Option.bind_some, if_neg hp]
      refine ⟨_, rfl, fun n x => ?_⟩
      rw [List.mem_cons, ← h2 n x]
      constructor
      · rintro (h | h)
        · cases h
        · exact h
      · exact Or.inr

/-- **C145**, partial: results of a simulation, whose only table at the root are the vectors of the simulation, can be
loaded as soon as one table is asked for, and the vectors are in the dictionary exactly if they were asked for.
Missing: files without that table, further tables at the root. -/
theorem C145_loads_partial {keys : Option (List Name)} {w : Walk V} (hw : WellFormed w) (hn : (w.map Prod.fst).Nodup)
    {v : V} (hr : ([], [(vecsName, v)]) ∈ w) (hask : ∃ p l x, Table w p l x ∧ Asked keys p l) :
    ∃ d, load keys w = some d ∧ ∀ n x, (n, Loaded.table x) ∈ d ↔ n = vecsName ∧ x = v ∧ Asked keys [] vecsName := by
  obtain ⟨d, h1, h2⟩ := entries_root (keys := keys) hn hr
  have hwa : wanted keys ('/' :: vecsName) = true ↔ Asked keys [] vecsName :=
    wanted_iff (p := []) (Or.inl ⟨rfl, by decide, by decide⟩)
  have hne : (d.filter fun x => nonempty x.2) ≠ [] := by
    obtain ⟨p, l, x, ⟨ls, hp, hl⟩, ha⟩ := hask
    obtain ⟨hpath, hleaf⟩ := hw _ hp
    rcases hpath with h | ⟨c, q, hq, hc⟩
    · simp only at h
      subst h
      have e : ([], ls) = (([] : Name), [(vecsName, v)]) := by
        have := List.inj_on_of_nodup_map hn hp hr rfl
        exact this
      cases e
      rw [List.mem_singleton] at hl
      cases hl
      have := (h2 vecsName v).2 ⟨rfl, rfl, hwa.2 ha⟩
      exact List.ne_nil_of_mem (List.mem_filter.2 ⟨this, rfl⟩)
    · simp only at hq
      subst hq
      have hwn := (wanted_iff (keys := keys) (l := l) (Or.inr ⟨c, q, rfl, hc⟩)).2 ha
      have hin : (l, x) ∈ ls.filter fun y => wanted keys (('/' :: c :: q) ++ '/' :: y.1) := List.mem_filter.2 ⟨hl, hwn⟩
      refine List.ne_nil_of_mem (List.mem_filter.2 ⟨(entries_group h1 (c :: q) _).2 ⟨_, ls, hp, by simp, rfl, rfl⟩, ?_⟩)
      simp only [nonempty, Bool.not_eq_true']
      rw [List.isEmpty_eq_false_iff]
      exact List.ne_nil_of_mem hin
  refine ⟨_, by simp only [load, h1, Option.bind_some]; rw [if_neg (by simpa [List.isEmpty_iff] using hne)], fun n x => ?_⟩
  rw [List.mem_filter, h2 n x, hwa]
  simp [nonempty]

theorem mem_joined {d : List (Name × Loaded V)} {n l : Name} {v : V} :
    ((n, l), v) ∈ joined d ↔ ¬ vecsName <:+: n ∧ ∃ tabs, (n, Loaded.group tabs) ∈ d ∧ (l, v) ∈ tabs := by
  simp only [joined, List.mem_flatMap]
  constructor
  · rintro ⟨⟨m, e⟩, hm, h⟩
    simp only at h
    split_ifs at h with hv
    · cases h
    · cases e with
      | table x => cases h
      | group tabs =>
        obtain ⟨y, hy, e⟩ := List.mem_map.1 h
        cases e
        exact ⟨hv, tabs, hm, hy⟩
  · rintro ⟨hv, tabs, hm, hl⟩
    refine ⟨_, hm, ?_⟩
    simp only [if_neg hv]
    exact List.mem_map.2 ⟨_, hl, rfl⟩

/-- **C145**, partial: the joined table contains every table that was asked for under its double name, and nothing else.
Missing: groups whose name contains `sim_vecs`. -/
theorem C145_joined_partial {keys : Option (List Name)} {w : Walk V} (hw : WellFormed w)
    {r : List ((Name × Name) × V) × Option (Loaded V)} (h : loadJoined keys w = some r) (n l : Name) (v : V) :
    ((n, l), v) ∈ r.1 ↔ ¬ vecsName <:+: n ∧ Table w ('/' :: n) l v ∧ Asked keys ('/' :: n) l := by
  simp only [loadJoined, Option.bind_eq_some_iff] at h
  obtain ⟨d, h1, h2⟩ := h
  split_ifs at h2
  cases h2
  rw [mem_joined, C145_tables hw h1]

/-- **C145** is false of parts whose name contains `sim_vecs`: their results are never in the joined table, which is the
default. -/
theorem C145_fails_name {keys : Option (List Name)} {w : Walk V} {r : List ((Name × Name) × V) × Option (Loaded V)}
    (h : loadJoined keys w = some r) {n : Name} (hn : vecsName <:+: n) (l : Name) (v : V) : ((n, l), v) ∉ r.1 := by
  simp only [loadJoined, Option.bind_eq_some_iff] at h
  obtain ⟨d, h1, h2⟩ := h
  split_ifs at h2
  cases h2
  rw [mem_joined]
  exact fun h => h.1 hn

/-- **C145** is false of files without a table at the root, as left behind by a simulation that broke off: nothing can be
loaded, whatever is asked for. -/
theorem C145_fails_no_vectors {w : Walk V} (hr : ([], []) ∈ w) (keys : Option (List Name)) :
    load keys w = none := by
  have : entries keys w = none := by
    induction w with
    | nil => cases hr
    | cons y t ih =>
      obtain ⟨p, ls⟩ := y
      rcases List.mem_cons.1 hr with hr | hr
      · cases hr
        simp only [entries, if_true]
        cases entries keys t <;> rfl
      · simp only [entries, ih hr, Option.bind_none]
  simp [load, this]

/-- **C145** is false when only the vectors of the simulation are asked for: by default this is an error, as there is
nothing to join. -/
theorem C145_fails_only_vectors {w : Walk V} (hw : WellFormed w) (k : Name) (hk : k = vecsName ∨ k = '/' :: vecsName) :
    loadJoined (some [k]) w = none := by
  cases hl : load (some [k]) w with
  | none => simp [loadJoined, hl]
  | some d =>
    have he : joined d = [] := by
      rw [List.eq_nil_iff_forall_not_mem]
      rintro ⟨⟨n, l⟩, v⟩ hm
      obtain ⟨-, hg⟩ := mem_joined.1 hm
      obtain ⟨ht, ha⟩ := (C145_tables hw hl n l v).1 hg
      obtain ⟨k', hk', he⟩ := ha [k] rfl
      rw [List.mem_singleton] at hk'
      subst hk'
      have hsl : ∀ a b : Name, '/' ∈ a ++ '/' :: b := fun a b => by simp
      have h2 : ∀ a b : Name, '/' :: vecsName = ('/' :: a) ++ '/' :: b → False := by
        intro a b h
        have := List.cons.inj (h.trans (List.cons_append ..))
        have h3 := hsl a b
        rw [← this.2] at h3
        revert h3
        decide
      rcases hk with rfl | rfl
      · rcases he with he | he
        · have : vecsName.head? = some '/' := by rw [he]; rfl
          revert this; decide
        · exact h2 _ _ he
      · rcases he with he | he
        · exact h2 _ _ he
        · have h4 := (List.cons.inj (he.trans (List.cons_append ..))).2
          cases n with
          | nil =>
            obtain ⟨ls, hp, -⟩ := ht
            obtain ⟨hpath, -⟩ := hw _ hp
            rcases hpath with h | ⟨c, q, h, -⟩
            · cases h
            · cases h
          | cons c n =>
            have h5 := List.cons.inj (h4.trans (List.cons_append ..))
            have h3 := hsl n l
            rw [← h5.2] at h3
            revert h3
            decide
    simp [loadJoined, hl, he]

/-- A file with a pipe, a meter and the vectors. -/
def demoWalk : Walk ℕ :=
  [([], [("sim_vecs".toList, 1)]), ("/pipe".toList, [("dm".toList, 2), ("res".toList, 3)]), ("/meters".toList, [("m".toList, 4)])]

example : WellFormed demoWalk ∧ (demoWalk.map Prod.fst).Nodup := by
  constructor
  · intro x hx
    simp only [demoWalk, List.mem_cons, List.not_mem_nil, or_false] at hx
    rcases hx with rfl | rfl | rfl
    · exact ⟨Or.inl rfl, by decide⟩
    · exact ⟨Or.inr ⟨'p', "ipe".toList, rfl, by decide⟩, by decide⟩
    · exact ⟨Or.inr ⟨'m', "eters".toList, rfl, by decide⟩, by decide⟩
  · decide

example : (loadJoined (some ["pipe/res".toList, "/meters/m".toList]) demoWalk).map Prod.fst =
    some [(("pipe".toList, "res".toList), 3), (("meters".toList, "m".toList), 4)] := by decide

end Verif.Loading
