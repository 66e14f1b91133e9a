import Verif.Model.ByName
import Mathlib.Tactic.Common

/-!
# C166: loading by name returns what was asked for
-/

namespace Verif.ByName

variable {R : Type*}

theorem select_mem {nums : List ℕ} {l : List (Entry R)} {sel : List (ℕ × Entry R)} (h : select nums l = .ok sel)
    (n : ℕ) (e : Entry R) : (n, e) ∈ sel ↔ n ∈ nums ∧ e ∈ l ∧ number e.name = .ok n := by
  induction l generalizing sel with
  | nil =>
    simp only [select, Except.ok.injEq] at h
    subst h
    simp
  | cons a l ih =>
    simp only [select] at h
    split at h
    · exact absurd h (by simp)
    · rename_i m hm
      split at h
      · exact absurd h (by simp)
      · rename_i r hr
        simp only [Except.ok.injEq] at h
        subst h
        have := ih hr
        split_ifs with hin
        · rw [List.mem_cons, this, Prod.mk.injEq, List.mem_cons]
          constructor
          · rintro (⟨rfl, rfl⟩ | ⟨h1, h2, h3⟩)
            · exact ⟨hin, .inl rfl, hm⟩
            · exact ⟨h1, .inr h2, h3⟩
          · rintro ⟨h1, rfl | h2, h3⟩
            · rw [hm] at h3
              exact .inl ⟨(Except.ok.inj h3).symm, rfl⟩
            · exact .inr ⟨h1, h2, h3⟩
        · rw [this, List.mem_cons]
          constructor
          · rintro ⟨h1, h2, h3⟩
            exact ⟨h1, .inr h2, h3⟩
          · rintro ⟨h1, rfl | h2, h3⟩
            · rw [hm] at h3
              exact absurd ((Except.ok.inj h3) ▸ h1) hin
            · exact ⟨h1, h2, h3⟩

theorem select_number {nums : List ℕ} {l : List (Entry R)} {sel : List (ℕ × Entry R)} (h : select nums l = .ok sel)
    {e : Entry R} (he : e ∈ l) : ∃ n, number e.name = .ok n := by
  induction l generalizing sel with
  | nil => simp at he
  | cons a l ih =>
    simp only [select] at h
    split at h
    · exact absurd h (by simp)
    · rename_i m hm
      split at h
      · exact absurd h (by simp)
      · rename_i r hr
        rcases List.mem_cons.1 he with rfl | he
        · exact ⟨m, hm⟩
        · exact ih hr he

theorem resFiles_mem {l : List (ℕ × Entry R)} {fs : List (ℕ × R)} (h : resFiles l = .ok fs) (n : ℕ) (r : R) :
    (n, r) ∈ fs ↔ ∃ e, (n, e) ∈ l ∧ e.file = some r := by
  induction l generalizing fs with
  | nil =>
    simp only [resFiles, Except.ok.injEq] at h
    subst h
    simp
  | cons a l ih =>
    obtain ⟨m, a⟩ := a
    simp only [resFiles] at h
    split at h
    · exact absurd h (by simp)
    · rename_i f hf
      split at h
      · exact absurd h (by simp)
      · rename_i rs hrs
        simp only [Except.ok.injEq] at h
        subst h
        rw [List.mem_cons, ih hrs, Prod.mk.injEq]
        constructor
        · rintro (⟨rfl, rfl⟩ | ⟨e, h1, h2⟩)
          · exact ⟨a, .head _, hf⟩
          · exact ⟨e, .tail _ h1, h2⟩
        · rintro ⟨e, h1, h2⟩
          rcases List.mem_cons.1 h1 with h1 | h1
          · obtain ⟨rfl, rfl⟩ := Prod.mk.injEq .. ▸ h1
            rw [hf] at h2
            exact .inl ⟨rfl, (Option.some.inj h2).symm⟩
          · exact .inr ⟨e, h1, h2⟩

theorem resFiles_file {l : List (ℕ × Entry R)} {fs : List (ℕ × R)} (h : resFiles l = .ok fs) {n : ℕ} {e : Entry R}
    (he : (n, e) ∈ l) : ∃ r, e.file = some r := by
  induction l generalizing fs with
  | nil => simp at he
  | cons a l ih =>
    obtain ⟨m, a⟩ := a
    simp only [resFiles] at h
    split at h
    · exact absurd h (by simp)
    · rename_i f hf
      split at h
      · exact absurd h (by simp)
      · rename_i rs hrs
        rcases List.mem_cons.1 he with h1 | h1
        · obtain ⟨rfl, rfl⟩ := Prod.mk.injEq .. ▸ h1
          exact ⟨f, hf⟩
        · exact ih hrs h1

theorem dict_some {l : List (ℕ × R)} {n : ℕ} {r : R} (h : dict l n = some r) : (n, r) ∈ l := by
  unfold dict at h
  rw [Option.map_eq_some_iff] at h
  obtain ⟨⟨m, q⟩, h1, rfl⟩ := h
  have h2 := List.find?_some h1
  have h3 := List.mem_of_find?_eq_some h1
  simp only [beq_iff_eq] at h2
  subst h2
  exact List.mem_reverse.1 h3

theorem dict_isSome {l : List (ℕ × R)} {n : ℕ} {r : R} (h : (n, r) ∈ l) : ∃ q, dict l n = some q := by
  unfold dict
  have : (l.reverse.find? fun p => p.1 == n).isSome := by
    rw [List.find?_isSome]
    exact ⟨(n, r), List.mem_reverse.2 h, by simp⟩
  obtain ⟨q, hq⟩ := Option.isSome_iff_exists.1 this
  exact ⟨q.2, by rw [hq]; rfl⟩

theorem load_cases {ident : List Char} {ns : List ℕ} {ldir : List (Entry R)} {d : ℕ → Option R}
    (h : load ident (some ns) ldir = .ok d) :
    ∃ sel fs, select ns ldir = .ok sel ∧ resFiles sel = .ok fs ∧ d = dict fs := by
  unfold load at h
  split_ifs at h
  simp only at h
  split at h
  · exact absurd h (by simp)
  · rename_i sel hsel
    split_ifs at h
    split at h
    · exact absurd h (by simp)
    · rename_i fs hfs
      exact ⟨sel, fs, hsel, hfs, (Except.ok.inj h).symm⟩

theorem number_digits {pre ds post : List Char} (hpre : ∀ c ∈ pre, c.isDigit = false) (hne : ds ≠ []) (hds : ∀ c ∈ ds, c.isDigit = true)
    (hpost : ∀ c ∈ post.head?, c.isDigit = false) : number (pre ++ ds ++ post) = .ok (Nat.ofDigitChars 10 ds 0) := by
  have h1 : (pre ++ ds ++ post).dropWhile (fun c => !c.isDigit) = ds ++ post := by
    rw [List.append_assoc]
    induction pre with
    | nil =>
      cases ds with
      | nil => exact absurd rfl hne
      | cons d ds => simp [hds d (.head _)]
    | cons a pre ih =>
      rw [List.cons_append, List.dropWhile_cons_of_pos (by simp [hpre a (.head _)])]
      exact ih fun c hc => hpre c (.tail _ hc)
  have h2 : (ds ++ post).takeWhile Char.isDigit = ds := by
    rw [List.takeWhile_append_of_pos hds]
    cases post with
    | nil => simp
    | cons a post => rw [List.takeWhile_cons_of_neg (by simp [hpost a (by simp)]), List.append_nil]
  unfold number
  rw [h1, h2]
  cases ds with
  | nil => exact absurd rfl hne
  | cons d ds => simp only [Nat.ofDigitChars_eq_foldl]; rfl

/-- **C166, numbers.** The number of a folder is the one written in its name: any text without digits, zeros, the decimal digits of `n`, and
any text that does not begin with a digit. -/
theorem C166_number (pre post : List Char) (k n : ℕ) (hpre : ∀ c ∈ pre, c.isDigit = false)
    (hpost : ∀ c ∈ post.head?, c.isDigit = false) : number (pre ++ (List.replicate k '0' ++ Nat.toDigits 10 n) ++ post) = .ok n := by
  rw [number_digits hpre (by simp [Nat.toDigits_ne_nil]) ?_ hpost, Nat.ofDigitChars_append, Nat.ofDigitChars_replicate_zero, Nat.mul_zero,
    Nat.ofDigitChars_ten_toDigits]
  intro c hc
  rcases List.mem_append.1 hc with hc | hc
  · rw [List.eq_of_mem_replicate hc]; rfl
  · exact Nat.isDigit_of_mem_toDigits (b := 10) (by decide) (by decide) hc

example : number "LHS_0120_a1".toList = .ok 120 := C166_number "LHS_".toList "_a1".toList 1 120 (by decide) (by decide)

/-- **C166, results.** What is returned under a number was asked for and is the result of an entry with that number. -/
theorem C166_found {ident : List Char} {ns : List ℕ} {ldir : List (Entry R)} {d : ℕ → Option R}
    (h : load ident (some ns) ldir = .ok d) {n : ℕ} {r : R} (hn : d n = some r) :
    n ∈ ns ∧ ∃ e ∈ ldir, number e.name = .ok n ∧ e.file = some r := by
  obtain ⟨sel, fs, hsel, hfs, rfl⟩ := load_cases h
  obtain ⟨e, h1, h2⟩ := (resFiles_mem hfs n r).1 (dict_some hn)
  obtain ⟨h3, h4, h5⟩ := (select_mem hsel n e).1 h1
  exact ⟨h3, e, h4, h5, h2⟩

/-- **C166, results.** Every entry whose number was asked for is returned, if no other entry has its number; together with
`C166_found` the call returns exactly what was asked for if all entries carry the identifier and different numbers.
Missing: the identifier, which the code does not use for the selection (`C166_fails_identifier`). -/
theorem C166_complete_partial {ident : List Char} {ns : List ℕ} {ldir : List (Entry R)} {d : ℕ → Option R}
    (h : load ident (some ns) ldir = .ok d) {e : Entry R} (he : e ∈ ldir) {n : ℕ} (hn : number e.name = .ok n)
    (hns : n ∈ ns) (huniq : ∀ e' ∈ ldir, number e'.name = .ok n → e' = e) : ∃ r, e.file = some r ∧ d n = some r := by
  obtain ⟨sel, fs, hsel, hfs, rfl⟩ := load_cases h
  have h1 := (select_mem hsel n e).2 ⟨hns, he, hn⟩
  obtain ⟨r, hr⟩ := resFiles_file hfs h1
  obtain ⟨q, hq⟩ := dict_isSome ((resFiles_mem hfs n r).2 ⟨e, h1, hr⟩)
  obtain ⟨-, e', he', hn', hf'⟩ := C166_found h hq
  rw [huniq e' he' hn', hr] at hf'
  exact ⟨r, hr, by rw [hq, hf']⟩

/-- Every folder in which all entries have a number and a result file is read. -/
theorem C166_reads {ident : List Char} {ns : List ℕ} {ldir : List (Entry R)}
    (hall : ∀ e ∈ ldir, (∃ n, number e.name = .ok n) ∧ ∃ r, e.file = some r)
    (hid : ∃ e ∈ ldir, e.dir = true ∧ ident <:+: e.name) (hnum : ∃ e ∈ ldir, ∃ n ∈ ns, number e.name = .ok n) :
    ∃ d, load ident (some ns) ldir = .ok d := by
  have hsel : ∀ l : List (Entry R), (∀ e ∈ l, ∃ n, number e.name = .ok n) → ∃ sel, select ns l = .ok sel := by
    intro l
    induction l with
    | nil => exact fun _ => ⟨[], rfl⟩
    | cons a l ih =>
      intro h
      obtain ⟨r, hr⟩ := ih fun e he => h e (.tail _ he)
      obtain ⟨n, hn⟩ := h a (.head _)
      simp only [select, hn, hr]
      exact ⟨_, rfl⟩
  have hfs : ∀ l : List (ℕ × Entry R), (∀ p ∈ l, ∃ r, p.2.file = some r) → ∃ fs, resFiles l = .ok fs := by
    intro l
    induction l with
    | nil => exact fun _ => ⟨[], rfl⟩
    | cons a l ih =>
      intro h
      obtain ⟨r, hr⟩ := ih fun e he => h e (.tail _ he)
      obtain ⟨f, hf⟩ := h a (.head _)
      obtain ⟨m, a⟩ := a
      simp only at hf
      simp only [resFiles, hf, hr]
      exact ⟨_, rfl⟩
  obtain ⟨sel, h1⟩ := hsel ldir fun e he => (hall e he).1
  obtain ⟨fs, h2⟩ := hfs sel fun p hp => (hall p.2 ((select_mem h1 p.1 p.2).1 hp).2.1).2
  obtain ⟨e, he, hd, hi⟩ := hid
  obtain ⟨e', he', n, hn, hn'⟩ := hnum
  have h3 : sel ≠ [] := by
    intro h0
    have := (select_mem h1 n e').2 ⟨hn, he', hn'⟩
    rw [h0] at this
    simp at this
  have h4 : (ldir.filter fun e => e.dir && decide (ident <:+: e.name)) ≠ [] := by
    intro h0
    have : e ∈ ldir.filter fun e => e.dir && decide (ident <:+: e.name) := by
      rw [List.mem_filter]
      exact ⟨he, by simp [hd, hi]⟩
    rw [h0] at this
    simp at this
  refine ⟨dict fs, ?_⟩
  unfold load
  rw [if_neg h4]
  simp only [h1, if_neg h3, h2]

/-- **C166 is false of the code for other sets in the same folder**: simulation 1 of the set `MC` is returned although
simulation 1 of the set `LHS` was asked for and exists. -/
theorem C166_fails_identifier :
    ∃ d, load (R := ℕ) "LHS".toList (some [1]) [⟨"LHS_1".toList, true, some 100⟩, ⟨"MC_1".toList, true, some 200⟩] = .ok d ∧
      d 1 = some 200 :=
  ⟨dict [(1, 100), (1, 200)], rfl, by decide +kernel⟩

/-- **C166 is false of the code for all results**: `set_numbers=None`, documented as "get ALL results", always fails. -/
theorem C166_fails_all (ident : List Char) (ldir : List (Entry R)) : ∃ x, load ident none ldir = .error x := by
  unfold load
  split_ifs
  · exact ⟨_, rfl⟩
  · exact ⟨_, rfl⟩

/-- **C166 is false of the code if anything without a number is in the folder**: whatever is asked for, nothing is
returned. -/
theorem C166_fails_plain {ident : List Char} {nums : Option (List ℕ)} {ldir : List (Entry R)} {e : Entry R}
    (he : e ∈ ldir) (hn : ∀ c ∈ e.name, c.isDigit = false) : ∃ x, load ident nums ldir = .error x := by
  cases nums with
  | none => exact C166_fails_all ident ldir
  | some ns =>
    rcases hl : load ident (some ns) ldir with x | d
    · exact ⟨x, rfl⟩
    · exfalso
      obtain ⟨sel, fs, hsel, -, -⟩ := load_cases hl
      obtain ⟨n, h⟩ := select_number hsel he
      have hdrop : ∀ l : List Char, (∀ c ∈ l, c.isDigit = false) → l.dropWhile (fun c => !c.isDigit) = [] := by
        intro l
        induction l with
        | nil => exact fun _ => rfl
        | cons a l ih =>
          intro hl
          rw [List.dropWhile_cons_of_pos (by simp [hl a (.head _)])]
          exact ih fun c hc => hl c (.tail _ hc)
      have h0 := hdrop e.name hn
      unfold number at h
      rw [h0] at h
      simp at h

/-! ## Databases -/

/-- **C166, databases.** With a backslash as separator all tables of the package are returned under the names of their
files. -/
theorem C166_database_partial (read : List Char → R) (glob : List Char → List (List Char)) (pkg dialog : List Char)
    (path : Option (List Char)) (names : List (List Char)) (hn : ∀ s ∈ names, ∀ c ∈ s, c ≠ '\\' ∧ c ≠ '.')
    (hg : glob (pkg ++ "\\data_tables".toList) = names.map fun s => pkg ++ "\\data_tables".toList ++ ['\\'] ++ s ++ ".pkl".toList) :
    ∃ d, dbImport read glob pkg dialog true path none = .ok d ∧
      (∀ s ∈ names, d s = some (read (pkg ++ "\\data_tables".toList ++ ['\\'] ++ s ++ ".pkl".toList))) ∧
      ∀ s, s ∉ names → d s = none := by
  have hstem : ∀ s ∈ names, stem (pkg ++ "\\data_tables".toList ++ ['\\'] ++ s ++ ".pkl".toList) = s := by
    intro s hs
    unfold stem
    have e1 : (pkg ++ "\\data_tables".toList ++ ['\\'] ++ s ++ ".pkl".toList).reverse
        = (s ++ ".pkl".toList).reverse ++ ('\\' :: (pkg ++ "\\data_tables".toList).reverse) := by
      simp
    have e2 : ∀ c ∈ (s ++ ".pkl".toList).reverse, (c != '\\') = true := by
      intro c hc
      rw [List.mem_reverse, List.mem_append] at hc
      rcases hc with hc | hc
      · simpa using (hn s hs c hc).1
      · revert c; decide +kernel
    rw [e1, List.takeWhile_append_of_pos e2, List.takeWhile_cons_of_neg (by simp), List.append_nil, List.reverse_reverse,
      List.takeWhile_append_of_pos (fun c hc => by simpa using (hn s hs c hc).2)]
    have : (".pkl".toList).takeWhile (fun c => c != '.') = [] := by decide +kernel
    rw [this, List.append_nil]
  refine ⟨_, rfl, fun s hs => ?_, fun s hs => ?_⟩
  · unfold readAll
    rw [hg]
    have h1 : ((names.map fun s => pkg ++ "\\data_tables".toList ++ ['\\'] ++ s ++ ".pkl".toList).reverse.find?
        fun f => stem f == s).isSome := by
      rw [List.find?_isSome]
      exact ⟨_, List.mem_reverse.2 (List.mem_map.2 ⟨s, hs, rfl⟩), by rw [beq_iff_eq]; exact hstem s hs⟩
    obtain ⟨f, hf⟩ := Option.isSome_iff_exists.1 h1
    rw [hf]
    have h2 := List.find?_some hf
    obtain ⟨s', hs', rfl⟩ := List.mem_map.1 (List.mem_reverse.1 (List.mem_of_find?_eq_some hf))
    rw [hstem s' hs', beq_iff_eq] at h2
    subst h2
    rfl
  · unfold readAll
    rw [hg, Option.map_eq_none_iff, List.find?_eq_none]
    intro f hf
    obtain ⟨s', hs', rfl⟩ := List.mem_map.1 (List.mem_reverse.1 hf)
    rw [hstem s' hs', beq_iff_eq]
    rintro rfl
    exact hs hs'

/-- **C166 is false of the code for chosen databases**: asking for particular databases always fails. -/
theorem C166_fails_which (read : List Char → R) (glob : List Char → List (List Char)) (pkg dialog : List Char)
    (standard : Bool) (path : Option (List Char)) (which : List (List Char)) (hw : which ≠ []) :
    dbImport read glob pkg dialog standard path (some which) = .error .unbound := by
  cases which with
  | nil => exact absurd rfl hw
  | cons a l => rfl

/-- **C166 is false of the code for databases in another folder**: giving the folder as an argument always fails. -/
theorem C166_fails_path (read : List Char → R) (glob : List Char → List (List Char)) (pkg dialog path : List Char)
    (hp : path ≠ []) : dbImport read glob pkg dialog false (some path) none = .error .unbound := by
  unfold dbImport
  simp [hp]

/-- **C166 is false of the code where the separator is a slash**: there is no folder `…\data_tables`, nothing is found in
it, and the result is empty without any message. -/
theorem C166_fails_separator (read : List Char → R) (glob : List Char → List (List Char)) (pkg dialog : List Char)
    (path : Option (List Char)) (hg : glob (pkg ++ "\\data_tables".toList) = []) :
    ∃ d, dbImport read glob pkg dialog true path none = .ok d ∧ ∀ s, d s = none := by
  refine ⟨_, rfl, fun s => ?_⟩
  unfold readAll
  rw [hg]
  rfl

/-! ## Examples -/

example : number "LHS_12_b3".toList = .ok 12 := by decide +kernel
example : stem "C:\\multisim\\data_tables\\pipe_specs.pkl".toList = "pipe_specs".toList := by decide +kernel

/-- Two simulations, one asked for. -/
example : ∃ d, load (R := ℕ) "LHS".toList (some [2]) [⟨"LHS_1".toList, true, some 100⟩, ⟨"LHS_2".toList, true, some 200⟩]
    = .ok d ∧ d 2 = some 200 ∧ d 1 = none :=
  ⟨dict [(2, 200)], rfl, by decide +kernel, by decide +kernel⟩

example : ∃ x, load (R := ℕ) "LHS".toList (some [1]) [⟨"LHS_1".toList, true, some 100⟩, ⟨"readme.txt".toList, false, none⟩]
    = .error x :=
  C166_fails_plain (e := ⟨"readme.txt".toList, false, none⟩) (by simp) (by decide +kernel)

example : ∃ d, dbImport (R := ℕ) List.length
    (fun _ => ["C:\\m\\data_tables\\pipe_specs.pkl".toList]) "C:\\m".toList [] true none none = .ok d ∧
      d "pipe_specs".toList = some 31 := by
  obtain ⟨d, h1, h2, -⟩ := C166_database_partial (R := ℕ) List.length
    (fun _ => ["C:\\m\\data_tables\\pipe_specs.pkl".toList]) "C:\\m".toList [] none ["pipe_specs".toList]
    (by decide +kernel) (by decide +kernel)
  refine ⟨d, h1, ?_⟩
  rw [h2 _ (List.mem_singleton.2 rfl)]
  decide +kernel

end Verif.ByName
