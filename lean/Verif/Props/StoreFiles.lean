import Verif.Model.StoreFiles
import Mathlib.Data.List.Infix
import Mathlib.Tactic.Tauto

/-!
# C179: saved results are kept, complete and where they were asked for
-/

namespace Verif.StoreFiles

variable {R : Type}

/-! ## Names of files -/

/-- Specification: the folder of a file (with the separator at its end). -/
def folder (sep : Char) (p : Name) : Name := (p.reverse.dropWhile (· ≠ sep)).reverse

theorem report_head {s t : Name} {c : Char} (hc : c ≠ '_') (h : report s = c :: t) : ∃ s', s = c :: s' ∧ (report s' = t) := by
  rw [report.eq_def] at h
  split at h
  · rename_i s
    simp only [csv, List.cons_append, List.cons.injEq] at h
    exact absurd h.1.symm hc
  · rename_i d s _
    rw [List.cons.injEq] at h
    exact ⟨s, by rw [h.1], h.2⟩
  · cases h

theorem report_cons {c : Char} {s : Name} (h : ¬ h5 <+: (c :: s)) : report (c :: s) = c :: report s := by
  rw [report.eq_def]
  split
  · rename_i s' heq
    exfalso
    apply h
    rw [heq]
    exact ⟨s', rfl⟩
  · rename_i heq
    rw [List.cons.injEq] at heq
    rw [heq.1, heq.2]
  · rename_i heq; cases heq

/-- A report has no ending of a store in its path. -/
theorem report_no : ∀ s : Name, ¬ h5 <:+: report s
  | [], h => by simp [report, h5] at h
  | c :: s, h => by
    by_cases hp : h5 <+: (c :: s)
    · obtain ⟨s', hs'⟩ := hp
      rw [← hs'] at h
      have h' : h5 <:+: csv ++ report s' := h
      have hlen : s'.length < s.length + 1 := by
        have := congrArg List.length hs'
        simp only [h5, List.length_append, List.length_cons, List.length_nil] at this
        omega
      have ih := report_no s'
      simp only [csv, List.cons_append, List.nil_append, List.infix_cons_iff, h5, List.cons_prefix_cons] at h'
      simp only [h5] at ih
      revert h'
      simp [ih]
    · rw [report_cons hp] at h
      rcases List.infix_cons_iff.1 h with h | h
      · obtain ⟨t, ht⟩ := h
        simp only [h5, List.cons_append, List.nil_append, List.cons.injEq] at ht
        obtain ⟨hc, ht⟩ := ht
        obtain ⟨s1, h1, h2⟩ := report_head (by decide) ht.symm
        obtain ⟨s2, h3, -⟩ := report_head (by decide) h2
        apply hp
        rw [h1, h3, ← hc]
        exact ⟨s2, rfl⟩
      · exact report_no s h
  termination_by s => s.length

theorem target_ends (o : Opts R) : h5 <:+ o.target :=
  ⟨o.path ++ (o.date ++ ('_' :: o.name)), by simp [Opts.target, List.append_assoc]⟩

/-- A temporary store is no store. -/
theorem tmp_ne {p q : Name} (h : h5 <:+ p) : q ++ tmp ≠ p := by
  rintro rfl
  obtain ⟨t, ht⟩ := h
  have := congrArg List.reverse ht
  simp [h5, tmp] at this

theorem report_ne {p q : Name} (h : h5 <:+: p) : report q ≠ p := by
  rintro rfl
  exact report_no q h

theorem tmp_infix {p : Name} (h : h5 <:+ p) : h5 <:+: p ++ tmp := by
  obtain ⟨t, rfl⟩ := h
  exact ⟨t, tmp, rfl⟩

/-! ## Invariant of all histories -/

/-- Each environment with a temporary store has a store of the name without `_tmp`. -/
def Ok (s : State R) : Prop := ∀ e q, (s.env e).pathTmp = some q → ∃ p, (s.env e).path = some p ∧ q = p ++ tmp ∧ h5 <:+ p

@[simp] theorem write_env (s : State R) (p : Name) (f : Option (File R)) : (s.write p f).env = s.env := rfl

@[simp] theorem write_file (s : State R) (p q : Name) (f : Option (File R)) :
    (s.write p f).disk.file q = if q = p then f else s.disk.file q := rfl

@[simp] theorem setEnv_env (s : State R) (e i : ℕ) (v : Env R) : (s.setEnv e v).env i = if i = e then v else s.env i := rfl

@[simp] theorem setEnv_disk (s : State R) (e : ℕ) (v : Env R) : (s.setEnv e v).disk = s.disk := rfl

theorem flush_env (s : State R) (e : ℕ) (l : List R) : (flush s e l).1.env = s.env := by
  unfold flush
  split
  · rfl
  · split
    · rfl
    · split <;> rfl

theorem finish_env (s : State R) (e : ℕ) (l : List R) : (finish s e l).1.env = s.env := by
  have hf := flush_env s e l
  unfold finish
  split
  · rfl
  · split
    · rename_i h; rw [h] at hf; exact hf
    · rename_i h
      rw [h] at hf
      split
      · split
        · exact hf
        · exact hf
      · exact hf

/-- What `set_disksaving` does to the environment. -/
theorem set_tmp (s : State R) (e : ℕ) (o : Opts R) (i : ℕ) :
    i = e ∧ ((setDisk s e o).1.env i).pathTmp = none ∨
    i = e ∧ ((setDisk s e o).1.env i).pathTmp = some (o.target ++ tmp) ∧ ((setDisk s e o).1.env i).path = some o.target ∧
      ((s.disk.file o.target).isSome → o.overwrite = true) ∨
    i ≠ e ∧ (setDisk s e o).1.env i = s.env i := by
  by_cases hi : i = e
  · unfold setDisk
    split
    · left; simp [hi]
    · split
      · left; simp [hi]
      · split
        · left; simp [hi]
        · split
          · left; simp [hi]
          · rename_i h
            right; left
            refine ⟨hi, by simp [hi], by simp [hi], fun hs => ?_⟩
            rw [not_and, Bool.not_eq_false] at h
            exact h hs
  · right; right
    refine ⟨hi, ?_⟩
    unfold setDisk
    split
    · simp [hi]
    · split
      · simp [hi]
      · split
        · simp [hi]
        · split <;> simp [hi]

/-- What `set_disksaving` does to files. -/
theorem set_file (s : State R) (e : ℕ) (o : Opts R) (p : Name) (hp : p ≠ o.target ++ tmp) :
    (setDisk s e o).1.disk.file p = s.disk.file p := by
  unfold setDisk
  split
  · rfl
  · split
    · rfl
    · split
      · rfl
      · split
        · rfl
        · simp [hp]

theorem ok_set {s : State R} (h : Ok s) (e : ℕ) (o : Opts R) : Ok (setDisk s e o).1 := by
  intro i q hq
  rcases set_tmp s e o i with ⟨-, h1⟩ | ⟨-, h1, h2, -⟩ | ⟨-, h1⟩
  · rw [h1] at hq; cases hq
  · rw [h1, Option.some.injEq] at hq
    exact ⟨_, h2, hq.symm, target_ends o⟩
  · rw [h1] at hq ⊢; exact h i q hq

theorem ok_step {s : State R} (h : Ok s) (v : Event R) : Ok (step s v).1 := by
  cases v with
  | set e o => exact ok_set h e o
  | flush e l => intro i q hq; simp only [step, flush_env] at hq ⊢; exact h i q hq
  | finish e l => intro i q hq; simp only [step, finish_env] at hq ⊢; exact h i q hq

/-- Which files saving changes. -/
theorem flush_file (s : State R) (e : ℕ) (l : List R) (p : Name) (hp : (s.env e).pathTmp ≠ some p) :
    (flush s e l).1.disk.file p = s.disk.file p := by
  unfold flush
  split
  · rfl
  · split
    · rfl
    · rename_i q hq
      split
      · have : p ≠ q := by rintro rfl; exact hp hq
        simp [this]
      · rfl

/-- Which files the end of a run changes. -/
theorem finish_file (s : State R) (e : ℕ) (l : List R) (p : Name) (hq : (s.env e).pathTmp ≠ some p)
    (hp : (s.env e).pathTmp ≠ none → (s.env e).path ≠ some p) (hr : ∀ x, report x ≠ p) :
    (finish s e l).1.disk.file p = s.disk.file p := by
  have hf := flush_file s e l p hq
  have he := flush_env s e l
  unfold finish
  split
  · rfl
  · split
    · rename_i h; rw [h] at hf; exact hf
    · rename_i s1 h
      rw [h] at hf he
      split
      · rename_i p' q' h1 h2
        rw [he] at h1 h2
        have n1 : p ≠ p' := by rintro rfl; exact hp (by rw [h2]; simp) h1
        have n2 : p ≠ q' := by rintro rfl; exact hq h2
        split
        · simp [n1, n2, (hr p').symm]; exact hf
        · exact hf
      · exact hf

/-- Specification: in this history nobody asks to save at `p` (in spite of results that are already there, `overwrite`). -/
def NoOverwrite (p : Name) (l : List (Event R)) : Prop :=
  ∀ e o, Event.set e o ∈ l → o.target = p → o.overwrite = false

/-- **C179**, partial: results that are in their place when no simulation is under way which saves at the same place keep their contents,
whatever simulations do afterwards, unless overwriting is asked for. -/
theorem C179_kept_partial {s : State R} {p : Name} {c : File R} (hok : Ok s) (hp : h5 <:+ p) (hc : s.disk.file p = some c)
    (hfree : ∀ e, (s.env e).path = some p → (s.env e).pathTmp = none) :
    ∀ l : List (Event R), NoOverwrite p l → (run s l).disk.file p = some c := by
  intro l
  induction l generalizing s with
  | nil => intro _; exact hc
  | cons v l ih =>
    intro hno
    have hok' := ok_step hok v
    have htmp : ∀ e, (s.env e).pathTmp ≠ some p := by
      intro e h
      obtain ⟨p', -, h2, -⟩ := hok e p h
      exact tmp_ne hp h2.symm
    have hpath : ∀ e, (s.env e).pathTmp ≠ none → (s.env e).path ≠ some p := fun e h1 h2 => h1 (hfree e h2)
    have hrep : ∀ x, report x ≠ p := fun x => report_ne hp.isInfix
    refine ih hok' ?_ ?_ (fun e o h => hno e o (List.mem_cons_of_mem _ h))
    · cases v with
      | set e o => exact (set_file s e o p (fun h => tmp_ne hp h.symm)).trans hc
      | flush e l' => exact (flush_file s e l' p (htmp e)).trans hc
      | finish e l' => exact (finish_file s e l' p (htmp e) (hpath e) hrep).trans hc
    · cases v with
      | set e o =>
        intro i hi
        rcases set_tmp s e o i with ⟨-, h1⟩ | ⟨-, h1, h2, h3⟩ | ⟨-, h1⟩
        · exact h1
        · exfalso
          change ((setDisk s e o).1.env i).path = some p at hi
          rw [h2, Option.some.injEq] at hi
          have := hno e o List.mem_cons_self hi
          rw [hi, hc] at h3
          rw [this] at h3
          exact absurd (h3 rfl) (by simp)
        · change ((setDisk s e o).1.env i).path = some p at hi
          change ((setDisk s e o).1.env i).pathTmp = none
          rw [h1] at hi ⊢
          exact hfree i hi
      | flush e l' => intro i hi; simp only [step, flush_env] at hi ⊢; exact hfree i hi
      | finish e l' => intro i hi; simp only [step, finish_env] at hi ⊢; exact hfree i hi

/-- Specification: the rows which simulation `e` saves in a history. -/
def saved (e : ℕ) : List (Event R) → List R
  | [] => []
  | .flush i l :: h => if i = e then l ++ saved e h else saved e h
  | _ :: h => saved e h

/-- Specification: a history between the beginning and the end of simulation `e`, which saves at `p`: it is not set up anew and does not
end, and no other simulation is set up to save at the same place. -/
def During (e : ℕ) (p : Name) (l : List (Event R)) : Prop :=
  (∀ i o, Event.set i o ∈ l → i ≠ e ∧ o.target ≠ p) ∧ ∀ r, Event.finish e r ∉ l

/-- While a simulation runs, its temporary store holds the rows saved so far. -/
theorem during_tmp {s : State R} {e : ℕ} {p : Name} {a : List R} (hok : Ok s) (hp : h5 <:+ p)
    (hsave : (s.env e).save = true) (ht : (s.env e).pathTmp = some (p ++ tmp))
    (hother : ∀ i, i ≠ e → (s.env i).pathTmp ≠ some (p ++ tmp))
    (hf : s.disk.file (p ++ tmp) = some (.rows a)) :
    ∀ l : List (Event R), During e p l →
      Ok (run s l) ∧ (run s l).env e = s.env e ∧ (run s l).disk.file (p ++ tmp) = some (.rows (a ++ saved e l)) := by
  intro l
  induction l generalizing s a with
  | nil => intro _; exact ⟨hok, rfl, by simpa [saved, run] using hf⟩
  | cons v l ih =>
    intro hd
    have hok' := ok_step hok v
    have hd' : During e p l := ⟨fun i o h => hd.1 i o (List.mem_cons_of_mem _ h), fun r h => hd.2 r (List.mem_cons_of_mem _ h)⟩
    have hrep : ∀ x, report x ≠ p ++ tmp := fun x => report_ne (tmp_infix hp)
    have hpath : ∀ i, (s.env i).pathTmp ≠ none → (s.env i).path ≠ some (p ++ tmp) := by
      intro i h1 h2
      obtain ⟨q, hq⟩ := Option.ne_none_iff_exists'.1 h1
      obtain ⟨p', h3, -, h5⟩ := hok i q hq
      rw [h2, Option.some.injEq] at h3
      exact tmp_ne h5 h3
    cases v with
    | set i o =>
      obtain ⟨hie, hop⟩ := hd.1 i o List.mem_cons_self
      have henv : (setDisk s i o).1.env e = s.env e := by
        rcases set_tmp s i o e with ⟨h, -⟩ | ⟨h, -⟩ | ⟨-, h⟩
        · exact absurd h.symm hie
        · exact absurd h.symm hie
        · exact h
      have hne : p ++ tmp ≠ o.target ++ tmp := fun h => hop (List.append_cancel_right h).symm
      have := ih (s := (setDisk s i o).1) (a := a) hok' (by rw [henv]; exact hsave) (by rw [henv]; exact ht) ?_
        ((set_file s i o _ hne).trans hf) hd'
      · rw [henv] at this; exact this
      · intro j hj h
        rcases set_tmp s i o j with ⟨-, h1⟩ | ⟨-, h1, -⟩ | ⟨-, h1⟩
        · rw [h1] at h; cases h
        · rw [h1, Option.some.injEq] at h; exact hne h.symm
        · rw [h1] at h; exact hother j hj h
    | flush i l' =>
      have henv := flush_env s i l'
      by_cases hie : i = e
      · subst hie
        have hfl : (flush s i l').1.disk.file (p ++ tmp) = some (.rows (a ++ l')) := by
          unfold flush
          simp [hsave, ht, hf]
        have := ih (s := (flush s i l').1) (a := a ++ l') hok' (by rw [henv]; exact hsave) (by rw [henv]; exact ht)
          (by rw [henv]; exact hother) hfl hd'
        rw [henv, List.append_assoc] at this
        rw [show saved i (Event.flush i l' :: l) = l' ++ saved i l by simp [saved]]
        exact this
      · have := ih (s := (flush s i l').1) (a := a) hok' (by rw [henv]; exact hsave) (by rw [henv]; exact ht)
          (by rw [henv]; exact hother) ((flush_file s i l' _ (hother i hie)).trans hf) hd'
        rw [henv] at this
        rw [show saved e (Event.flush i l' :: l) = saved e l by simp [saved, hie]]
        exact this
    | finish i l' =>
      have hie : i ≠ e := by rintro rfl; exact hd.2 l' List.mem_cons_self
      have henv := finish_env s i l'
      have := ih (s := (finish s i l').1) (a := a) hok' (by rw [henv]; exact hsave) (by rw [henv]; exact ht)
        (by rw [henv]; exact hother) ((finish_file s i l' _ (hother i hie) (hpath i) hrep).trans hf) hd'
      rw [henv] at this
      exact this

/-- **C179**, partial: if no other simulation is set up to save at the same place, then a simulation whose `set_disksaving` was accepted
ends without error, and its file contains the rows of this simulation, all of them, in their order; the temporary store is removed. -/
theorem C179_complete_partial {s : State R} {e : ℕ} {o : Opts R} (hok : Ok s) (hsave : o.save = true)
    (hset : (setDisk s e o).2 = none) (hother : ∀ i, i ≠ e → (s.env i).path ≠ some o.target)
    {l : List (Event R)} (hl : During e o.target l) (r : List R) :
    let s' := run (setDisk s e o).1 l
    (finish s' e r).2 = none ∧
    (finish s' e r).1.disk.file o.target = some (.rows (o.out (saved e l ++ r))) ∧
    (finish s' e r).1.disk.file (o.target ++ tmp) = none := by
  have hacc : (setDisk s e o).1.env e = ⟨true, some o.target, some (o.target ++ tmp), o.out⟩ ∧
      (setDisk s e o).1.disk.file (o.target ++ tmp) = some (.rows []) := by
    revert hset
    unfold setDisk
    rw [if_neg (by simp [hsave])]
    split
    · intro h; cases h
    · split
      · intro h; cases h
      · split
        · intro h; cases h
        · intro _; simp
  have hd := during_tmp (a := []) (ok_set hok e o) (target_ends o) (by rw [hacc.1]) (by rw [hacc.1]) ?_ hacc.2 l hl
  · obtain ⟨-, h1, h2⟩ := hd
    rw [hacc.1] at h1
    rw [List.nil_append] at h2
    have hne := tmp_ne (q := o.target) (target_ends o)
    have hr1 : report o.target ≠ o.target := report_ne (target_ends o).isInfix
    have hr2 : report o.target ≠ o.target ++ tmp := report_ne (tmp_infix (target_ends o))
    intro s'
    have hfin : finish s' e r = ((((s'.write (o.target ++ tmp) (some (.rows (saved e l ++ r)))).write o.target
        (some (.rows (o.out (saved e l ++ r))))).write (o.target ++ tmp) none).write (report o.target) (some .report), none) := by
      simp [finish, flush, s', h1, h2]
    rw [hfin]
    refine ⟨rfl, ?_, ?_⟩
    · simp [hr1.symm, hne.symm]
    · simp [hr2.symm]
  · intro i hi h
    rcases set_tmp s e o i with ⟨h1, -⟩ | ⟨h1, -⟩ | ⟨-, h1⟩
    · exact hi h1
    · exact hi h1
    · rw [h1] at h
      obtain ⟨p', h3, h4, -⟩ := hok i _ h
      rw [List.append_cancel_right h4] at hother
      exact hother i hi h3

/-- **C179** fails for a second run: after a run has ended, the environment (reset, but without a new call of `set_disksaving`) cannot save
again: the second run raises when it saves for the first time. -/
theorem C179_fails_again {s : State R} {e : ℕ} {r : List R} (hok : Ok s) (hsave : (s.env e).save = true)
    (h : (finish s e r).2 = none) (r' : List R) :
    (flush (finish s e r).1 e r').2 = some .notFound ∧ (finish (finish s e r).1 e r').2 = some .notFound := by
  have henv := finish_env s e r
  suffices hf : ∃ q, (s.env e).pathTmp = some q ∧ (finish s e r).1.disk.file q = none by
    obtain ⟨q, h1, h2⟩ := hf
    have h3 : flush (finish s e r).1 e r' = ((finish s e r).1, some .notFound) := by
      unfold flush
      rw [henv, if_neg (by simp [hsave]), h1]
      dsimp only
      rw [h2]
    refine ⟨by rw [h3], ?_⟩
    generalize (finish s e r).1 = t at *
    unfold finish
    rw [if_neg (by rw [henv]; simp [hsave]), h3]
  cases hq : (s.env e).pathTmp with
  | none =>
    exfalso
    revert h
    simp [finish, flush, hsave, hq]
  | some q =>
    refine ⟨q, rfl, ?_⟩
    obtain ⟨p, h1, h2, h3⟩ := hok e q hq
    subst h2
    cases hx : s.disk.file (p ++ tmp) with
    | none => exfalso; revert h; simp [finish, flush, hsave, hq, hx]
    | some c =>
      cases c with
      | report => exfalso; revert h; simp [finish, flush, hsave, hq, hx]
      | rows a =>
        have hr2 : report p ≠ p ++ tmp := report_ne (tmp_infix h3)
        simp [finish, flush, hsave, hq, hx, h1, hr2.symm]

/-- **C179** fails for simulations of the same name which are set up within the same second (no matter in which order, with `overwrite`
or without): the second one is accepted too, the rows of both get into one file and the second one to end raises. -/
theorem C179_fails_same_second {s : State R} {o o' : Opts R} (ho : o.save = true) (ho' : o'.save = true) (hf : o.freqOk = true)
    (hf' : o'.freqOk = true) (hc : o.createNew = true) (hc' : o'.createNew = true) (ht : o'.target = o.target)
    (hfree : s.disk.file o.target = none) (a b a' b' : List R) :
    let s1 := setDisk s 1 o
    let s2 := setDisk s1.1 2 o'
    let s3 := run s2.1 [.flush 1 a, .flush 2 b]
    let s4 := finish s3 1 a'
    s1.2 = none ∧ s2.2 = none ∧ s4.2 = none ∧
    s4.1.disk.file o.target = some (.rows (o.out (a ++ b ++ a'))) ∧ (finish s4.1 2 b').2 = some .notFound := by
  have hne := tmp_ne (q := o.target) (target_ends o)
  have hr1 : report o.target ≠ o.target := report_ne (target_ends o).isInfix
  have hr2 : report o.target ≠ o.target ++ tmp := report_ne (tmp_infix (target_ends o))
  have e1 : setDisk s 1 o = ((({ (s.setEnv 1 ⟨true, some o.target, none, o.out⟩) with
      disk := { s.disk with dir := fun q => q == o.path || s.disk.dir q } } : State R).setEnv 1
        ⟨true, some o.target, some (o.target ++ tmp), o.out⟩).write (o.target ++ tmp) (some (.rows [])), none) := by
    simp [setDisk, ho, hf, hc, hfree]
  intro s1
  have d1 : s1.1.disk.file (o.target ++ tmp) = some (.rows []) ∧ s1.1.disk.file o.target = none ∧
      s1.1.env 1 = ⟨true, some o.target, some (o.target ++ tmp), o.out⟩ := by
    simp [s1, e1, hne.symm, hfree]
  intro s2
  have e2 : s2 = ((({ (s1.1.setEnv 2 ⟨true, some o.target, none, o'.out⟩) with
      disk := { s1.1.disk with dir := fun q => q == o'.path || s1.1.disk.dir q } } : State R).setEnv 2
        ⟨true, some o.target, some (o.target ++ tmp), o'.out⟩).write (o.target ++ tmp) (some (.rows [])), none) := by
    simp [s2, setDisk, ho', hf', hc', ht, d1.2.1]
  have d2 : s2.1.disk.file (o.target ++ tmp) = some (.rows []) ∧
      s2.1.env 1 = ⟨true, some o.target, some (o.target ++ tmp), o.out⟩ ∧
      s2.1.env 2 = ⟨true, some o.target, some (o.target ++ tmp), o'.out⟩ := by
    simp [e2, d1.2.2]
  intro s3
  have e3 : s3 = (s2.1.write (o.target ++ tmp) (some (.rows a))).write (o.target ++ tmp) (some (.rows (a ++ b))) := by
    simp [s3, run, step, flush, d2]
  have d3 : s3.disk.file (o.target ++ tmp) = some (.rows (a ++ b)) ∧ s3.env = s2.1.env := by simp [e3]
  intro s4
  have e4 : s4 = ((((s3.write (o.target ++ tmp) (some (.rows (a ++ b ++ a')))).write o.target
        (some (.rows (o.out (a ++ b ++ a'))))).write (o.target ++ tmp) none).write (report o.target) (some .report), none) := by
    simp [s4, finish, flush, d3, d2]
  refine ⟨by simp [s1, e1], by simp [e2], by simp [e4], by simp [e4, hr1.symm, hne.symm], ?_⟩
  simp [finish, flush, e4, d3, d2, hr2.symm]

/-! ## Folders -/

/-- **C179**, partial: if the folder was given with a separator at its end (and the name of the simulation contains none), the results
are saved in this folder. -/
theorem C179_folder_partial (sep : Char) (o : Opts R) (dir : Name) (hdir : o.path = dir ++ [sep]) (hd : sep ∉ o.date) (hn : sep ∉ o.name)
    (hs : sep ∉ '_' :: h5) : folder sep o.target = o.path := by
  have hall : sep ∉ (o.date ++ ('_' :: (o.name ++ h5))) := by
    simp only [List.mem_append, List.mem_cons] at hs ⊢
    tauto
  unfold folder Opts.target
  rw [hdir, List.reverse_append, List.dropWhile_append_of_pos]
  · simp
  · intro c hc
    rw [List.mem_reverse] at hc
    simp only [ne_eq, decide_not, Bool.not_eq_eq_eq_not, Bool.not_true, decide_eq_false_iff_not]
    rintro rfl
    exact hall hc

/-- **C179** fails for folders given without a separator at the end: the results are never saved in this folder (which is created if it
does not exist). -/
theorem C179_fails_folder (sep : Char) (o : Opts R) (hd : sep ∉ o.date) (hn : sep ∉ o.name) (hs : sep ∉ '_' :: h5) :
    folder sep o.target ≠ o.path ++ [sep] := by
  have hall : sep ∉ (o.date ++ ('_' :: (o.name ++ h5))) := by
    simp only [List.mem_append, List.mem_cons] at hs ⊢
    tauto
  intro h
  have hpre : folder sep o.target <+: o.target := by
    unfold folder
    have := List.dropWhile_suffix (l := o.target.reverse) (fun c => decide (c ≠ sep))
    have := List.reverse_prefix.2 this
    simpa using this
  rw [h] at hpre
  obtain ⟨t, ht⟩ := hpre
  unfold Opts.target at ht
  rw [List.append_assoc, List.append_cancel_left_eq] at ht
  exact hall (ht ▸ by simp)

/-- Before the first ending, the name of the report is that of the results. -/
theorem report_append : ∀ {u : Name}, ¬ h5 <:+: (u ++ ['.', 'h']) → report (u ++ h5) = u ++ csv
  | [], _ => by simp [report, h5, csv]
  | c :: u, h => by
    have hp : ¬ h5 <+: (c :: (u ++ h5)) := by
      rintro ⟨t, ht⟩
      apply h
      match u, ht with
      | [], ht => simp [h5] at ht
      | [_], ht => simp [h5] at ht
      | x :: y :: u, ht =>
        simp only [h5, List.cons_append, List.nil_append, List.cons.injEq] at ht
        obtain ⟨rfl, rfl, rfl, -⟩ := ht
        exact ⟨[], u ++ ['.', 'h'], rfl⟩
    rw [List.cons_append, report_cons hp, report_append (fun hi => h (by
      rw [List.cons_append]; exact List.infix_cons_iff.2 (Or.inr hi)))]
    rfl

/-- **C179**, partial: if `.h5` is contained neither in the folder nor in the name of the simulation, the report stands beside the results
and has their name. -/
theorem C179_report_partial (o : Opts R) (h : ¬ h5 <:+: (o.path ++ (o.date ++ ('_' :: o.name))) ++ ['.', 'h']) :
    report o.target = o.path ++ (o.date ++ ('_' :: o.name)) ++ csv := by
  have : o.target = (o.path ++ (o.date ++ ('_' :: o.name))) ++ h5 := by simp [Opts.target]
  rw [this, report_append h]

/-- **C179** fails if the folder has `.h5` in its name: the report is looked for in another folder. -/
theorem C179_fails_report (o : Opts R) (dir rest : Name) (hdir : o.path = dir ++ (h5 ++ '/' :: rest)) (hn : ¬ h5 <:+: dir ++ ['.', 'h']) :
    ¬ (dir ++ h5) <+: report o.target := by
  have hgen : ∀ (d r : Name), ¬ h5 <:+: d ++ ['.', 'h'] → ∃ t, report (d ++ (h5 ++ r)) = d ++ (csv ++ t) := by
    intro d
    induction d with
    | nil => intro r _; exact ⟨report r, by simp [report, h5]⟩
    | cons c d ih =>
      intro r hd
      have hp : ¬ h5 <+: (c :: (d ++ (h5 ++ r))) := by
        rintro ⟨t, ht⟩
        apply hd
        match d, ht with
        | [], ht => simp [h5] at ht
        | [_], ht => simp [h5] at ht
        | x :: y :: d, ht =>
          simp only [h5, List.cons_append, List.nil_append, List.cons.injEq] at ht
          obtain ⟨rfl, rfl, rfl, -⟩ := ht
          exact ⟨[], d ++ ['.', 'h'], rfl⟩
      obtain ⟨t, ht⟩ := ih r (fun hi => hd (by rw [List.cons_append]; exact List.infix_cons_iff.2 (Or.inr hi)))
      exact ⟨t, by rw [List.cons_append, report_cons hp, ht]; rfl⟩
  have ht : o.target = dir ++ (h5 ++ ('/' :: rest ++ (o.date ++ ('_' :: (o.name ++ h5))))) := by
    simp [Opts.target, hdir]
  obtain ⟨t, h⟩ := hgen dir ('/' :: rest ++ (o.date ++ ('_' :: (o.name ++ h5)))) hn
  rw [ht, h]
  rintro ⟨u, hu⟩
  rw [List.append_assoc, List.append_cancel_left_eq] at hu
  simp [h5, csv] at hu

/-! ## Witnesses -/

/-- Two simulations with different names. -/
def opts (c : Char) : Opts ℕ := ⟨true, ['r', '/'], ['9'], [c], false, true, true, id⟩

def start : State ℕ := ⟨⟨fun _ => none, fun _ => false⟩, fun _ => ⟨false, none, none, id⟩⟩

theorem start_ok : Ok start := by intro e q h; cases h

/-- The hypotheses of `C179_kept_partial` and `C179_complete_partial` can be met: two simulations at the same time, then a third. -/
example : ((finish (run (setDisk start 1 (opts 'a')).1 [.set 2 (opts 'b'), .flush 1 [1], .flush 2 [5], .flush 1 [2]]) 1 [3]).1.disk.file
    (opts 'a').target) = some (.rows [1, 2, 3]) :=
  (C179_complete_partial start_ok rfl rfl (by intro i _; simp [start])
    ⟨by intro i o h; simp at h; obtain ⟨rfl, rfl⟩ := h; exact ⟨by decide, by decide⟩, by intro r h; simp at h⟩ [3]).2.1

example : (run (⟨⟨fun q => if q = (opts 'a').target then some (.rows [7]) else none, fun _ => true⟩, start.env⟩ : State ℕ)
    [.set 1 (opts 'a'), .set 2 (opts 'b'), .flush 2 [1], .finish 2 [2]]).disk.file (opts 'a').target = some (.rows [7]) :=
  C179_kept_partial (by intro e q h; cases h) (target_ends _) (by simp) (fun e h => by cases h) _ (by
    intro e o h ho
    simp at h
    rcases h with ⟨-, rfl⟩ | ⟨-, rfl⟩ <;> rfl)

example : folder '/' (opts 'a').target = ['r', '/'] := C179_folder_partial '/' (opts 'a') ['r'] rfl (by decide) (by decide) (by decide)

example : report (opts 'a').target = ['r', '/', '9', '_', 'a', '_', 'R', 'E', 'P', 'O', 'R', 'T', '.', 'c', 's', 'v'] := by decide +kernel

/-- The hypotheses of `C179_fails_same_second`, `C179_fails_again`, `C179_fails_folder` and `C179_fails_report` can be met. -/
example : (finish (run (setDisk (setDisk start 1 (opts 'a')).1 2 (opts 'a')).1 [.flush 1 [1], .flush 2 [5]]) 1 [2]).1.disk.file
    (opts 'a').target = some (.rows [1, 5, 2]) :=
  (C179_fails_same_second rfl rfl rfl rfl rfl rfl rfl rfl [1] [5] [2] []).2.2.2.1

example : (flush (finish (setDisk start 1 (opts 'a')).1 1 [1]).1 1 [2]).2 = some .notFound :=
  (C179_fails_again (ok_set start_ok 1 (opts 'a')) rfl (by decide +kernel) [2]).1

example : folder '/' ({ opts 'a' with path := ['r'] } : Opts ℕ).target ≠ ['r', '/'] :=
  C179_fails_folder '/' { opts 'a' with path := ['r'] } (by decide) (by decide) (by decide)

example : ¬ ['r', '.', 'h', '5'] <+: report ({ opts 'a' with path := ['r', '.', 'h', '5', '/'] } : Opts ℕ).target :=
  C179_fails_report { opts 'a' with path := ['r', '.', 'h', '5', '/'] } ['r'] [] rfl (by decide)

end Verif.StoreFiles
