import Verif.Spec.PlanRecords
import Verif.Props.Plan

/-!
# C175: the plans of the predictive controller are found in the stored results
-/

set_option linter.unusedSectionVars false

namespace Verif.Plan

universe u

variable {K : Type u} [Field K] [LinearOrder K] [IsStrictOrderedRing K] [FloorRing K]

/-- A row to which nothing has been written. -/
def Fresh (m : ℕ) (r : Row K) : Prop := r = Row.nan K m ∨ r = Row.last K m

theorem Fresh.stamp {m : ℕ} {r : Row K} (h : Fresh m r) : r.steptime = none ∧ r.status = none ∧ r.cost = none := by
  rcases h with rfl | rfl <;> exact ⟨rfl, rfl, rfl⟩

theorem modify_append {α : Type*} (f : α → α) (r : α) (l' : List α) :
    ∀ l : List α, (l ++ r :: l').modify l.length f = l ++ f r :: l'
  | [] => by simp
  | x :: l => by simpa using modify_append f r l' l

theorem calls_book {m : ℕ} : ∀ (l : List (K × Event K)) (b : Book K) (s : St K) (ks : List (Option ℕ)) (done fresh : List (Row K)),
    calls b.sched (l.map Prod.fst) = some (s, ks) → b.rows = done ++ fresh → done.length = b.sched.numOpts →
    fresh.length = b.sched.steps.length → (∀ r ∈ fresh, Fresh m r) →
    ∃ b' done' fresh', Book.calls b l = some b' ∧ b'.rows = done ++ done' ++ fresh' ∧ (∀ r ∈ fresh', Fresh m r) ∧
      (∀ {γ : Type u} (tab : Row K → Option γ) (ex : (K × Event K) × Option ℕ → Option γ),
        (∀ r k t e, Fresh m r → (t, e) ∈ l → tab (record k t r e) = ex ((t, e), some k)) → (∀ p, ex (p, none) = none) →
        done'.filterMap tab = (l.zip ks).filterMap ex) ∧
      b'.socs = b.socs ++ (l.zip ks).filterMap (fun p => (socRow 0 p).map fun r => (r.1, r.2)) := by
  intro l
  induction l with
  | nil =>
    intro b s ks done fresh hc hr hd hf hfr
    exact ⟨b, [], fresh, rfl, by simpa using hr, hfr, fun _ _ _ _ => by simp, by simp⟩
  | cons p l ih =>
    obtain ⟨t, e⟩ := p
    intro b s ks done fresh hc hr hd hf hfr
    obtain ⟨⟨steps, n⟩, rows, socs⟩ := b
    simp only at hc hr hd hf
    rcases steps with _ | ⟨x, xs⟩
    · simp [calls, call] at hc
    by_cases hx : x ≤ t
    · have hcall : call t ⟨x :: xs, n⟩ = some (⟨xs, n + 1⟩, some n) := by simp [call, hx]
      simp only [List.map_cons, calls, hcall, Option.bind_eq_bind, Option.bind_some, Option.bind_eq_some_iff] at hc
      obtain ⟨⟨s', ks'⟩, hc', hk⟩ := hc
      obtain ⟨rfl, rfl⟩ : s' = s ∧ some n :: ks' = ks := by simpa using hk
      rcases fresh with _ | ⟨r, fresh⟩
      · simp at hf
      have hrow : (rows.modify n fun r => record n t r e) = (done ++ [record n t r e]) ++ fresh := by
        rw [hr, ← hd, modify_append]
        simp
      obtain ⟨b', done', fresh', h1, h2, h3, h4, h5⟩ := ih ⟨⟨xs, n + 1⟩, (rows.modify n fun r => record n t r e),
        measured t socs e⟩ s' ks' (done ++ [record n t r e]) fresh hc' hrow (by simp [hd])
        (by simpa using hf) (fun q hq => hfr q (List.mem_cons_of_mem _ hq))
      refine ⟨b', record n t r e :: done', fresh', ?_, ?_, h3, ?_, ?_⟩
      · simp only [Book.calls, Book.call, hcall, Option.bind_eq_bind, Option.bind_some]
        exact h1
      · rw [h2]; simp
      · intro γ tab ex hex hno
        have h0 := hex r n t e (hfr r List.mem_cons_self) List.mem_cons_self
        have := h4 tab ex (fun r k t e hr hm => hex r k t e hr (List.mem_cons_of_mem _ hm)) hno
        simp only [List.zip_cons_cons, List.filterMap_cons, h0, this]
      · rw [h5]
        cases e <;> simp [socRow, measured]
    · have hcall : call t ⟨x :: xs, n⟩ = some (⟨x :: xs, n⟩, none) := by simp [call, hx]
      simp only [List.map_cons, calls, hcall, Option.bind_eq_bind, Option.bind_some, Option.bind_eq_some_iff] at hc
      obtain ⟨⟨s', ks'⟩, hc', hk⟩ := hc
      obtain ⟨rfl, rfl⟩ : s' = s ∧ none :: ks' = ks := by simpa using hk
      obtain ⟨b', done', fresh', h1, h2, h3, h4, h5⟩ := ih ⟨⟨x :: xs, n⟩, rows, socs⟩ s' ks' done fresh hc' hr hd hf hfr
      refine ⟨b', done', fresh', ?_, h2, h3, ?_, ?_⟩
      · simp only [Book.calls, Book.call, hcall, Option.bind_eq_bind, Option.bind_some]
        exact h1
      · intro γ tab ex hex hno
        have := h4 tab ex (fun r k t e hr hm => hex r k t e hr (List.mem_cons_of_mem _ hm)) hno
        simp only [List.zip_cons_cons, List.filterMap_cons, hno, this]
      · rw [h5]
        simp [socRow]

/-- A whole simulation with steps of at most one planning interval, for any table made row by row. -/
theorem run_book {tf oe t : K} (ho : 0 < oe) (h0 : 0 ≤ t) (h1 : t < oe) (htf : t < tf) (e : Event K)
    (l : List (K × Event K)) (hs : Steps tf oe t (l.map Prod.fst)) (m : ℕ) :
    ∃ b, Book.calls (Book.init tf oe m) ((t, e) :: l) = some b ∧
      (∀ {γ : Type u} (tab : Row K → Option γ) (ex : (K × Event K) × Option ℕ → Option γ),
        (∀ r, Fresh m r → tab r = none) →
        (∀ r k t' e', Fresh m r → (t', e') ∈ (t, e) :: l → tab (record k t' r e') = ex ((t', e'), some k)) →
        (∀ p, ex (p, none) = none) →
        b.rows.filterMap tab = (((t, e) :: l).zip (some 0 :: wanted oe t (l.map Prod.fst))).filterMap ex) ∧
      b.socs = (((t, e) :: l).zip (some 0 :: wanted oe t (l.map Prod.fst))).filterMap (socRow 0) := by
  obtain ⟨s, hc⟩ := C137_schedule_partial ho h0 h1 htf (l.map Prod.fst) hs
  obtain ⟨b, done, fresh, a1, a2, a3, a4, a5⟩ := calls_book (m := m) ((t, e) :: l) (Book.init tf oe m) s _ []
    (Book.init tf oe m).rows hc rfl rfl (by simp [Book.init, St.init]) (by
      intro r hr
      simp only [Book.init, List.mem_append, List.mem_replicate, List.mem_singleton] at hr
      exact hr.imp And.right id)
  refine ⟨b, a1, ?_, ?_⟩
  · intro γ tab ex hf hex hno
    have : fresh.filterMap tab = [] := List.filterMap_eq_nil_iff.2 fun r hr => hf r (a3 r hr)
    rw [a2, List.filterMap_append, List.filterMap_append, this, a4 tab ex hex hno]
    simp
  · rw [a5]
    simp [Book.init]

/-- **C175**, partial (statistics): table `opt_stats` has exactly one row for each planning step in which the optimiser was
called, with its time, its number, its status and its cost, in the order of the planning steps.  Missing: steps longer than
`opt_every` (C137), and the planning steps during emergency control, which the table should have, too
(`C175_fails_emergency`). -/
theorem C175_stats_partial {tf oe t : K} (ho : 0 < oe) (h0 : 0 ≤ t) (h1 : t < oe) (htf : t < tf) (e : Event K)
    (l : List (K × Event K)) (hs : Steps tf oe t (l.map Prod.fst)) (m : ℕ) (start : K) :
    ∃ b, Book.calls (Book.init tf oe m) ((t, e) :: l) = some b ∧ statsTable start b.rows =
      (((t, e) :: l).zip (some 0 :: wanted oe t (l.map Prod.fst))).filterMap (statsRow start) := by
  obtain ⟨b, a1, a2, -⟩ := run_book ho h0 h1 htf e l hs m
  refine ⟨b, a1, a2 _ _ ?_ ?_ ?_⟩
  · intro r hr
    obtain ⟨r1, r2, r3⟩ := hr.stamp
    simp [r1]
  · intro r k t' e' hr _
    obtain ⟨r1, r2, r3⟩ := hr.stamp
    cases e' with
    | emergency on => simp [record, r1, statsRow]
    | optimise o =>
      by_cases ha : accepted o.status = true
      · have : o.status ∈ [0, 3, 4, 8, 9] := by simpa [accepted] using ha
        simp only [record, if_pos ha, statsRow, if_pos this]
      · have : o.status ∉ [0, 3, 4, 8, 9] := by simpa [accepted] using ha
        simp only [record, if_neg ha, statsRow, if_neg this]
  · rintro ⟨t', e'⟩
    cases e' <;> rfl

/-- A column of a row to which nothing has been written: nothing, or a zero at the beginning. -/
def Blank (m : ℕ) (c : List (Option K)) : Prop :=
  c = List.replicate m none ∨ c = (List.replicate m none).set 0 (some 0)

theorem Blank.drop {m : ℕ} {c : List (Option K)} (h : Blank m c) {n : ℕ} (hn : 1 ≤ n) :
    c.drop n = List.replicate (m - n) none := by
  obtain ⟨n, rfl⟩ := Nat.exists_eq_add_of_le' hn
  rcases h with rfl | rfl
  · simp
  · cases m with
    | zero => simp
    | succ m => simp [List.replicate_succ]

theorem Blank.few {m : ℕ} {c : List (Option K)} (h : Blank m c) : (c.filter Option.isSome).length < 2 := by
  rcases h with rfl | rfl
  · simp
  · cases m with
    | zero => simp
    | succ m => simp [List.replicate_succ]

theorem count_padded (m : ℕ) (xs : List K) : ((padded m xs).filter Option.isSome).length = xs.length := by
  have : (xs.map some).filter Option.isSome = xs.map some := List.filter_eq_self.2 (by simp)
  simp [padded, List.filter_append, this]

theorem Blank.overwrite {m : ℕ} {c : List (Option K)} (h : Blank m c) {xs : List K} :
    (xs = [] ∧ Plan.overwrite c xs = c) ∨ (1 ≤ xs.length ∧ Plan.overwrite c xs = padded m xs) := by
  rcases xs with _ | ⟨x, xs⟩
  · exact .inl ⟨rfl, by simp [Plan.overwrite]⟩
  · exact .inr ⟨by simp, by rw [Plan.overwrite, h.drop (by simp), padded]⟩

/-- Whether a row with the values `xs` is kept, and what it is then. -/
theorem kept {m : ℕ} {c : List (Option K)} (h : Blank m c) (xs : List K) (t : Option K) :
    (if 2 ≤ ((Plan.overwrite c xs).filter Option.isSome).length then some (t, Plan.overwrite c xs) else none) =
      if 2 ≤ xs.length then some (t, padded m xs) else none := by
  rcases h.overwrite (xs := xs) with ⟨rfl, h'⟩ | ⟨h1, h'⟩
  · rw [h', if_neg (by have := h.few; omega), if_neg (by simp)]
  · rw [h', count_padded]

/-- **C175**, partial (plans): table `opt_res_longterm` has exactly one row for each planning step with an accepted plan of
at least two steps, with its time stamp and the plan.  Missing: plans of one step, which the table should have, too
(`C175_fails_single`), and as in `C175_stats_partial`. -/
theorem C175_plans_partial {tf oe t : K} (ho : 0 < oe) (h0 : 0 ≤ t) (h1 : t < oe) (htf : t < tf) (e : Event K)
    (l : List (K × Event K)) (hs : Steps tf oe t (l.map Prod.fst)) (m : ℕ) (start : K) :
    ∃ b, Book.calls (Book.init tf oe m) ((t, e) :: l) = some b ∧ planTable start b.rows =
      (((t, e) :: l).zip (some 0 :: wanted oe t (l.map Prod.fst))).filterMap (planRow start m) := by
  obtain ⟨b, a1, a2, -⟩ := run_book ho h0 h1 htf e l hs m
  have hb : ∀ r : Row K, Fresh m r → Blank m r.plan := by
    rintro r (rfl | rfl)
    · exact .inl rfl
    · exact .inr rfl
  refine ⟨b, a1, a2 _ _ ?_ ?_ ?_⟩
  · intro r hr
    have := (hb r hr).few
    rw [if_neg (by omega)]
  · intro r k t' e' hr hm
    cases e' with
    | emergency on =>
      have := (hb r hr).few
      exact if_neg (by show ¬ 2 ≤ (r.plan.filter Option.isSome).length; omega)
    | optimise o =>
      by_cases ha : accepted o.status = true
      · have hin : o.status ∈ [0, 3, 4, 8, 9] := by simpa [accepted] using ha
        simp only [record, if_pos ha, planRow, hin, true_and, Option.map_some]
        exact kept (hb r hr) o.plan _
      · have hin : o.status ∉ [0, 3, 4, 8, 9] := by simpa [accepted] using ha
        simp only [record, if_neg ha, planRow, hin, false_and, if_false]
        rw [if_neg]
        simp
  · rintro ⟨t', e'⟩
    cases e' <;> rfl

/-- **C175**, partial (adjusted plans): table `opt_res_longterm_postproc` has exactly one row for each planning step whose
adjusted plan has at least two steps, with its time stamp and the adjusted plan; a plan which was not accepted begins with
the modulation used instead.  Missing as in `C175_plans_partial`. -/
theorem C175_adjusted_partial {tf oe t : K} (ho : 0 < oe) (h0 : 0 ≤ t) (h1 : t < oe) (htf : t < tf) (e : Event K)
    (l : List (K × Event K)) (hs : Steps tf oe t (l.map Prod.fst)) (m : ℕ) (start : K) :
    ∃ b, Book.calls (Book.init tf oe m) ((t, e) :: l) = some b ∧ postTable start b.rows =
      (((t, e) :: l).zip (some 0 :: wanted oe t (l.map Prod.fst))).filterMap (postRow start m) := by
  obtain ⟨b, a1, a2, -⟩ := run_book ho h0 h1 htf e l hs m
  have hb : ∀ r : Row K, Fresh m r → Blank m r.post := by
    rintro r (rfl | rfl)
    · exact .inl rfl
    · exact .inr rfl
  refine ⟨b, a1, a2 _ _ ?_ ?_ ?_⟩
  · intro r hr
    have := (hb r hr).few
    rw [if_neg (by omega)]
  · intro r k t' e' hr hm
    cases e' with
    | emergency on =>
      have := (hb r hr).few
      exact if_neg (by show ¬ 2 ≤ (r.post.filter Option.isSome).length; omega)
    | optimise o =>
      by_cases ha : accepted o.status = true
      · have hin : o.status ∈ [0, 3, 4, 8, 9] := by simpa [accepted] using ha
        simp only [record, if_pos ha, postRow, hin, if_true, Option.map_some]
        exact kept (hb r hr) o.post _
      · have hin : o.status ∉ [0, 3, 4, 8, 9] := by simpa [accepted] using ha
        simp only [record, if_neg ha, postRow, hin, if_false, Option.map_some]
        rcases hp : o.post with _ | ⟨x, xs⟩
        · have hc : (((Plan.overwrite r.post ([] : List K)).set 0 (some o.now)).filter Option.isSome).length < 2 := by
            have : Plan.overwrite r.post ([] : List K) = r.post := by simp [overwrite]
            rw [this]
            rcases hb r hr with h | h <;> rw [h]
            · cases m <;> simp [List.replicate_succ]
            · cases m <;> simp [List.replicate_succ]
          rw [if_neg (by omega)]
          simp
        · have : (Plan.overwrite r.post (x :: xs)).set 0 (some o.now) = Plan.overwrite r.post (o.now :: xs) := by
            simp [overwrite]
          rw [this]
          have := kept (hb r hr) (o.now :: xs) (some (start + t'))
          simpa using this
  · rintro ⟨t', e'⟩
    cases e' <;> rfl

theorem firsts_of_increasing {α : Type*} : ∀ l : List (K × α), (l.map Prod.fst).Pairwise (· < ·) → firsts l = l
  | [], _ => rfl
  | r :: l, h => by
    simp only [List.map_cons, List.pairwise_cons] at h
    rw [firsts, firsts_of_increasing l h.2, List.filter_eq_self.2]
    intro q hq
    have := h.1 q.1 (List.mem_map_of_mem hq)
    simpa using this.ne'

/-- **C175**, partial (states of charge): table `tes_soc` has exactly one row for each planning step in which the optimiser
was called, with its time stamp and the state of charge, if there was one.  Missing: if there was none, the table has a row
which was never measured (`C175_fails_invented`). -/
theorem C175_soc_partial {tf oe t : K} (ho : 0 < oe) (h0 : 0 ≤ t) (h1 : t < oe) (htf : t < tf) (e : Event K)
    (l : List (K × Event K)) (hs : Steps tf oe t (l.map Prod.fst))
    (hinc : (((t, e) :: l).map Prod.fst).Pairwise (· < ·)) (m : ℕ) (start : K)
    (hne : (((t, e) :: l).zip (some 0 :: wanted oe t (l.map Prod.fst))).filterMap (socRow start) ≠ []) :
    ∃ b, Book.calls (Book.init tf oe m) ((t, e) :: l) = some b ∧ socTable start b.socs =
      (((t, e) :: l).zip (some 0 :: wanted oe t (l.map Prod.fst))).filterMap (socRow start) := by
  obtain ⟨b, a1, -, a3⟩ := run_book ho h0 h1 htf e l hs m
  refine ⟨b, a1, ?_⟩
  set ev := (t, e) :: l
  set ks := some 0 :: wanted oe t (l.map Prod.fst)
  have hmap : (b.socs.map fun r : K × K × K × K => (start + r.1, r.2)) = (ev.zip ks).filterMap (socRow start) := by
    rw [a3, List.map_filterMap]
    refine List.filterMap_congr ?_
    rintro ⟨⟨t', e'⟩, k⟩ _
    cases e' <;> cases k <;> simp [socRow]
  have hn : b.socs ≠ [] := by
    intro h
    rw [h] at hmap
    exact hne hmap.symm
  rw [socTable, if_neg hn, hmap, firsts_of_increasing]
  have key : ∀ (l : List (K × Event K)) (ks : List (Option ℕ)), (l.map Prod.fst).Pairwise (· < ·) →
      (((l.zip ks).filterMap (socRow start)).map Prod.fst).Pairwise (· < ·) ∧
        ∀ x ∈ ((l.zip ks).filterMap (socRow start)).map Prod.fst, ∃ p ∈ l, x = start + p.1 := by
    intro l
    induction l with
    | nil => intro ks _; simp
    | cons p l ih =>
      intro ks hp
      rcases ks with _ | ⟨k, ks⟩
      · simp
      simp only [List.map_cons, List.pairwise_cons] at hp
      obtain ⟨i1, i2⟩ := ih ks hp.2
      have i2' : ∀ x ∈ ((l.zip ks).filterMap (socRow start)).map Prod.fst, ∃ q ∈ p :: l, x = start + q.1 :=
        fun x hx => (i2 x hx).imp fun q hq => ⟨List.mem_cons_of_mem _ hq.1, hq.2⟩
      obtain ⟨t', e'⟩ := p
      rw [List.zip_cons_cons, List.filterMap_cons]
      rcases hk : socRow start ((t', e'), k) with _ | r
      · exact ⟨i1, i2'⟩
      · have hr : r.1 = start + t' := by
          cases e' <;> cases k <;> simp [socRow] at hk
          rw [← hk]
        simp only [List.map_cons, List.pairwise_cons, List.mem_cons, hr]
        refine ⟨⟨?_, i1⟩, ?_⟩
        · intro x hx
          obtain ⟨q, hq, rfl⟩ := i2 x hx
          have := hp.1 q.1 (List.mem_map_of_mem hq)
          linarith
        · rintro x (rfl | hx)
          · exact ⟨(t', e'), .inl rfl, rfl⟩
          · simpa using i2' x hx
  exact (key ev ks hinc).1

/-- Specification: what the array of states has to say of a planning step: 100 if emergency control switched the plant on, -100 if it
switched it off, the state of the optimiser if its plan was accepted, otherwise 99. -/
def statusOf : (K × Event K) × Option ℕ → Option ℤ
  | (_, none) => none
  | ((_, .emergency true), some _) => some 100
  | ((_, .emergency false), some _) => some (-100)
  | ((_, .optimise o), some _) => some (if o.status ∈ [0, 3, 4, 8, 9] then o.status else 99)

/-- **C175**, partial (states during the simulation): array `_opt_status` has exactly one entry for each planning step, those during
emergency control included, in their order.  Missing: the entries of emergency control do not reach the stored table
(`C175_fails_emergency`). -/
theorem C175_status_partial {tf oe t : K} (ho : 0 < oe) (h0 : 0 ≤ t) (h1 : t < oe) (htf : t < tf) (e : Event K)
    (l : List (K × Event K)) (hs : Steps tf oe t (l.map Prod.fst)) (m : ℕ) :
    ∃ b, Book.calls (Book.init tf oe m) ((t, e) :: l) = some b ∧ b.rows.filterMap Row.status =
      (((t, e) :: l).zip (some 0 :: wanted oe t (l.map Prod.fst))).filterMap statusOf := by
  obtain ⟨b, a1, a2, -⟩ := run_book ho h0 h1 htf e l hs m
  refine ⟨b, a1, ?_⟩
  have key := congrArg (List.map ULift.down) (a2 (γ := ULift ℤ) (fun r => r.status.map ULift.up) (fun p => (statusOf p).map ULift.up)
    (fun r hr => by simp [hr.stamp.2.1]) ?_ ?_)
  · simpa [List.map_filterMap, Option.map_map, Function.comp_def] using key
  · intro r k t' e' hr _
    cases e' with
    | emergency on => cases on <;> simp [record, statusOf]
    | optimise o =>
      by_cases ha : accepted o.status = true
      · have : o.status ∈ [0, 3, 4, 8, 9] := by simpa [accepted] using ha
        simp only [record, if_pos ha, statusOf, if_pos this]
      · have : o.status ∉ [0, 3, 4, 8, 9] := by simpa [accepted] using ha
        simp only [record, if_neg ha, statusOf, if_neg this]
  · rintro ⟨t', e'⟩
    cases e' <;> rfl

/-- **C175** is false of planning steps during emergency control: their states 100 and -100, which the code writes for this
purpose, are in no stored table, whatever happens. -/
theorem C175_fails_emergency {tf oe t : K} (ho : 0 < oe) (h0 : 0 ≤ t) (h1 : t < oe) (htf : t < tf) (e : Event K)
    (l : List (K × Event K)) (hs : Steps tf oe t (l.map Prod.fst)) (m : ℕ) (start : K) :
    ∃ b, Book.calls (Book.init tf oe m) ((t, e) :: l) = some b ∧
      ∀ r ∈ statsTable start b.rows, r.2.2.1 ≠ 100 ∧ r.2.2.1 ≠ -100 := by
  obtain ⟨b, a1, a2⟩ := C175_stats_partial ho h0 h1 htf e l hs m start
  refine ⟨b, a1, ?_⟩
  rw [a2]
  intro r hr
  obtain ⟨⟨⟨t', e'⟩, k⟩, -, hk⟩ := List.mem_filterMap.1 hr
  cases e' <;> cases k <;> simp only [statsRow, reduceCtorEq, Option.some.injEq] at hk
  rw [← hk]
  split_ifs with hin
  · simp only [List.mem_cons, List.not_mem_nil, or_false] at hin
    exact ⟨by dsimp only; omega, by dsimp only; omega⟩
  · simp

/-- **C175** is false of plans of one step, as they are made if the planning horizon is not longer than `opt_every`: the
tables of plans are empty. -/
theorem C175_fails_single {tf oe t : K} (ho : 0 < oe) (h0 : 0 ≤ t) (h1 : t < oe) (htf : t < tf) (e : Event K)
    (l : List (K × Event K)) (hs : Steps tf oe t (l.map Prod.fst)) (start : K)
    (hfit : ∀ p ∈ (t, e) :: l, Fits 1 p.2) :
    ∃ b, Book.calls (Book.init tf oe 1) ((t, e) :: l) = some b ∧ planTable start b.rows = [] ∧
      postTable start b.rows = [] := by
  obtain ⟨b, a1, a2⟩ := C175_plans_partial ho h0 h1 htf e l hs 1 start
  obtain ⟨b', c1, c2⟩ := C175_adjusted_partial ho h0 h1 htf e l hs 1 start
  obtain rfl : b = b' := by simpa using a1.symm.trans c1
  refine ⟨b, a1, ?_, ?_⟩
  · rw [a2, List.filterMap_eq_nil_iff]
    rintro ⟨⟨t', e'⟩, k⟩ hp
    have hf := hfit _ (List.of_mem_zip hp).1
    cases e' <;> cases k <;> simp only [planRow]
    exact if_neg (by have := hf.1; omega)
  · rw [c2, List.filterMap_eq_nil_iff]
    rintro ⟨⟨t', e'⟩, k⟩ hp
    have hf := hfit _ (List.of_mem_zip hp).1
    cases e' <;> cases k <;> simp only [postRow]
    exact if_neg (by have := hf.2; omega)

/-- **C175**: if emergency control is active in all planning steps, the table of the states of charge says that the storage
had no content at the beginning. -/
theorem C175_fails_invented {tf oe t : K} (ho : 0 < oe) (h0 : 0 ≤ t) (h1 : t < oe) (htf : t < tf) (on : Bool)
    (l : List (K × Bool)) (hs : Steps tf oe t (l.map Prod.fst)) (m : ℕ) (start : K) :
    ∃ b, Book.calls (Book.init tf oe m) ((t, on) :: l |>.map fun p => (p.1, .emergency p.2)) = some b ∧
      socTable start b.socs = [(start, 0, 0, 0)] := by
  have hs' : Steps tf oe t ((l.map fun p => (p.1, (.emergency p.2 : Event K))).map Prod.fst) := by
    simpa [List.map_map, Function.comp_def] using hs
  obtain ⟨b, a1, -, a3⟩ := run_book ho h0 h1 htf (.emergency on) (l.map fun p => (p.1, .emergency p.2)) hs' m
  refine ⟨b, a1, ?_⟩
  have : b.socs = [] := by
    rw [a3, List.filterMap_eq_nil_iff]
    rintro ⟨⟨t', e'⟩, k⟩ hp
    have hm := (List.of_mem_zip hp).1
    simp only [List.mem_cons, List.mem_map, Prod.mk.injEq] at hm
    rcases hm with ⟨-, rfl⟩ | ⟨q, -, -, rfl⟩ <;> rfl
  simp [socTable, this, firsts]

/-- A simulation of 50 minutes with planning every 15 minutes: an accepted plan of two steps, a call without planning,
emergency control, and a plan that is not accepted. -/
def exEvents : List (ℚ × Event ℚ) :=
  [(0, .optimise ⟨0, [1, 1 / 2], [1, 3 / 4], -5, 0, 0, (40, 30, 20)⟩), (10, .optimise ⟨0, [0, 0], [0, 0], 0, 0, 0, (0, 0, 0)⟩),
    (22, .emergency true), (31, .optimise ⟨6, [2, 3], [1, 1], 7, 1 / 2, -1, (35, 25, 25)⟩)]

example : Steps (50 : ℚ) 15 0 (exEvents.tail.map Prod.fst) ∧
    (exEvents.zip (some 0 :: wanted (15 : ℚ) 0 (exEvents.tail.map Prod.fst))).filterMap (statsRow 100) =
      [(100, 0, 0, -5), (131, 2, 99, -1)] ∧
    (exEvents.zip (some 0 :: wanted (15 : ℚ) 0 (exEvents.tail.map Prod.fst))).filterMap (planRow 100 2) =
      [(some 100, [some 1, some (1 / 2)])] ∧
    (exEvents.zip (some 0 :: wanted (15 : ℚ) 0 (exEvents.tail.map Prod.fst))).filterMap (postRow 100 2) =
      [(some 100, [some 1, some (3 / 4)]), (some 131, [some (1 / 2), some 1])] ∧
    (exEvents.zip (some 0 :: wanted (15 : ℚ) 0 (exEvents.tail.map Prod.fst))).filterMap (socRow 100) =
      [(100, 40, 30, 20), (131, 35, 25, 25)] ∧
    (exEvents.zip (some 0 :: wanted (15 : ℚ) 0 (exEvents.tail.map Prod.fst))).filterMap statusOf = [0, 100, 99] := by
  refine ⟨by norm_num [Steps, exEvents], by decide +kernel, by decide +kernel, by decide +kernel, by decide +kernel, by decide +kernel⟩

end Verif.Plan
