import Verif.Model.Package
import Mathlib.Data.List.Infix
import Mathlib.Data.List.Nodup

/-!
# Packaging of results (C151)
-/

namespace Verif.Package

/-! ### Texts -/

theorem cut_eq {f : Name} {s a b : Name} (h : cut f s = some (a, b)) : s = a ++ f ++ b := by
  induction s generalizing a b with
  | nil =>
    unfold cut at h
    split_ifs at h with h0
    cases h
    simp [h0]
  | cons c s ih =>
    unfold cut at h
    split_ifs at h with h0
    · cases h
      obtain ⟨t, ht⟩ := List.isPrefixOf_iff_prefix.1 h0
      rw [← ht, List.drop_left]
      simp
    · obtain ⟨q, hq, h⟩ := Option.map_eq_some_iff.1 h
      cases h
      rw [ih hq]
      rfl

theorem cut_some_of {f : Name} (a b : Name) : ∃ q, cut f (a ++ f ++ b) = some q := by
  induction a with
  | nil =>
    simp only [List.nil_append]
    cases hfb : f ++ b with
    | nil =>
      have : f = [] := (List.append_eq_nil_iff.1 hfb).1
      exact ⟨_, by unfold cut; rw [if_pos this]⟩
    | cons c s =>
      refine ⟨([], (c :: s).drop f.length), ?_⟩
      unfold cut
      rw [if_pos (List.isPrefixOf_iff_prefix.2 ⟨b, hfb⟩)]
  | cons c a ih =>
    obtain ⟨q, hq⟩ := ih
    simp only [List.cons_append]
    unfold cut
    by_cases h : f.isPrefixOf (c :: (a ++ f ++ b)) = true
    · rw [if_pos h]; exact ⟨_, rfl⟩
    · rw [if_neg h, hq]; exact ⟨_, rfl⟩

theorem within_iff (f s : Name) : within f s = true ↔ f <:+: s := by
  unfold within
  constructor
  · intro h
    obtain ⟨q, hq⟩ := Option.isSome_iff_exists.1 h
    exact ⟨q.1, q.2, (cut_eq (a := q.1) (b := q.2) hq).symm⟩
  · rintro ⟨a, b, rfl⟩
    obtain ⟨q, hq⟩ := cut_some_of (f := f) a b
    rw [hq]; rfl

/-- What stands before the first occurrence does not matter for what stands after it. -/
theorem cut_append {f a s x y : Name} (ha : ∀ k < a.length, ¬ f <+: (a ++ s).drop k) (h : cut f s = some (x, y)) :
    cut f (a ++ s) = some (a ++ x, y) := by
  induction a with
  | nil => exact h
  | cons c a ih =>
    have h0 := ha 0 (by simp)
    simp only [List.cons_append, List.drop_zero] at h0 ⊢
    unfold cut
    rw [if_neg (by rw [List.isPrefixOf_iff_prefix]; exact h0), ih (fun k hk => ?_)]
    · rfl
    · have := ha (k + 1) (by simp; omega)
      simpa using this

/-! ### Nothing is overwritten -/

theorem step_dirs {d : Disk} {dirs dirs' : List Name} {b : Name} {o : Outcome} (h : d.step dirs b = some (o, dirs')) :
    (o.dir? = none ∧ dirs' = dirs) ∨ ∃ x, o.dir? = some x ∧ x ∉ dirs ∧ dirs' = x :: dirs := by
  unfold Disk.step at h
  obtain ⟨id, hid, h⟩ := Option.bind_eq_some_iff.1 h
  obtain ⟨e, he, h⟩ := Option.map_eq_some_iff.1 h
  split_ifs at h with h1 h2 h3 <;> cases h
  · exact .inl ⟨rfl, rfl⟩
  · exact .inl ⟨rfl, rfl⟩
  · exact .inl ⟨rfl, rfl⟩
  · exact .inr ⟨_, rfl, h3, rfl⟩

theorem loop_safe (d : Disk) (bs : List Name) (dirs : List Name) :
    ((d.loop dirs bs).1.filterMap fun o => o.2.dir?).Nodup ∧
      ∀ x ∈ (d.loop dirs bs).1.filterMap fun o => o.2.dir?, x ∉ dirs := by
  induction bs generalizing dirs with
  | nil => simp [Disk.loop]
  | cons b bs ih =>
    unfold Disk.loop
    cases hs : d.step dirs b with
    | none => simp
    | some r =>
      obtain ⟨o, dirs'⟩ := r
      obtain ⟨i1, i2⟩ := ih dirs'
      simp only
      rcases step_dirs hs with ⟨h1, rfl⟩ | ⟨x, h1, h2, rfl⟩
      · rw [List.filterMap_cons_none (a := (b, o)) h1]
        exact ⟨i1, i2⟩
      · rw [List.filterMap_cons_some (a := (b, o)) h1]
        refine ⟨List.nodup_cons.2 ⟨fun hx => i2 x hx List.mem_cons_self, i1⟩, ?_⟩
        intro z hz
        rcases List.mem_cons.1 hz with rfl | hz
        · exact h2
        · exact fun hd => i2 z hz (List.mem_cons_of_mem _ hd)

theorem loop_names (d : Disk) (bs : List Name) (dirs : List Name) :
    (d.loop dirs bs).1.map Prod.fst <+: bs ∧ ((d.loop dirs bs).2 = true → (d.loop dirs bs).1.map Prod.fst = bs) := by
  induction bs generalizing dirs with
  | nil => simp [Disk.loop]
  | cons b bs ih =>
    unfold Disk.loop
    cases hs : d.step dirs b with
    | none => simp
    | some r =>
      obtain ⟨o, dirs'⟩ := r
      obtain ⟨i1, i2⟩ := ih dirs'
      simp only [List.map_cons]
      exact ⟨(List.prefix_cons_inj b).2 i1, fun h => by rw [i2 h]⟩

/-- **C151** (nothing is overwritten): whatever is on the disk, results are moved only to folders that did not exist, no
two simulations to the same one; each simulation is looked at once, in the order of the files, until the end or an
exception. -/
theorem C151_safe (d : Disk) :
    (d.run.1.filterMap fun o => o.2.dir?).Nodup ∧ (∀ x ∈ d.run.1.filterMap fun o => o.2.dir?, x ∉ d.dirs) ∧
    d.run.1.map Prod.fst <+: d.h5 ∧ (d.run.2 = true → d.run.1.map Prod.fst = d.h5) :=
  ⟨(loop_safe d _ _).1, (loop_safe d _ _).2, (loop_names d _ _).1, (loop_names d _ _).2⟩

/-! ### Names -/

/-- Specification: a simulation named by a date, something without the feature, the feature and its number. -/
structure Named (d : Disk) (b num : Name) : Prop where
  eq : ∃ date mid, b = date ++ mid ++ d.feature ++ num ∧ date.length = d.ndate ∧
    ∀ k < (date ++ mid).length, ¬ d.feature <+: (date ++ mid ++ d.feature ++ num).drop k
  /-- the feature does not occur again -/
  rest : ¬ d.feature <:+: num

/-- Specification: the logs in which the identifier of the simulation occurs are its own: up to the first dot their name
is something without the feature, the feature and the number of the simulation. -/
def OwnLogs (d : Disk) (num : Name) : Prop :=
  ∀ l ∈ d.logs, (d.feature ++ num) <:+: d.path ++ l →
    ∃ mid, split0 ['.'] l = mid ++ d.feature ++ num ∧
      ∀ k < mid.length, ¬ d.feature <+: (mid ++ d.feature ++ num).drop k

theorem split1_eq {f a num : Name} (hf : f ≠ []) (ha : ∀ k < a.length, ¬ f <+: (a ++ f ++ num).drop k)
    (hr : ¬ f <:+: num) : split1 f (a ++ f ++ num) = some num := by
  have h1 : cut f (f ++ num) = some ([], num) := by
    cases hfb : f ++ num with
    | nil => exact absurd (List.append_eq_nil_iff.1 hfb).1 hf
    | cons c s =>
      unfold cut
      rw [if_pos (List.isPrefixOf_iff_prefix.2 ⟨num, hfb⟩), ← hfb, List.drop_left]
  have h2 : cut f (a ++ f ++ num) = some (a, num) := by
    have := cut_append (a := a) (s := f ++ num) (by rw [← List.append_assoc]; exact ha) h1
    rwa [List.append_nil, ← List.append_assoc] at this
  have h3 : cut f num = none := by
    cases h : cut f num with
    | none => rfl
    | some q => exact absurd ((within_iff f num).1 (by unfold within; rw [h]; rfl)) hr
  unfold split1 split0
  rw [h2]
  simp only [Option.map_some, h3]

theorem step_named {d : Disk} {b num : Name} (hf : d.feature ≠ []) (hb : Named d b num) (hl : OwnLogs d num)
    (dirs : List Name) : ∃ o dirs', d.step dirs b = some (o, dirs') ∧
      (o = if d.report b = false then .unresolved else if d.tmp b then .pending
        else if d.feature ++ num ∈ dirs then .skipped
        else .moved (d.feature ++ num) (d.pre b (d.log (d.feature ++ num))) (d.log (d.feature ++ num))) ∧
      dirs' = o.dir?.toList ++ dirs := by
  obtain ⟨⟨date, mid, he, hdate, hfree⟩, hr⟩ := hb
  have h1 : d.ident b = some (d.feature ++ num) := by
    unfold Disk.ident
    rw [he, split1_eq hf hfree hr]
    rfl
  have h2 : split1 d.feature (d.pre b (d.log (d.feature ++ num))) = some num := by
    cases hlog : d.log (d.feature ++ num) with
    | none =>
      simp only [Disk.pre]
      have : b.drop d.ndate = mid ++ d.feature ++ num := by
        rw [he, ← hdate, List.append_assoc, List.append_assoc, List.drop_left, List.append_assoc]
      rw [this]
      refine split1_eq hf (fun k hk => ?_) hr
      have := hfree (date.length + k) (by simp; omega)
      rwa [show date ++ mid ++ d.feature ++ num = date ++ (mid ++ d.feature ++ num) by simp, List.drop_append,
        List.drop_eq_nil_of_le (by omega), List.nil_append, Nat.add_sub_cancel_left] at this
    | some l =>
      simp only [Disk.pre]
      unfold Disk.log at hlog
      have hmem : l ∈ d.logs.filter fun l => within (d.feature ++ num) (d.path ++ l) := by
        split at hlog
        · next l' heq => cases hlog; rw [heq]; exact List.mem_singleton_self _
        · exact absurd hlog (by simp)
      rw [List.mem_filter, within_iff] at hmem
      obtain ⟨mid', h3, h4⟩ := hl l hmem.1 hmem.2
      rw [h3]
      exact split1_eq hf h4 hr
  unfold Disk.step
  rw [h1, Option.bind_some, h2, Option.map_some]
  split_ifs <;> exact ⟨_, _, rfl, rfl, rfl⟩

/-- **C151**, partial: if the feature stands before the number in the name of each simulation and nowhere else, and the
identifier of a simulation occurs only in its own logs, and numbers are different and new, then every simulation with a
report and without a temporary file is moved to the folder of its own number, and the others are left. -/
theorem C151_packaged_partial (d : Disk) (hf : d.feature ≠ []) (num : Name → Name)
    (hb : ∀ b ∈ d.h5, Named d b (num b)) (hl : ∀ b ∈ d.h5, OwnLogs d (num b))
    (hnd : (d.h5.map num).Nodup) (hnew : ∀ b ∈ d.h5, d.feature ++ num b ∉ d.dirs) :
    d.run.2 = true ∧ d.run.1 = d.h5.map fun b => (b, if d.report b = false then .unresolved
      else if d.tmp b then .pending
      else .moved (d.feature ++ num b) (d.pre b (d.log (d.feature ++ num b))) (d.log (d.feature ++ num b))) := by
  unfold Disk.run
  generalize d.dirs = dirs at hnew
  generalize d.h5 = bs at *
  induction bs generalizing dirs with
  | nil => simp [Disk.loop]
  | cons b bs ih =>
    obtain ⟨o, dirs', h1, h2, h3⟩ := step_named hf (hb b List.mem_cons_self) (hl b List.mem_cons_self) dirs
    rw [if_neg (hnew b List.mem_cons_self)] at h2
    rw [List.map_cons, List.nodup_cons] at hnd
    have hnew' : ∀ b' ∈ bs, d.feature ++ num b' ∉ dirs' := by
      intro b' hb' hmem
      rw [h3] at hmem
      rcases List.mem_append.1 hmem with h | h
      · have : o.dir? = some (d.feature ++ num b) ∨ o.dir? = none := by
          rw [h2]; split_ifs <;> simp [Outcome.dir?]
        rcases this with e | e <;> rw [e] at h
        · simp only [Option.toList_some, List.mem_singleton] at h
          have := List.append_cancel_left h
          exact hnd.1 (this ▸ List.mem_map_of_mem (f := num) hb')
        · simp at h
      · exact hnew b' (List.mem_cons_of_mem _ hb') h
    obtain ⟨i1, i2⟩ := ih dirs' (fun b' hb' => hb b' (List.mem_cons_of_mem _ hb'))
      (fun b' hb' => hl b' (List.mem_cons_of_mem _ hb')) hnd.2 hnew'
    unfold Disk.loop
    rw [h1]
    simp only [List.map_cons]
    exact ⟨i1, by rw [i2, h2]⟩

/-- Two simulations, the second still running. -/
def demo : Disk :=
  { feature := "LHS".toList, path := "E:".toList, ndate := 3, h5 := ["d1_x_LHS7".toList, "d2_x_LHS8".toList],
    report := fun _ => true, tmp := fun b => b == "d2_x_LHS8".toList, logs := ["x_LHS7.log".toList], dirs := [] }

example : demo.run = ([("d1_x_LHS7".toList, .moved "LHS7".toList "x_LHS7".toList (some "x_LHS7.log".toList)),
    ("d2_x_LHS8".toList, .pending)], true) := by decide +kernel

/-- The hypotheses of the theorem hold of it. -/
example : demo.run.2 = true := by
  refine (C151_packaged_partial demo (by decide) (fun b => b.drop 8) ?_ ?_ (by decide +kernel) (by decide +kernel)).1
  · intro b hb
    simp only [demo, List.mem_cons, List.not_mem_nil, or_false] at hb
    rcases hb with rfl | rfl
    · exact ⟨⟨"d1_".toList, "x_".toList, by decide +kernel, by decide +kernel, by decide +kernel⟩, by decide +kernel⟩
    · exact ⟨⟨"d2_".toList, "x_".toList, by decide +kernel, by decide +kernel, by decide +kernel⟩, by decide +kernel⟩
  · intro b hb l hl h
    simp only [demo, List.mem_cons, List.not_mem_nil, or_false] at hb hl
    subst hl
    rcases hb with rfl | rfl
    · exact ⟨"x_".toList, by decide +kernel, by decide +kernel⟩
    · exact absurd h (by decide +kernel)

/-- **C151** fails if the log of a simulation is missing and its identifier is the beginning of that of another one: the
results of number 1 are put in the folder of number 12, under the name of number 12, with its log; those of number 12
are not packaged. -/
theorem C151_fails_log : ∃ d : Disk, d.h5 = ["d1_x_LHS1".toList, "d2_x_LHS12".toList] ∧ d.logs = ["x_LHS12.log".toList] ∧
    d.run.1 = [("d1_x_LHS1".toList, .moved "LHS12".toList "x_LHS12".toList (some "x_LHS12.log".toList)),
      ("d2_x_LHS12".toList, .skipped)] :=
  ⟨{ demo with h5 := ["d1_x_LHS1".toList, "d2_x_LHS12".toList], tmp := fun _ => false,
               logs := ["x_LHS12.log".toList] }, rfl, rfl, by decide +kernel⟩

/-- **C151** fails for a feature after the number, as the documentation recommends it: without logs all simulations have
the folder of the first one, the others are skipped. -/
theorem C151_fails_suffix (d : Disk) (hf : d.feature ≠ []) (suffix : Name) (hb : ∀ b ∈ d.h5, Named d b suffix)
    (hlog : d.logs = []) (hr : ∀ b, d.report b = true) (ht : ∀ b, d.tmp b = false) {b : Name} {bs : List Name}
    (hh : d.h5 = b :: bs) (hnew : d.feature ++ suffix ∉ d.dirs) :
    d.run.1 = (b, .moved (d.feature ++ suffix) (b.drop d.ndate) none) :: bs.map fun c => (c, .skipped) := by
  have hown : OwnLogs d suffix := by intro l hl; rw [hlog] at hl; exact absurd hl (by simp)
  have hl0 : ∀ x, d.log x = none := by intro x; unfold Disk.log; rw [hlog]; rfl
  have rest : ∀ (cs : List Name) dirs, (∀ c ∈ cs, Named d c suffix) → d.feature ++ suffix ∈ dirs →
      (d.loop dirs cs).1 = cs.map fun c => (c, .skipped) := by
    intro cs
    induction cs with
    | nil => intros; rfl
    | cons c cs ih =>
      intro dirs hc hm
      obtain ⟨o, dirs', h1, h2, h3⟩ := step_named hf (hc c List.mem_cons_self) hown dirs
      rw [hr, ht, if_pos hm] at h2
      simp only [Bool.true_eq_false, Bool.false_eq_true, if_false] at h2
      subst h2
      unfold Disk.loop
      rw [h1]
      simp only [List.map_cons]
      rw [ih dirs' (fun c' hc' => hc c' (List.mem_cons_of_mem _ hc')) (by rw [h3]; exact hm)]
  obtain ⟨o, dirs', h1, h2, h3⟩ := step_named hf (hb b (by rw [hh]; exact List.mem_cons_self)) hown d.dirs
  rw [hr, ht, if_neg hnew, hl0] at h2
  simp only [Bool.true_eq_false, Bool.false_eq_true, if_false] at h2
  unfold Disk.run
  rw [hh]
  unfold Disk.loop
  rw [h1]
  simp only
  rw [h2, rest bs dirs' (fun c hc => hb c (by rw [hh]; exact List.mem_cons_of_mem _ hc))
    (by rw [h3, h2]; simp [Outcome.dir?])]
  rfl

/-- Names as in the documentation, with the recommended feature. -/
def demoSuffix : Disk :=
  { feature := "_we".toList, path := "E:".toList, ndate := 3, h5 := ["d1_LHS1_we".toList, "d2_LHS2_we".toList],
    report := fun _ => true, tmp := fun _ => false, logs := [], dirs := [] }

example : demoSuffix.run.1 =
    [("d1_LHS1_we".toList, .moved "_we".toList "LHS1_we".toList none), ("d2_LHS2_we".toList, .skipped)] := by
  refine C151_fails_suffix demoSuffix (by decide) [] ?_ rfl (fun _ => rfl) (fun _ => rfl) rfl (by decide +kernel)
  intro b hb
  simp only [demoSuffix, List.mem_cons, List.not_mem_nil, or_false] at hb
  rcases hb with rfl | rfl
  · exact ⟨⟨"d1_".toList, "LHS1".toList, by decide +kernel, by decide +kernel, by decide +kernel⟩, by decide +kernel⟩
  · exact ⟨⟨"d2_".toList, "LHS2".toList, by decide +kernel, by decide +kernel, by decide +kernel⟩, by decide +kernel⟩

/-- **C151** fails for the number of packaged results that is printed: it counts the ones that were skipped or are still
running. -/
theorem C151_fails_count (d : Disk) (h : d.run.2 = true) :
    d.reported = ((d.run.1.filter fun o => o.2.dir?.isSome).length + (d.run.1.filter fun o => o.2 = .pending).length +
      (d.run.1.filter fun o => o.2 = .skipped).length) := by
  have hlen : d.h5.length = d.run.1.length := by
    rw [← (C151_safe d).2.2.2 h, List.length_map]
  unfold Disk.reported
  rw [hlen]
  generalize d.run.1 = l
  have key : l.length = (l.filter fun o => o.2 = .unresolved).length + ((l.filter fun o => o.2.dir?.isSome).length +
      (l.filter fun o => o.2 = .pending).length + (l.filter fun o => o.2 = .skipped).length) := by
    induction l with
    | nil => rfl
    | cons a l ih =>
      obtain ⟨b, o⟩ := a
      cases o <;> simp [Outcome.dir?, ih] <;> omega
  omega

example : demo.reported = 2 := by decide +kernel

end Verif.Package
