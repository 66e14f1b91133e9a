import Verif.Model.PipeSpecs
import Mathlib.Tactic.NormNum
import Mathlib.Tactic.Linarith
import Mathlib.Tactic.FieldSimp
import Mathlib.Tactic.Ring

/-!
# C116: scaled pipes
-/

namespace Verif.PipeSpecs

/-- The lengths and areas of a pipe fit together: circles of the inner and outer diameter, a wall between them. -/
def Consistent (x : Spec) : Prop :=
  Real.pi / 4 * x.di ^ 2 = x.ai ∧ Real.pi / 4 * x.d_o ^ 2 = x.ao ∧ x.d_o = x.di + 2 * x.s ∧
    x.ao = x.ai + x.aWall ∧ 0 < x.di

theorem spec_consistent {a o : ℝ} (ha : 0 < a) (ho : 0 ≤ o) : Consistent (spec a o) := by
  have hpi := Real.pi_pos
  refine ⟨?_, ?_, ?_, ?_, ?_⟩
  · simp only [spec]
    rw [Real.sq_sqrt (by positivity)]
    field_simp
  · simp only [spec]
    rw [Real.sq_sqrt (by positivity)]
    field_simp
  · simp only [spec]
    ring
  · simp only [spec]
    ring
  · simp only [spec]
    exact Real.sqrt_pos.mpr (by positivity)

theorem wall_pos {a o : ℝ} (ha : 0 < a) : 0 < (spec a o).s ↔ a < o := by
  have hpi := Real.pi_pos
  simp only [spec]
  rw [lt_div_iff₀ (by norm_num), zero_mul, sub_pos, Real.sqrt_lt_sqrt_iff (by positivity),
    div_lt_div_iff_of_pos_right hpi]
  constructor <;> intro h <;> linarith

theorem outer_some {I : Interp} {t : Table} {w : List ℝ} {a o : ℝ} (h : outer I t w a = some o) :
    lo ≤ a ∧ a ≤ hi := by
  unfold outer at h
  by_cases hc : a < lo ∨ hi < a
  · rw [if_pos hc] at h
    cases h
  · push Not at hc
    exact hc

theorem mapM_get {α β : Type} {f : α → Option β} : ∀ {l : List α} {r : List β}, l.mapM f = some r →
    List.Forall₂ (fun a b => f a = some b) l r := by
  intro l
  induction l with
  | nil => intro r h; simp at h; subst h; exact .nil
  | cons a l ih =>
    intro r h
    rw [List.mapM_cons] at h
    cases h1 : f a with
    | none => simp [h1] at h
    | some b =>
      cases h2 : l.mapM f with
      | none => simp [h1, h2] at h
      | some r' =>
        simp [h1, h2] at h
        subst h
        exact .cons h1 (ih h2)

theorem forall₂_trans {α β γ δ : Type} {P : α → β → Prop} {Q : β → γ → Prop} {f : α → γ → δ}
    {R : α → δ → Prop} (h : ∀ a b c, P a b → Q b c → R a (f a c)) :
    ∀ {l : List α} {m : List β} {n : List γ}, List.Forall₂ P l m → List.Forall₂ Q m n →
      List.Forall₂ R l (List.zipWith f l n) := by
  intro l m n h1
  induction h1 generalizing n with
  | nil => intro h2; cases h2; exact .nil
  | cons hp _ ih =>
    intro h2
    cases h2 with
    | cons hq ht => exact .cons (h _ _ _ hp hq) (ih ht)

/-- **C116**, partial: whatever the interpolation gives, each part gets, under its own name and with its own type, a
pipe whose inner cross section is the one of its reference pipe times its factor and whose other values fit together,
provided that the interpolated outer cross sections are larger than the inner ones. -/
theorem C116_geometry_partial (I : Interp) (medium : Table) (db : String → String → Option Row) (qs : List Ask)
    (res : List (String × String × Spec)) (h : adjust I medium db qs = some res) :
    List.Forall₂ (fun (q : Ask) (r : String × String × Spec) => r.1 = q.part ∧ r.2.1 = q.type ∧
      (∃ row, db q.type q.dn = some row ∧ r.2.2.ai = q.factor * row.1) ∧
      (r.2.2.ai ≤ r.2.2.ao → Consistent r.2.2) ∧ (0 < r.2.2.s ↔ r.2.2.ai < r.2.2.ao)) qs res := by
  unfold adjust at h
  obtain ⟨areas, h1, h2⟩ := Option.bind_eq_some_iff.mp h
  obtain ⟨specs, h3, h4⟩ := Option.map_eq_some_iff.mp h2
  subst h4
  refine forall₂_trans (P := fun q a => q.area db = some a)
    (Q := fun a s => (outer I medium areas a).map (spec a) = some s) ?_ (mapM_get h1) (mapM_get h3)
  intro q a s hp hq
  obtain ⟨row, hr, ha⟩ := Option.map_eq_some_iff.mp hp
  obtain ⟨o, ho, hs⟩ := Option.map_eq_some_iff.mp hq
  have hpos : 0 < a := lt_of_lt_of_le (by norm_num [lo]) (outer_some ho).1
  subst hs
  refine ⟨rfl, rfl, ⟨row, hr, ?_⟩, fun hle => ?_, wall_pos hpos⟩
  · simp only [spec]
    rw [← ha]
    ring
  · simp only [spec] at hle
    exact spec_consistent hpos (by linarith)

/-- **C116**, partial: pipes are scaled if and only if all reference pipes are in the table and all inner cross
sections lie between 10 mm² and 0.1 m². -/
theorem C116_accepts_partial (I : Interp) (medium : Table) (db : String → String → Option Row) (qs : List Ask) :
    (adjust I medium db qs).isSome = true ↔
      ∀ q ∈ qs, ∃ row, db q.type q.dn = some row ∧ lo ≤ q.factor * row.1 ∧ q.factor * row.1 ≤ hi := by
  have key : ∀ {α β : Type} (f : α → Option β) (l : List α), (l.mapM f).isSome = true ↔
      ∀ a ∈ l, (f a).isSome = true := by
    intro α β f l
    induction l with
    | nil => simp
    | cons a l ih =>
      rw [List.mapM_cons, List.forall_mem_cons, ← ih]
      cases f a <;> cases l.mapM f <;> simp
  have ho : ∀ t w a, (outer I t w a).isSome = true ↔ lo ≤ a ∧ a ≤ hi := by
    intro t w a
    constructor
    · intro h
      obtain ⟨o, ho⟩ := Option.isSome_iff_exists.mp h
      exact outer_some ho
    · intro h
      unfold outer
      rw [if_neg (by push Not; exact h)]
      split_ifs <;> rfl
  unfold adjust
  constructor
  · intro h
    obtain ⟨res, hres⟩ := Option.isSome_iff_exists.mp h
    clear h
    obtain ⟨areas, h1, h2⟩ := Option.bind_eq_some_iff.mp hres
    obtain ⟨specs, h3, -⟩ := Option.map_eq_some_iff.mp h2
    have h3' := (key _ _).1 (Option.isSome_iff_exists.mpr ⟨_, h3⟩)
    intro q hq
    have h1' := (key _ _).1 (Option.isSome_iff_exists.mpr ⟨_, h1⟩) q hq
    obtain ⟨a, ha⟩ := Option.isSome_iff_exists.mp h1'
    obtain ⟨row, hr, hra⟩ := Option.map_eq_some_iff.mp ha
    have hmem : a ∈ areas := by
      have hf := mapM_get h1
      clear h3 h3' h2 hres h1 h1'
      induction hf with
      | nil => cases hq
      | cons hab _ ih =>
        rcases List.mem_cons.mp hq with rfl | hq
        · rw [hab] at ha
          cases ha
          exact List.mem_cons_self
        · exact List.mem_cons_of_mem _ (ih hq)
    have h4 := h3' a hmem
    rw [Option.isSome_map] at h4
    have h5 := (ho _ _ _).1 h4
    rw [← hra, mul_comm] at h5
    exact ⟨row, hr, h5⟩
  · intro h
    have h1 : (qs.mapM (Ask.area db)).isSome = true := by
      rw [key]
      intro q hq
      obtain ⟨row, hr, -⟩ := h q hq
      simp [Ask.area, hr]
    obtain ⟨areas, h1'⟩ := Option.isSome_iff_exists.mp h1
    clear h1
    have h1 := h1'
    clear h1'
    have hall : ∀ a ∈ areas, lo ≤ a ∧ a ≤ hi := by
      have hf := mapM_get h1
      clear h1
      induction hf with
      | nil => simp
      | @cons q a _ _ hab _ ih =>
        intro b hb
        rcases List.mem_cons.mp hb with rfl | hb
        · obtain ⟨row, hr, h2⟩ := h q List.mem_cons_self
          unfold Ask.area at hab
          rw [hr] at hab
          simp only [Option.map_some, Option.some.injEq] at hab
          rw [mul_comm] at hab
          rwa [hab] at h2
        · exact ih (fun q hq => h q (List.mem_cons_of_mem _ hq)) b hb
    have h2 : (interpSpecs I medium areas).isSome = true := by
      unfold interpSpecs
      rw [key]
      intro a ha
      rw [Option.isSome_map]
      exact (ho _ _ _).2 (hall a ha)
    obtain ⟨specs, h2⟩ := Option.isSome_iff_exists.mp h2
    simp [h1, h2]

/-- A pipe of 1500 mm² is to have the double cross section; the interpolation doubles areas. -/
example : ∃ r, adjust (fun _ x => 2 * x) [] (fun _ _ => some (3 / 2000, 1 / 500))
    [⟨"p", "EN10255_medium", "DN40", 2⟩] = some r ∧ List.Forall₂ (fun _ r => Consistent r.2.2) [()] r := by
  have h := (C116_accepts_partial (fun _ x => 2 * x) [] (fun _ _ => some (3 / 2000, 1 / 500))
    [⟨"p", "EN10255_medium", "DN40", 2⟩]).2 (by
      intro q hq
      rw [List.mem_singleton] at hq
      subst hq
      exact ⟨_, rfl, by norm_num [lo], by norm_num [hi]⟩)
  obtain ⟨r, hr⟩ := Option.isSome_iff_exists.mp h
  refine ⟨r, hr, ?_⟩
  have hg := C116_geometry_partial _ _ _ _ _ hr
  cases hg with
  | cons h1 ht =>
    cases ht
    refine .cons (h1.2.2.2.1 ?_) .nil
    have e : outer (fun _ x => 2 * x) [] [3 / 2000 * 2] (3 / 2000 * 2) = some (2 * (3 / 2000 * 2)) := by
      unfold outer
      rw [if_neg (by norm_num [lo, hi]), if_neg (by norm_num [hi]), if_neg (by norm_num [lo])]
    simp [adjust, Ask.area, interpSpecs, e, -mul_eq_mul_left_iff] at hr
    rw [← hr]
    norm_num [spec]

/-- A building without circulation flow has factor 0: its pipes cannot be scaled. -/
example (I : Interp) (medium : Table) (db : String → String → Option Row) (part type dn : String) :
    ¬ (adjust I medium db [⟨part, type, dn, 0⟩]).isSome = true := by
  rw [C116_accepts_partial]
  intro h
  obtain ⟨row, -, h1, -⟩ := h _ List.mem_cons_self
  simp only [zero_mul] at h1
  norm_num [lo] at h1

/-- **C116** is wrong for other types of pipes: two parts with the same inner cross section get the same wall,
whatever their types. -/
theorem C116_fails_type (I : Interp) (medium : Table) (db : String → String → Option Row) (p p' ty ty' dn dn' : String)
    (f f' : ℝ) (r r' : String × String × Spec) (row row' : Row) (hr : db ty dn = some row)
    (hr' : db ty' dn' = some row') (ha : row.1 * f = row'.1 * f')
    (h : adjust I medium db [⟨p, ty, dn, f⟩] = some [r]) (h' : adjust I medium db [⟨p', ty', dn', f'⟩] = some [r']) :
    r.2.2 = r'.2.2 := by
  simp only [adjust, Ask.area, interpSpecs, List.mapM_cons, List.mapM_nil, hr, hr', ha, Option.map_some,
    Option.bind_some, pure, bind] at h h'
  cases ho : outer I medium [row'.1 * f'] (row'.1 * f') with
  | none => simp [ho] at h
  | some o =>
    simp [ho] at h h'
    rw [← h, ← h']

/-- A table in which the outer cross section of one row is replaced. -/
def replace (pre post : Table) (a o : ℝ) : Table := pre ++ (a, o) :: post

theorem replace_ends {pre post : Table} (a o o' : ℝ) (h1 : 2 ≤ pre.length) (h2 : 2 ≤ post.length) :
    ends (replace pre post a o) = ends (replace pre post a o') := by
  have hb : ∀ i, i < pre.length ∨ pre.length < i →
      (replace pre post a o).getD i 0 = (replace pre post a o').getD i 0 := by
    intro i hi
    unfold replace
    rw [List.getD_eq_getElem?_getD, List.getD_eq_getElem?_getD]
    rcases hi with hi | hi
    · rw [List.getElem?_append_left hi, List.getElem?_append_left hi]
    · rw [List.getElem?_append_right hi.le, List.getElem?_append_right hi.le]
      obtain ⟨k, hk⟩ := Nat.exists_eq_succ_of_ne_zero (Nat.sub_ne_zero_of_lt hi)
      rw [hk]
      rfl
  have hl : (replace pre post a o').length = (replace pre post a o).length := by simp [replace]
  have hlen : (replace pre post a o).length = pre.length + post.length + 1 := by simp [replace]; omega
  unfold ends
  rw [hl, hb _ (by omega), hb _ (by omega), hb 0 (by omega), hb 1 (by omega)]

theorem replace_left {pre post : Table} {a : ℝ} (o o' : ℝ) {wanted : List ℝ} (h1 : 2 ≤ pre.length)
    (h2 : 2 ≤ post.length) (ha : a ∈ wanted) (hlo : a ≠ lo) (hhi : a ≠ hi) :
    left (replace pre post a o) wanted = left (replace pre post a o') wanted := by
  unfold left
  rw [List.filter_append, List.filter_append, replace_ends a o o' h1 h2]
  congr 1
  unfold replace
  rw [List.filter_append, List.filter_append, List.filter_cons_of_neg (by simp [ha, hlo, hhi]),
    List.filter_cons_of_neg (by simp [ha, hlo, hhi])]

/-- **C116** is wrong for pipes of the table: a wanted cross section erases the row of the table with that cross
section, so that the outer cross section given there has no influence on the result, neither for the part that is to
have exactly this pipe nor for any other part. -/
theorem C116_fails_erased (I : Interp) (pre post : Table) (a o o' : ℝ) (wanted : List ℝ) (h1 : 2 ≤ pre.length)
    (h2 : 2 ≤ post.length) (ha : a ∈ wanted) (hlo : a ≠ lo) (hhi : a ≠ hi) :
    interpSpecs I (replace pre post a o) wanted = interpSpecs I (replace pre post a o') wanted := by
  unfold interpSpecs
  congr 1
  funext b
  congr 1
  have e := replace_ends a o o' h1 h2
  unfold ends at e
  have e1 := (List.cons.inj e).1
  have e2 := (List.cons.inj (List.cons.inj e).2).1
  unfold outer
  rw [replace_left o o' h1 h2 ha hlo hhi, e1, e2]

/-- The ratio of outer to inner cross section of a row. -/
noncomputable def ratio (r : Row) : ℝ := r.2 / r.1

theorem beyond_ratio (new : ℝ) {a b : Row} (hn : new ≠ 0) (ha : 0 < a.1) (ha2 : 0 < a.2) (hb : 0 < b.1) (hb2 : 0 < b.2) :
    ratio (beyond new a b) * ratio b = ratio a ^ 2 := by
  unfold ratio beyond
  dsimp only
  field_simp

/-- **C116**, partial (ends of the range): for the largest and the smallest inner cross section the ratio of outer to inner
cross section goes on as a geometric sequence from the two rows at that end of the table, so there is a wall if and only if
the square of the last ratio is larger than the ratio before it. -/
theorem C116_ends_partial (I : Interp) (first second : Row) (mid : Table) (prev last : Row)
    (hpos : ∀ r ∈ [first, second, prev, last], 0 < r.1 ∧ 0 < r.2) :
    ∃ u l, interpSpecs I (first :: second :: (mid ++ [prev, last])) [hi, lo] = some [u, l] ∧
      u.ai = hi ∧ u.ao / u.ai * ratio prev = ratio last ^ 2 ∧ l.ai = lo ∧ l.ao / l.ai * ratio second = ratio first ^ 2 ∧
      (ratio prev < ratio last ^ 2 ↔ 0 < u.aWall) ∧ (ratio second < ratio first ^ 2 ↔ 0 < l.aWall) := by
  have hh : (0 : ℝ) < hi := by unfold hi; norm_num
  have hl : (0 : ℝ) < lo := by unfold lo; norm_num
  have hlh : lo < hi := by unfold lo hi; norm_num
  set t : Table := first :: second :: (mid ++ [prev, last]) with ht
  have e1 : t.getD (t.length - 1) 0 = last := by
    rw [ht, show first :: second :: (mid ++ [prev, last]) = (first :: second :: (mid ++ [prev])) ++ [last] by simp]
    simp [List.getD_eq_getElem?_getD, List.getElem?_append_right]
  have e2 : t.getD (t.length - 2) 0 = prev := by
    rw [ht, show first :: second :: (mid ++ [prev, last]) = (first :: second :: mid) ++ [prev, last] by simp]
    simp [List.getD_eq_getElem?_getD, List.getElem?_append_right]
  have pf := hpos first (by simp)
  have ps := hpos second (by simp)
  have pp := hpos prev (by simp)
  have pl := hpos last (by simp)
  have r1 := beyond_ratio hi hh.ne' pl.1 pl.2 pp.1 pp.2
  have r2 := beyond_ratio lo hl.ne' pf.1 pf.2 ps.1 ps.2
  have wall : ∀ {new : ℝ} {a b : Row}, 0 < new → 0 < ratio b → ratio (beyond new a b) * ratio b = ratio a ^ 2 →
      (ratio b < ratio a ^ 2 ↔ 0 < (spec new (beyond new a b).2).aWall) := by
    intro new a b hn hb e
    rw [← e]
    show _ ↔ 0 < (beyond new a b).2 - new
    rw [sub_pos, show ratio (beyond new a b) = (beyond new a b).2 / new from rfl]
    constructor
    · intro h
      have : 1 < (beyond new a b).2 / new := by
        by_contra hc
        nlinarith [not_lt.1 hc]
      rwa [one_lt_div hn] at this
    · intro h
      have : 1 < (beyond new a b).2 / new := (one_lt_div hn).2 h
      nlinarith
  refine ⟨spec hi (beyond hi last prev).2, spec lo (beyond lo first second).2, ?_, rfl, r1, rfl, r2,
    wall hh (div_pos pp.2 pp.1) r1, wall hl (div_pos ps.2 ps.1) r2⟩
  have o1 : outer I t [hi, lo] hi = some (beyond hi last prev).2 := by
    unfold outer
    rw [if_neg (by push Not; exact ⟨hlh.le, le_refl _⟩), if_pos rfl, e1, e2]
  have o2 : outer I t [hi, lo] lo = some (beyond lo first second).2 := by
    unfold outer
    rw [if_neg (by push Not; exact ⟨le_refl _, hlh.le⟩), if_neg hlh.ne, if_pos rfl]
    rfl
  simp [interpSpecs, o1, o2]

/-- A table of four pipes. -/
example (I : Interp) : ∃ u l, interpSpecs I [(1, 2), (2, 3), (3, 4), (5, 8)] [hi, lo] = some [u, l] ∧
      u.ai = hi ∧ u.ao / u.ai * ratio (3, 4) = ratio (5, 8) ^ 2 ∧ l.ai = lo ∧ l.ao / l.ai * ratio (2, 3) = ratio (1, 2) ^ 2 ∧
      (ratio (3, 4) < ratio (5, 8) ^ 2 ↔ 0 < u.aWall) ∧ (ratio (2, 3) < ratio (1, 2) ^ 2 ↔ 0 < l.aWall) :=
  C116_ends_partial I (1, 2) (2, 3) [] (3, 4) (5, 8) (by simp)

end Verif.PipeSpecs
