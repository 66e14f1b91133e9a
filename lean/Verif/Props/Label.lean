import Verif.Model.Label
import Mathlib.Tactic.Linarith
import Mathlib.Tactic.NormNum
import Mathlib.Tactic.FieldSimp
import Mathlib.Tactic.Positivity
import Mathlib.Algebra.Order.Round

/-!
# C168: labels and numbers in plots and tables
-/

namespace Verif.Label

/-! ## Labels -/

/-- Specification: what stands between the dollar signs for one quantity. -/
def body (st : Style) (sp lbl : List Char) (unt : Option (List Char)) : List Char :=
  let l := lbl.flatMap fun c => if c = ' ' then sp else [c]
  match unt with
  | none => l
  | some u =>
    let u' := "\\mathrm{".toList ++ (u.flatMap fun c => if c = '%' then ['\\', '%'] else [c]) ++ "}".toList
    match st with
    | .SI => l ++ sp ++ "/".toList ++ sp ++ u'
    | .«in» => l ++ sp ++ "in".toList ++ sp ++ u'
    | .parentheses => l ++ sp ++ "in".toList ++ sp ++ "(".toList ++ u' ++ ")".toList
    | .IEEE => l ++ sp ++ "(".toList ++ u' ++ ")".toList

/-- Specification: a label without dollar signs that is not empty, and no unit or one without dollar signs and
backslashes that is neither empty nor `none`. -/
structure Plain (q : List Char × Option (List Char)) : Prop where
  label : q.1 ≠ [] ∧ '$' ∉ q.1
  unit : ∀ u, q.2 = some u → u ≠ [] ∧ u ≠ "none".toList ∧ '$' ∉ u ∧ '\\' ∉ u

theorem replace1_eq (a : Char) (r l : List Char) :
    replace1 a r l = l.flatMap fun c => if c = a then r else [c] := by
  induction l with
  | nil => rfl
  | cons c l ih =>
    rw [replace1, List.flatMap_cons, ih]
    split_ifs <;> rfl

theorem replace2_cons_ne {a b c : Char} {r : List Char} (h : c ≠ a) (l : List Char) :
    replace2 a b r (c :: l) = c :: replace2 a b r l := by
  cases l with
  | nil => simp [replace2]
  | cons d l => rw [replace2, if_neg (fun hh => h hh.1)]

theorem replace2_append {a b : Char} {r : List Char} (l m : List Char) (h : a ∉ l) :
    replace2 a b r (l ++ m) = l ++ replace2 a b r m := by
  induction l with
  | nil => rfl
  | cons c l ih =>
    rw [List.cons_append, replace2_cons_ne (fun hh => h (by simp [hh])), ih fun hh => h (List.mem_cons_of_mem _ hh)]
    rfl

theorem replace2_id {a b : Char} {r : List Char} (l : List Char) (h : a ∉ l) : replace2 a b r l = l := by
  have := replace2_append (b := b) (r := r) l [] h
  simpa [replace2] using this

/-- The text made of the bodies. -/
theorem replace_bodies (sep : List Char) : ∀ (t : List (List Char)) (b : List Char), '$' ∉ b → (∀ b' ∈ t, '$' ∉ b' ∧ b' ≠ []) →
    replace2 '$' '$' sep (b ++ '$' :: t.flatMap fun b => '$' :: b ++ ['$']) = b ++ (t.flatMap fun b => sep ++ b) ++ ['$'] := by
  intro t
  induction t with
  | nil => intro b hb _; rw [replace2_append _ _ hb]; simp [replace2]
  | cons b' t ih =>
    intro b hb ht
    rw [replace2_append _ _ hb]
    have h1 : ('$' :: (b' :: t).flatMap fun b => '$' :: b ++ ['$']) =
        '$' :: '$' :: (b' ++ '$' :: t.flatMap fun b => '$' :: b ++ ['$']) := by simp
    rw [h1, replace2, if_pos ⟨rfl, rfl⟩, ih b' (ht b' List.mem_cons_self).1 fun c hc => ht c (List.mem_cons_of_mem _ hc)]
    simp

theorem axlabel_body {st : Style} {sp : List Char} {q : List Char × Option (List Char)} (hq : Plain q) :
    axlabel st sp q.1 q.2 = '$' :: body st sp q.1 q.2 ++ ['$'] := by
  obtain ⟨lbl, unt⟩ := q
  cases unt with
  | none => simp only [axlabel, unitOf, body, replace1_eq]
  | some u =>
    obtain ⟨h1, h2, h3, h4⟩ := hq.unit u rfl
    have h5 : unitOf (some u) = some (u.flatMap fun c => if c = '%' then ['\\', '%'] else [c]) := by
      simp only [unitOf, h1, h2, or_self, if_false]
      rw [replace2_id u h4, replace1_eq]
    simp only [axlabel, h5, body, replace1_eq]
    cases st <;> simp

theorem body_plain {st : Style} {sp : List Char} (hsp : '$' ∉ sp ∧ sp ≠ []) {q : List Char × Option (List Char)}
    (hq : Plain q) : '$' ∉ body st sp q.1 q.2 ∧ body st sp q.1 q.2 ≠ [] := by
  obtain ⟨lbl, unt⟩ := q
  have hl : '$' ∉ (lbl.flatMap fun c => if c = ' ' then sp else [c]) := by
    intro hh
    obtain ⟨c, hc, hd⟩ := List.mem_flatMap.1 hh
    split_ifs at hd with h0
    · exact hsp.1 hd
    · rw [List.mem_singleton] at hd
      exact hq.label.2 (hd ▸ hc)
  have hl0 : (lbl.flatMap fun c => if c = ' ' then sp else [c]) ≠ [] := by
    have := hq.label.1
    cases lbl with
    | nil => exact absurd rfl this
    | cons c l =>
      rw [List.flatMap_cons]
      intro hh
      have := (List.append_eq_nil_iff.1 hh).1
      split_ifs at this
      · exact hsp.2 this
  cases unt with
  | none => exact ⟨hl, hl0⟩
  | some u =>
    obtain ⟨h1, h2, h3, h4⟩ := hq.unit u rfl
    have hu : '$' ∉ (u.flatMap fun c => if c = '%' then ['\\', '%'] else [c]) := by
      intro hh
      obtain ⟨c, hc, hd⟩ := List.mem_flatMap.1 hh
      split_ifs at hd with h0
      · revert hd; decide
      · rw [List.mem_singleton] at hd
        exact h3 (hd ▸ hc)
    cases st <;>
    · refine ⟨?_, ?_⟩
      · simp only [body, List.mem_append, hl, hu, hsp.1, false_or, or_false]
        decide
      · simp [body, hl0]

theorem refuse_plain {q : List Char × Option (List Char)} (hq : Plain q) : refuse q.1 q.2 = none := by
  obtain ⟨lbl, unt⟩ := q
  cases unt with
  | none => simp only [refuse, and_true]; rw [if_pos hq.label.2]
  | some u => simp [refuse, (hq.unit u rfl).2.2.1]

theorem loop_plain {st : Style} {sp : List Char} : ∀ {l : List (List Char × Option (List Char))}, (∀ q ∈ l, Plain q) →
    loop st sp l = .ok (l.flatMap fun q => '$' :: body st sp q.1 q.2 ++ ['$']) := by
  intro l
  induction l with
  | nil => intro _; rfl
  | cons q l ih =>
    intro h
    have hq := h q List.mem_cons_self
    rw [loop, refuse_plain hq]
    simp only [ih fun q hq => h q (List.mem_cons_of_mem _ hq), axlabel_body hq, List.flatMap_cons]

/-- Specification: the quantities with their units. -/
def quantities : Arg → List (List Char × Option (List Char))
  | .one l u => [(l, u)]
  | .many ls us => ls.zip us
  | .noUnits ls u => ls.map fun l => (l, u)

/-- Specification: there are as many units as labels, or none. -/
def Matching : Arg → Prop
  | .one _ _ => True
  | .many ls us => us.length = ls.length
  | .noUnits _ u => u = none

theorem pairs_matching {a : Arg} (ha : Matching a) : pairs a = .ok (quantities a) := by
  cases a with
  | one l u => rfl
  | many ls us => simp only [pairs, if_pos (show us.length = ls.length from ha), quantities]
  | noUnits ls u =>
    have : u = none := ha
    subst this
    simp only [pairs, true_or, if_true, quantities, Except.ok.injEq]
    clear ha
    induction ls with
    | nil => rfl
    | cons l ls ih => simp [List.replicate_succ, ih]

/-- **C168**, partial: the label is one formula between two dollar signs that contains all quantities with their units in
the chosen style, separated by commas, the spaces of the labels and the percent signs of the units replaced.  Missing:
labels with dollar signs (`C168_fails_dollar`) and empty labels (`C168_fails_empty`). -/
theorem C168_label_partial (st : Style) {sp : List Char} (hsp : '$' ∉ sp ∧ sp ≠ []) {a : Arg} (ha : Matching a)
    {q : List Char × Option (List Char)} {l : List (List Char × Option (List Char))} (hq : quantities a = q :: l)
    (hp : ∀ q ∈ quantities a, Plain q) :
    siLabel st sp a = .ok ("$".toList ++
      List.intercalate (",".toList ++ sp) ((q :: l).map fun q => body st sp q.1 q.2) ++ "$".toList) := by
  rw [hq] at hp
  simp only [siLabel, pairs_matching ha, hq, loop_plain hp]
  have h1 : ((q :: l).flatMap fun q => '$' :: body st sp q.1 q.2 ++ ['$']) =
      '$' :: (body st sp q.1 q.2 ++ '$' :: (l.map fun q => body st sp q.1 q.2).flatMap fun b => '$' :: b ++ ['$']) := by
    simp [List.flatMap_map]
  have hb := fun q' hq' => body_plain (st := st) hsp (hp q' hq')
  have h2 := hb q List.mem_cons_self
  rw [h1]
  have h3 : ∀ t : List Char, (body st sp q.1 q.2 ++ t).head? ≠ some '$' := by
    intro t hh
    cases hbb : body st sp q.1 q.2 with
    | nil => exact h2.2 hbb
    | cons c r =>
      rw [hbb] at hh
      simp only [List.cons_append, List.head?_cons, Option.some.injEq] at hh
      exact h2.1 (by rw [hbb, hh]; exact List.mem_cons_self)
  have h4 : ∀ t : List Char, replace2 '$' '$' (',' :: sp) ('$' :: (body st sp q.1 q.2 ++ t)) =
      '$' :: replace2 '$' '$' (',' :: sp) (body st sp q.1 q.2 ++ t) := by
    intro t
    cases hbt : body st sp q.1 q.2 ++ t with
    | nil => rfl
    | cons c r =>
      rw [replace2, if_neg]
      rintro ⟨-, rfl⟩
      exact h3 t (by rw [hbt]; rfl)
  rw [h4, replace_bodies _ _ _ h2.1 (by
    intro b hb'
    obtain ⟨q', hq', rfl⟩ := List.mem_map.1 hb'
    exact hb q' (List.mem_cons_of_mem _ hq'))]
  have h5 : ∀ (sep b : List Char) (t : List (List Char)),
      List.intercalate sep (b :: t) = b ++ t.flatMap fun b => sep ++ b := by
    intro sep b t
    induction t generalizing b with
    | nil => simp [List.intercalate]
    | cons c t ih =>
      have := ih c
      simp only [List.intercalate] at this ⊢
      rw [List.intersperse_cons_cons, List.flatten_cons, List.flatten_cons, this]
      simp
  rw [List.map_cons, h5]
  simp

/-- **C168**: what is refused: a dollar sign in a unit, a different number of units and labels, and a dollar sign in a
label without unit. -/
theorem C168_refused (st : Style) (sp : List Char) : (∀ l u, '$' ∈ u → siLabel st sp (.one l (some u)) = .error .assertion) ∧
    (∀ ls us, us.length ≠ ls.length → siLabel st sp (.many ls us) = .error .assertion) ∧
    ∀ l, '$' ∈ l → ∃ e, siLabel st sp (.one l none) = .error e := by
  refine ⟨fun l u hu => ?_, fun ls us h => ?_, fun l hl => ⟨.type, ?_⟩⟩
  · simp [siLabel, pairs, loop, refuse, hu]
  · simp [siLabel, pairs, h]
  · simp [siLabel, pairs, loop, refuse, hl]

theorem unescape (u : List Char) (h : '\\' ∉ u) :
    replace2 '\\' '%' ['%'] (u.flatMap fun c => if c = '%' then "\\%".toList else [c]) = u := by
  induction u with
  | nil => rfl
  | cons c u ih =>
    have hu := ih fun hh => h (List.mem_cons_of_mem _ hh)
    rw [List.flatMap_cons]
    split_ifs with hc
    · subst hc
      have : "\\%".toList = ['\\', '%'] := rfl
      rw [this, List.cons_append, List.cons_append, List.nil_append, replace2, if_pos ⟨rfl, rfl⟩]
      rw [this] at hu
      rw [hu]
      rfl
    · rw [List.singleton_append, replace2_cons_ne (fun hh => h (by simp [hh])), hu]

/-- **C168**: percent signs that have a backslash already keep it, others get one. -/
theorem C168_percent (u : List Char) (h : '\\' ∉ u) (h0 : u ≠ [] ∧ u ≠ "none".toList) :
    let e := u.flatMap fun c => if c = '%' then "\\%".toList else [c]
    unitOf (some u) = some e ∧ unitOf (some e) = some e := by
  intro e
  have h1 : replace2 '\\' '%' ['%'] e = u := unescape u h
  have h2 : e ≠ [] := by
    intro hh
    rw [hh] at h1
    exact h0.1 h1.symm
  have h3 : e ≠ "none".toList := by
    intro hh
    rw [hh] at h1
    exact h0.2 (h1.symm.trans (by decide))
  constructor
  · simp only [unitOf, h0.1, h0.2, or_self, if_false]
    rw [replace2_id u h, replace1_eq]
    rfl
  · simp only [unitOf, h2, h3, or_self, if_false]
    rw [h1, replace1_eq]
    rfl

/-- **C168**: the units `''` and `'none'` mean that there is no unit; every other unit is printed. -/
theorem C168_no_unit (st : Style) (sp l u : List Char) (hl : '$' ∉ l) (hu : u = [] ∨ u = "none".toList) :
    siLabel st sp (.one l (some u)) = siLabel st sp (.one l none) := by
  have h1 : refuse l (some u) = none := by
    have : '$' ∉ u := by
      rcases hu with rfl | rfl
      · simp
      · decide
    simp [refuse, this]
  have h2 : refuse l none = none := by simp [refuse, hl]
  have h3 : axlabel st sp l (some u) = axlabel st sp l none := by
    simp only [axlabel, unitOf, if_pos hu]
  simp only [siLabel, pairs, loop, h1, h2, h3]

example : siLabel .SI "\\;".toList (.one "T".toList (some "none".toList)) = .ok "$T$".toList := by decide

/-- **C168** fails for a label that contains a dollar sign: with a unit it is accepted, and the label falls apart into
two formulas with plain text between. -/
theorem C168_fails_dollar : siLabel .SI "\\;".toList (.one "a$b".toList (some "K".toList)) =
    .ok "$a$b\\;/\\;\\mathrm{K}$".toList := by
  decide +kernel

/-- **C168** fails for an empty label without unit: the result is a comma outside of any formula. -/
theorem C168_fails_empty : siLabel .SI "\\;".toList (.one [] none) = .ok ",\\;".toList := by
  decide +kernel

/-- The hypotheses can be met. -/
example : siLabel .IEEE "\\;".toList (.many ["a b".toList, "c".toList] [some "%".toList, none]) =
    .ok "$a\\;b\\;(\\mathrm{\\%}),\\;c$".toList := by
  rw [C168_label_partial .IEEE (by decide) (a := .many ["a b".toList, "c".toList] [some "%".toList, none]) (Eq.refl 2) (q := ("a b".toList, some "%".toList))
    (l := [("c".toList, none)]) rfl]
  · decide +kernel
  · intro q hq
    simp only [quantities, List.zip_cons_cons, List.zip_nil_right, List.mem_cons, List.not_mem_nil, or_false] at hq
    rcases hq with rfl | rfl
    · exact ⟨by decide, fun u hu => by cases hu; decide⟩
    · exact ⟨by decide, fun u hu => by cases hu⟩

/-! ## Numbers -/

/-- Rounding of a number between two integers. -/
theorem Rounding.bounds (ρ : Rounding) {x : ℝ} {a b : ℤ} (h1 : (a : ℝ) ≤ x) (h2 : x ≤ b) : a ≤ ρ.rnd x ∧ ρ.rnd x ≤ b := by
  have h := abs_le.1 (ρ.near x)
  constructor
  · by_contra hc
    have : ((ρ.rnd x + 1 : ℤ) : ℝ) ≤ a := by exact_mod_cast (by omega : ρ.rnd x + 1 ≤ a)
    push_cast at this
    linarith
  · by_contra hc
    have : ((b + 1 : ℤ) : ℝ) ≤ ρ.rnd x := by exact_mod_cast (by omega : b + 1 ≤ ρ.rnd x)
    push_cast at this
    linarith

/-- The number printed for a positive number. -/
noncomputable def mant (ρ : Rounding) (x : ℝ) : ℝ :=
  (ρ.rnd (x / (10 : ℝ) ^ (Int.log 10 x - 2)) : ℝ) * (10 : ℝ) ^ (Int.log 10 x - 2)

theorem sig3_pos (ρ : Rounding) {x : ℝ} (hx : 0 < x) : sig3 ρ x = mant ρ x := by
  simp only [sig3, mant, if_neg hx.ne', if_neg (not_lt.2 hx.le), abs_of_pos hx]

theorem sig3_neg (ρ : Rounding) {x : ℝ} (hx : x < 0) : sig3 ρ x = -mant ρ (-x) := by
  simp only [sig3, mant, if_neg hx.ne, if_pos hx, abs_of_neg hx]

theorem mant_bounds (ρ : Rounding) {x : ℝ} (hx : 0 < x) :
    (10 : ℝ) ^ Int.log 10 x ≤ mant ρ x ∧ mant ρ x ≤ (10 : ℝ) ^ (Int.log 10 x + 1) ∧ |mant ρ x - x| ≤ x / 200 := by
  set e := Int.log 10 x with he
  have h1 : (10 : ℝ) ^ e ≤ x := by exact_mod_cast Int.zpow_log_le_self (b := 10) (by norm_num) hx
  have h2 : x < (10 : ℝ) ^ (e + 1) := by exact_mod_cast Int.lt_zpow_succ_log_self (b := 10) (by norm_num) x
  have hp : (0 : ℝ) < (10 : ℝ) ^ (e - 2) := zpow_pos (by norm_num) _
  have h3 : (10 : ℝ) ^ e = 100 * (10 : ℝ) ^ (e - 2) := by
    rw [zpow_sub₀ (by norm_num)]; norm_num; ring
  have h4 : (10 : ℝ) ^ (e + 1) = 1000 * (10 : ℝ) ^ (e - 2) := by
    rw [zpow_sub₀ (by norm_num), zpow_add₀ (by norm_num)]; norm_num; ring
  have h5 := ρ.bounds (x := x / (10 : ℝ) ^ (e - 2)) (a := 100) (b := 1000)
    (by rw [le_div_iff₀ hp]; push_cast; linarith) (by rw [div_le_iff₀ hp]; push_cast; linarith)
  have h6 : (100 : ℝ) ≤ ρ.rnd (x / (10 : ℝ) ^ (e - 2)) := by exact_mod_cast h5.1
  have h7 : (ρ.rnd (x / (10 : ℝ) ^ (e - 2)) : ℝ) ≤ 1000 := by exact_mod_cast h5.2
  refine ⟨?_, ?_, ?_⟩
  · rw [h3, mant, ← he]; exact mul_le_mul_of_nonneg_right h6 hp.le
  · rw [h4, mant, ← he]; exact mul_le_mul_of_nonneg_right h7 hp.le
  · have h8 : mant ρ x - x = ((ρ.rnd (x / (10 : ℝ) ^ (e - 2)) : ℝ) - x / (10 : ℝ) ^ (e - 2)) * (10 : ℝ) ^ (e - 2) := by
      rw [mant, ← he, sub_mul, div_mul_cancel₀ _ hp.ne']
    rw [h8, abs_mul, abs_of_pos hp]
    have := mul_le_mul_of_nonneg_right (ρ.near (x / (10 : ℝ) ^ (e - 2))) hp.le
    linarith

/-- **C168**: the number printed is off by at most half a percent, below 1000; from 1000 on by at most one half. -/
theorem C168_number (ρ : Rounding) (x : ℝ) : |sinum ρ x - x| ≤ |x| / 200 ∧ (1000 ≤ x → |sinum ρ x - x| ≤ 1 / 2) := by
  by_cases hx : x < 1000
  · refine ⟨?_, fun h => absurd hx (not_lt.2 h)⟩
    rw [sinum, if_pos hx]
    rcases lt_trichotomy x 0 with h | h | h
    · rw [sig3_neg ρ h, abs_of_neg h]
      have := (mant_bounds ρ (x := -x) (by linarith)).2.2
      rwa [abs_sub_comm, show x - -mant ρ (-x) = mant ρ (-x) - -x by ring]
    · simp [h, sig3]
    · rw [sig3_pos ρ h, abs_of_pos h]
      exact (mant_bounds ρ h).2.2
  · rw [sinum, if_neg hx]
    have h1 := ρ.near x
    push Not at hx
    exact ⟨h1.trans (by rw [abs_of_nonneg (by linarith)]; linarith), fun _ => h1⟩

theorem mant_mono (ρ : Rounding) (hρ : Monotone ρ.rnd) {x y : ℝ} (hx : 0 < x) (hxy : x ≤ y) : mant ρ x ≤ mant ρ y := by
  have hy := hx.trans_le hxy
  rcases (Int.log_mono_right (b := 10) hx hxy).eq_or_lt with h | h
  · have hp : (0 : ℝ) < (10 : ℝ) ^ (Int.log 10 y - 2) := zpow_pos (by norm_num) _
    rw [mant, mant, h]
    apply mul_le_mul_of_nonneg_right _ hp.le
    exact_mod_cast hρ (div_le_div_of_nonneg_right hxy hp.le)
  · exact ((mant_bounds ρ hx).2.1.trans (zpow_le_zpow_right₀ (by norm_num) (by omega))).trans (mant_bounds ρ hy).1

theorem mant_nonneg (ρ : Rounding) {x : ℝ} (hx : 0 < x) : 0 ≤ mant ρ x :=
  (zpow_pos (by norm_num : (0 : ℝ) < 10) _).le.trans (mant_bounds ρ hx).1

theorem sig3_mono (ρ : Rounding) (hρ : Monotone ρ.rnd) {x y : ℝ} (hxy : x ≤ y) : sig3 ρ x ≤ sig3 ρ y := by
  have h0 : sig3 ρ 0 = 0 := by simp [sig3]
  rcases lt_trichotomy x 0 with hx | hx | hx
  · have hn := mant_nonneg ρ (x := -x) (by linarith)
    rw [sig3_neg ρ hx]
    rcases lt_trichotomy y 0 with hy | hy | hy
    · rw [sig3_neg ρ hy]
      exact neg_le_neg (mant_mono ρ hρ (by linarith) (by linarith))
    · rw [hy, h0]; linarith
    · rw [sig3_pos ρ hy]; linarith [mant_nonneg ρ hy]
  · subst hx
    rw [h0]
    rcases hxy.eq_or_lt with hy | hy
    · rw [← hy, h0]
    · rw [sig3_pos ρ hy]; exact mant_nonneg ρ hy
  · rw [sig3_pos ρ hx, sig3_pos ρ (hx.trans_le hxy)]
    exact mant_mono ρ hρ hx hxy

/-- **C168**: the printed numbers have the order of the numbers. -/
theorem C168_order (ρ : Rounding) (hρ : Monotone ρ.rnd) {x y : ℝ} (hxy : x ≤ y) : sinum ρ x ≤ sinum ρ y := by
  by_cases hy : y < 1000
  · rw [sinum, if_pos (hxy.trans_lt hy), sinum, if_pos hy]
    exact sig3_mono ρ hρ hxy
  · push Not at hy
    by_cases hx : x < 1000
    · have h1 : (1000 : ℝ) ≤ sinum ρ y := by
        rw [sinum, if_neg (not_lt.2 hy)]
        have : (1000 : ℤ) ≤ ρ.rnd y := (ρ.bounds (a := 1000) (b := ⌈y⌉) (by push_cast; exact hy) (Int.le_ceil y)).1
        exact_mod_cast this
      refine le_trans ?_ h1
      rw [sinum, if_pos hx]
      rcases lt_trichotomy x 0 with h | h | h
      · rw [sig3_neg ρ h]
        linarith [mant_nonneg ρ (x := -x) (by linarith)]
      · simp [h, sig3]
      · rw [sig3_pos ρ h]
        refine (mant_bounds ρ h).2.1.trans ?_
        have h2 : Int.log 10 x < 3 := by
          rw [← Int.lt_zpow_iff_log_lt (by norm_num) h]
          norm_num
          exact hx
        calc (10 : ℝ) ^ (Int.log 10 x + 1) ≤ (10 : ℝ) ^ (3 : ℤ) := zpow_le_zpow_right₀ (by norm_num) (by omega)
          _ = 1000 := by norm_num
    · rw [sinum, if_neg hx, sinum, if_neg (not_lt.2 hy)]
      exact_mod_cast hρ hxy

/-- **C168** fails to treat a number and its negative alike: 12345 keeps its digits, −12345 is printed as −12300. -/
theorem C168_fails_sign (ρ : Rounding) : sinum ρ 12345 = 12345 ∧ sinum ρ (-12345) = -12300 := by
  have hr : ∀ (x : ℝ) (k : ℤ), |x - k| < 1 / 2 → ρ.rnd x = k := by
    intro x k hk
    have h := abs_le.1 (ρ.near x)
    have hk := abs_lt.1 hk
    have h1 : ((ρ.rnd x : ℤ) : ℝ) < ((k + 1 : ℤ) : ℝ) := by push_cast; linarith
    have h2 : ((k - 1 : ℤ) : ℝ) < ((ρ.rnd x : ℤ) : ℝ) := by push_cast; linarith
    have h1 := Int.cast_lt.1 h1
    have h2 := Int.cast_lt.1 h2
    omega
  constructor
  · rw [sinum, if_neg (by norm_num), hr 12345 12345 (by norm_num)]
    norm_num
  · rw [sinum, if_pos (by norm_num), sig3_neg ρ (by norm_num), mant, neg_neg]
    have he : Int.log 10 (12345 : ℝ) = 4 := by
      apply le_antisymm
      · have : Int.log 10 (12345 : ℝ) < 5 := by
          rw [← Int.lt_zpow_iff_log_lt (by norm_num) (by norm_num)]
          norm_num
        omega
      · rw [← Int.zpow_le_iff_le_log (by norm_num) (by norm_num)]
        norm_num
    rw [he, hr _ 123 (by norm_num [abs_lt])]
    norm_num

/-- There is such a rounding, and it respects the order. -/
example : ∃ ρ : Rounding, Monotone ρ.rnd :=
  ⟨⟨round, fun x => by rw [abs_sub_comm]; exact abs_sub_round x⟩, fun x y h => by
    simp only [round_eq]
    exact Int.floor_le_floor (by linarith)⟩

end Verif.Label
