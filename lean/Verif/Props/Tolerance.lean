import Verif.Props.Separate
import Verif.Props.Stats

/-!
# C135: accepted steps keep the tolerance

The error of a cell is the weighted difference of corrector and predictor, its tolerance is `max(T) * rtol + atol`
(documented for `set_solver`).
-/

namespace Verif.StepControl

open Stats

/-- Specification: the step is accepted because of its error (not because it has the smallest allowed length). -/
def Accepted (c : Cfg) (l : Loop) (err : Option ℝ) : Prop := ∃ l' code, pass c l ⟨none, [], err⟩ = .accept l' code ∧ code ≠ 6

/-- Specification: the step is repeated with a shorter length. -/
def Repeated (c : Cfg) (l : Loop) (err : Option ℝ) : Prop := ∃ l', pass c l ⟨none, [], err⟩ = .retry l'

/-- What happens after a bad step. -/
noncomputable def bad (c : Cfg) (l : Loop) (err : Option ℝ) : Pass :=
  if l.h = c.minStep then .accept l 6
  else .retry { l with
    h := if l.h * shrink c err < c.minStep then c.minStep else l.h * shrink c err, failed := l.failed + 1 }

theorem pass_none (c : Cfg) (l : Loop) : pass c l ⟨none, [], none⟩ = bad c l none := rfl

theorem pass_some (c : Cfg) (l : Loop) (e : ℝ) : pass c l ⟨none, [], some e⟩ =
    if 0 < e ∧ e < 1 then
      if l.h * growth c l.maxFactor l.sinceFail e > c.maxStep then .accept { l with h := c.maxStep } 5
      else .accept { l with h := l.h * growth c l.maxFactor l.sinceFail e } 4
    else if e = 0 then
      .accept { l with h := if l.h * l.maxFactor > c.maxStep then c.maxStep else l.h * l.maxFactor } 7
    else bad c l (some e) := rfl

theorem bad_code {c : Cfg} {l l' : Loop} {err : Option ℝ} {code : ℕ} (h : bad c l err = .accept l' code) : code = 6 := by
  unfold bad at h
  split_ifs at h
  cases h
  rfl

theorem accepted_iff (c : Cfg) (l : Loop) (err : Option ℝ) : Accepted c l err ↔ ∃ e, err = some e ∧ 0 ≤ e ∧ e < 1 := by
  unfold Accepted
  cases err with
  | none =>
    constructor
    · rintro ⟨l', code, h, hc⟩
      rw [pass_none] at h
      exact absurd (bad_code h) hc
    · rintro ⟨e, h, -⟩
      cases h
  | some e =>
    simp only [Option.some.injEq, exists_eq_left', pass_some]
    constructor
    · rintro ⟨l', code, h, hc⟩
      by_cases h1 : 0 < e ∧ e < 1
      · exact ⟨h1.1.le, h1.2⟩
      · by_cases h2 : e = 0
        · rw [h2]; norm_num
        · rw [if_neg h1, if_neg h2] at h
          exact absurd (bad_code h) hc
    · rintro ⟨h0, h1⟩
      rcases h0.eq_or_lt with h2 | h2
      · rw [if_neg (by intro h; linarith [h.1]), if_pos h2.symm]
        exact ⟨_, _, rfl, by norm_num⟩
      · rw [if_pos ⟨h2, h1⟩]
        by_cases hg : l.h * growth c l.maxFactor l.sinceFail e > c.maxStep
        · exact ⟨_, _, if_pos hg, by norm_num⟩
        · exact ⟨_, _, if_neg hg, by norm_num⟩

theorem repeated_of (c : Cfg) (l : Loop) {e : ℝ} (h1 : 1 ≤ e) (hm : l.h ≠ c.minStep) : Repeated c l (some e) := by
  unfold Repeated
  rw [pass_some, if_neg (by intro h; linarith [h.2]), if_neg (by linarith), bad, if_neg hm]
  exact ⟨_, rfl⟩

/-- The scaled error of a cell. -/
noncomputable def scaled (rtol atol : ℝ) (c : Cell) : ℝ := |c.res - c.pred| * |c.weight| / tolerance rtol atol c

theorem truncErr_eq {rtol atol : ℝ} {cs : List Cell} (h : ∀ c ∈ cs, 0 < tolerance rtol atol c) :
    truncErr rtol atol cs = some ((cs.map fun c => scaled rtol atol c ^ 2).sum) := by
  induction cs with
  | nil => rfl
  | cons c cs ih =>
    have t0 := h c List.mem_cons_self
    rw [truncErr, ih fun c' hc' => h c' (List.mem_cons_of_mem _ hc'), cellErr, if_neg t0.ne']
    simp only [Option.bind_eq_bind, Option.bind_some, List.map_cons, List.sum_cons, scaled]
    rw [← abs_mul, div_pow, div_pow, sq_abs]

theorem sum_lt {rtol atol a : ℝ} {cs : List Cell} (hne : cs ≠ [])
    (h : ∀ c ∈ cs, scaled rtol atol c ^ 2 < a) : (cs.map fun c => scaled rtol atol c ^ 2).sum < cs.length * a := by
  induction cs with
  | nil => exact absurd rfl hne
  | cons c cs ih =>
    have h0 := h c List.mem_cons_self
    simp only [List.map_cons, List.sum_cons, List.length_cons]
    push_cast
    by_cases hn : cs = []
    · subst hn; simpa using h0
    · have := ih hn fun c' hc' => h c' (List.mem_cons_of_mem _ hc')
      linarith

/-- The cells of all parts and the number by which their error is divided. -/
def cellsOf (parts : List (ℕ × List Cell)) : List Cell := parts.flatMap Prod.snd

/-- Specification: `num_gp` is the number of cells of each part (pipes, storages and boilers). -/
def Counted (parts : List (ℕ × List Cell)) : Prop := ∀ q ∈ parts, q.1 = q.2.length

theorem counted_length {parts : List (ℕ × List Cell)} (h : Counted parts) :
    (parts.map Prod.fst).sum = (cellsOf parts).length := by
  unfold cellsOf
  rw [List.length_flatMap]
  exact congrArg List.sum (List.map_congr_left fun q hq => h q hq)

/-- **C135** (part).  A step in which every cell of every part has an error below its tolerance is accepted.  Missing:
heat exchangers with a numeric wall, see `C135_fails_hexnum`. -/
theorem C135_within_partial (c : Cfg) (l : Loop) {rtol atol : ℝ} (parts : List (ℕ × List Cell)) (hg : Counted parts)
    (hne : cellsOf parts ≠ [])
    (h : ∀ q ∈ cellsOf parts, |q.res - q.pred| * |q.weight| < tolerance rtol atol q) :
    Accepted c l (plantErr rtol atol parts) := by
  have t0 : ∀ q ∈ cellsOf parts, 0 < tolerance rtol atol q := fun q hq =>
    lt_of_le_of_lt (by positivity) (h q hq)
  rw [accepted_iff]
  unfold plantErr
  have e := truncErr_eq t0
  have hs : (((cellsOf parts).map fun c => scaled rtol atol c ^ 2).sum : ℝ) < (cellsOf parts).length * 1 := by
    refine sum_lt hne fun q hq => ?_
    have h1 : scaled rtol atol q < 1 := (div_lt_one (t0 q hq)).2 (h q hq)
    have h0 : 0 ≤ scaled rtol atol q := div_nonneg (by positivity) (t0 q hq).le
    exact pow_lt_one₀ h0 h1 two_ne_zero
  have hn : (0 : ℝ) ≤ ((cellsOf parts).map fun c => scaled rtol atol c ^ 2).sum :=
    List.sum_nonneg (by simp only [List.mem_map]; rintro _ ⟨q, -, rfl⟩; exact sq_nonneg _)
  change truncErr rtol atol (parts.flatMap Prod.snd) = _ at e
  rw [e, counted_length hg]
  rw [mul_one] at hs
  refine ⟨_, rfl, by positivity, Real.rpow_lt_one (by positivity) ((div_lt_one (hn.trans_lt hs)).2 hs) (by norm_num)⟩

/-- **C135** (part).  In an accepted step the error of every cell is below its tolerance times the root of the number
of cells of the plant.  Missing: the tolerance itself is not kept, see `C135_fails_cell`. -/
theorem C135_bound_partial (c : Cfg) (l : Loop) {rtol atol : ℝ} (parts : List (ℕ × List Cell))
    (t0 : ∀ q ∈ cellsOf parts, 0 < tolerance rtol atol q) (hpos : 0 < (parts.map Prod.fst).sum)
    (ha : Accepted c l (plantErr rtol atol parts)) :
    ∀ q ∈ cellsOf parts, |q.res - q.pred| * |q.weight| <
      tolerance rtol atol q * Real.sqrt ((parts.map Prod.fst).sum : ℕ) := by
  intro q hq
  obtain ⟨e, he, h0, h1⟩ := (accepted_iff _ _ _).1 ha
  unfold plantErr at he
  have e' := truncErr_eq t0
  change truncErr rtol atol (parts.flatMap Prod.snd) = _ at e'
  rw [e', Option.map_some, Option.some.injEq] at he
  have hn : (0 : ℝ) ≤ ((cellsOf parts).map fun c => scaled rtol atol c ^ 2).sum :=
    List.sum_nonneg (by simp only [List.mem_map]; rintro _ ⟨q, -, rfl⟩; exact sq_nonneg _)
  have hk : (0 : ℝ) < ((parts.map Prod.fst).sum : ℕ) := by exact_mod_cast hpos
  have hlt : ((cellsOf parts).map fun c => scaled rtol atol c ^ 2).sum < ((parts.map Prod.fst).sum : ℕ) := by
    by_contra hc
    have : 1 ≤ ((cellsOf parts).map fun c => scaled rtol atol c ^ 2).sum / ((parts.map Prod.fst).sum : ℕ) :=
      (one_le_div hk).2 (not_lt.1 hc)
    have := Real.one_le_rpow this (by norm_num : (0 : ℝ) ≤ 0.5)
    linarith
  have hle : scaled rtol atol q ^ 2 ≤ ((cellsOf parts).map fun c => scaled rtol atol c ^ 2).sum :=
    List.single_le_sum (by simp only [List.mem_map]; rintro _ ⟨q, -, rfl⟩; exact sq_nonneg _) _
      (List.mem_map.2 ⟨q, hq, rfl⟩)
  have hlt2 := Real.lt_sqrt_of_sq_lt (hle.trans_lt hlt)
  unfold scaled at hlt2
  rw [div_lt_iff₀ (t0 q hq)] at hlt2
  linarith

/-- A pipe of two cells whose errors are 0.02 K with tolerances above 0.03 K. -/
example : Counted [(2, [⟨30, 31, 31.02, 1⟩, ⟨40, 40, 39.98, 1⟩])] ∧
    ∀ q ∈ cellsOf [(2, [(⟨30, 31, 31.02, 1⟩ : Cell), ⟨40, 40, 39.98, 1⟩])],
      |q.res - q.pred| * |q.weight| < tolerance 0.001 0.000001 q := by
  constructor
  · simp [Counted]
  · intro q hq
    simp only [cellsOf, List.flatMap_cons, List.flatMap_nil, List.append_nil, List.mem_cons, List.not_mem_nil, or_false] at hq
    rcases hq with rfl | rfl
    · have : (31 : ℝ) ≤ max 30 31 := le_max_right _ _
      simp only [tolerance]
      rw [abs_of_neg (by norm_num)]
      norm_num
    · simp only [tolerance]
      rw [abs_of_pos (by norm_num)]
      norm_num

/-- **C135** is false for single cells: in a pipe of `n` cells one cell may exceed its tolerance by any factor below
the root of `n`; the step is accepted if the other cells do not change. -/
theorem C135_fails_cell (c : Cfg) (l : Loop) {rtol atol T a : ℝ} (ht : 0 < T * rtol + atol) (ha : 0 ≤ a) (n : ℕ)
    (han : a ^ 2 < n + 1) :
    let q : Cell := ⟨T, T, T + a * (T * rtol + atol), 1⟩
    |q.res - q.pred| * |q.weight| = a * tolerance rtol atol q ∧
      Accepted c l (plantErr rtol atol [(n + 1, q :: List.replicate n (idle T))]) := by
  intro q
  have hd : |q.res - q.pred| * |q.weight| = a * tolerance rtol atol q := by
    simp only [q, tolerance, max_self]
    rw [abs_sub_comm, add_sub_cancel_left, abs_of_nonneg (mul_nonneg ha ht.le)]
    simp
  have htq : tolerance rtol atol q = T * rtol + atol := by simp [q, tolerance]
  refine ⟨hd, ?_⟩
  rw [accepted_iff]
  have e : truncErr rtol atol (q :: List.replicate n (idle T)) = some (a ^ 2) := by
    rw [truncErr, truncErr_idle ht.ne', cellErr, htq, if_neg ht.ne']
    have : (q.res - q.pred) * q.weight / (T * rtol + atol) = -a := by
      simp only [q]
      rw [mul_one, sub_add_cancel_left, neg_div, mul_div_assoc, div_self ht.ne', mul_one]
    simp [this]
  refine ⟨(a ^ 2 / ((n + 1 : ℕ) : ℝ)) ^ (0.5 : ℝ), ?_, by positivity, ?_⟩
  · simp [plantErr, e]
  · refine Real.rpow_lt_one (by positivity) ((div_lt_one (by positivity)).2 ?_) (by norm_num)
    push_cast
    exact han

/-- Twelve times the tolerance in a storage of 200 cells. -/
example : (0 : ℝ) < 60 * 0.001 + 0.000001 ∧ (12 : ℝ) ^ 2 < (199 : ℕ) + 1 := by norm_num

/-- **C135** is false for heat exchangers with numeric walls: their `T` has three cells per `num_gp`, so a step is
repeated although every cell keeps six tenths of its tolerance. -/
theorem C135_fails_hexnum (c : Cfg) (l : Loop) (hm : l.h ≠ c.minStep) {rtol atol T : ℝ} (ht : 0 < T * rtol + atol) {n : ℕ}
    (hn : 0 < n) :
    let q : Cell := ⟨T, T, T + 0.6 * (T * rtol + atol), 1⟩
    |q.res - q.pred| * |q.weight| < tolerance rtol atol q ∧
      Repeated c l (plantErr rtol atol [(n, List.replicate (3 * n) q)]) := by
  intro q
  have htq : tolerance rtol atol q = T * rtol + atol := by simp [q, tolerance]
  have hd : |q.res - q.pred| * |q.weight| = 0.6 * tolerance rtol atol q := by
    simp only [q, tolerance, max_self]
    rw [abs_sub_comm, add_sub_cancel_left, abs_of_nonneg (by positivity)]
    simp
  refine ⟨by rw [hd, htq]; linarith, ?_⟩
  have e : ∀ k : ℕ, truncErr rtol atol (List.replicate k q) = some ((k : ℝ) * 0.36) := by
    intro k
    rw [truncErr_eq (by intro q' hq'; rw [List.eq_of_mem_replicate hq', htq]; exact ht)]
    rw [List.map_replicate, List.sum_replicate, nsmul_eq_mul]
    have : scaled rtol atol q = 0.6 := by
      unfold scaled
      rw [hd, mul_div_assoc, div_self (by rw [htq]; exact ht.ne'), mul_one]
    rw [this]
    norm_num
  have e2 : plantErr rtol atol [(n, List.replicate (3 * n) q)] = some ((1.08 : ℝ) ^ (0.5 : ℝ)) := by
    have hn' : (n : ℝ) ≠ 0 := by exact_mod_cast hn.ne'
    simp only [plantErr, List.flatMap_cons, List.flatMap_nil, List.append_nil, e, Option.map_some, List.map_cons,
      List.map_nil, List.sum_cons, List.sum_nil, add_zero, Option.some.injEq]
    congr 1
    push_cast
    field_simp
    norm_num
  rw [e2]
  exact repeated_of c l (Real.one_le_rpow (by norm_num) (by norm_num)) hm

example : (0 : ℝ) < 60 * 0.001 + 0.000001 ∧ 0 < 20 := by norm_num

end Verif.StepControl
