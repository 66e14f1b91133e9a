import Verif.Model.RootFind
import Mathlib.Algebra.Order.AbsoluteValue.Basic
import Mathlib.Data.Rat.Defs
import Mathlib.Tactic.FieldSimp
import Mathlib.Tactic.Linarith
import Mathlib.Tactic.Ring
import Mathlib.Tactic.FinCases
import Mathlib.Data.Fin.VecNotation

/-!
# C152 – the root finders return roots
-/

namespace Verif.RootFind

variable {K ι : Type*} [Field K] [LinearOrder K] [IsStrictOrderedRing K] [Fintype ι]

/-- Independent linear equations with the roots `r`. -/
def linear (a r : ι → K) (x : ι → K) (i : ι) : K := a i * (x i - r i)

omit [Fintype ι] in
theorem second_ne {dx : K} (hd : 0 < dx) (p : ι → K) (i : ι) : second dx p i ≠ p i := by
  unfold second
  split_ifs with h
  · nlinarith [mul_nonneg h hd.le]
  · push Not at h
    nlinarith [mul_pos_of_neg_of_neg h (neg_lt_zero.2 hd)]

omit [IsStrictOrderedRing K] [Fintype ι] in
/-- The secant step solves a linear equation. -/
theorem linear_new {a r : ι → K} {s : Sec K ι} {i : ι} (ha : a i ≠ 0) (h0 : s.q0 i = a i * (s.p i - r i))
    (h1 : s.q1 i = a i * (s.p1 i - r i)) (hp : s.p1 i ≠ s.p i) : s.q1 i ≠ s.q0 i ∧ s.dp i = s.p1 i - r i ∧ s.new i = r i := by
  have hq : s.q1 i - s.q0 i = a i * (s.p1 i - s.p i) := by rw [h0, h1]; ring
  have hne : s.p1 i - s.p i ≠ 0 := sub_ne_zero.2 hp
  have hq' : s.q1 i ≠ s.q0 i := sub_ne_zero.1 (by rw [hq]; exact mul_ne_zero ha hne)
  have hd : s.dp i = s.p1 i - r i := by
    rw [Sec.dp, hq, h1]
    field_simp
  exact ⟨hq', hd, by rw [Sec.new, if_pos hq', hd]; ring⟩

/-- **C152** (part).  Independent linear equations are solved exactly, from every start and with every tolerance, if two
passes are allowed.  Missing: coupled equations, see `C152_fails_coupled`; the limit of the passes, see
`C152_fails_maxiter`. -/
theorem C152_linear_partial {a r : ι → K} (ha : ∀ i, a i ≠ 0) {dx tol : K} (hd : 0 < dx) (ht : 0 < tol) (x0 : ι → K)
    (n : ℕ) : (rootArraySecant (linear a r) dx x0 tol (n + 2)).1 = r := by
  unfold rootArraySecant
  set s := secantStart (linear a r) dx x0 with hs
  have step : ∀ i, s.q1 i ≠ s.q0 i ∧ s.dp i = s.p1 i - r i ∧ s.new i = r i := fun i =>
    linear_new (ha i) rfl rfl (second_ne hd x0 i)
  have hr : s.new = r := funext fun i => (step i).2.2
  rw [secantLoop]
  split_ifs with h1 h2
  · funext i
    exact absurd (h1 i) (step i).1
  · exact hr
  · have e1 : (s.next (linear a r)).p1 = r := hr
    have e2 : ∀ i, (s.next (linear a r)).q1 i = 0 := fun i => by
      change linear a r s.new i = 0
      rw [hr]; simp [linear]
    have e3 : ∀ i, (s.next (linear a r)).q0 i = a i * ((s.next (linear a r)).p i - r i) := fun i => rfl
    have e4 : ∀ i, (s.next (linear a r)).active i = true := fun i => by
      change (s.active i && decide (s.q1 i ≠ s.q0 i)) = true
      simp only [(step i).1, ne_eq, not_false_eq_true, decide_true, Bool.and_true]
      rfl
    generalize s.next (linear a r) = t at e1 e2 e3 e4
    have e5 : ∀ i, t.q1 i = t.q0 i → t.p i = r i := fun i h => by
      rw [e2, e3] at h
      rcases mul_eq_zero.1 h.symm with h | h
      · exact absurd h (ha i)
      · exact sub_eq_zero.1 h
    rw [secantLoop]
    split_ifs with h3 h4
    · funext i
      dsimp only
      rw [e1, e5 i (h3 i)]
      ring
    · funext i
      dsimp only
      rw [Sec.new]
      by_cases h : t.q1 i = t.q0 i
      · rw [if_neg (not_not.2 h), if_pos (e4 i), e1, e5 i h]; ring
      · rw [if_pos h, Sec.dp, e2, e1]; simp
    · exact absurd (fun i _ => by rw [Sec.dp, e2]; simpa using ht) h4

/-- `3 (x - 60) = 0` and `-2 (y + 5) = 0` from `(20, 0)`. -/
example : (rootArraySecant (linear ![(3 : ℚ), -2] ![60, -5]) (1 / 100000) ![20, 0] (1 / 1000) 2).1 = ![60, -5] :=
  C152_linear_partial (by decide) (by norm_num) (by norm_num) _ 0

/-- **C152** (part).  Newton's method solves independent linear equations in its first pass. -/
theorem C152_newton_partial {a r : ι → K} (ha : ∀ i, a i ≠ 0) (tol : K) (x0 : ι → K) (n : ℕ) :
    rootArrayNewton (linear a r) (fun _ => a) tol (n + 1) x0 = r := by
  have hn : newtonNew (linear a r) (fun _ => a) x0 = r := by
    funext i
    rw [newtonNew, if_pos (ha i), linear, mul_div_cancel_left₀ _ (ha i)]
    ring
  have hz : ∀ x : ι → K, (∀ i, linear a r x i = 0) → x = r := fun x h => funext fun i =>
    sub_eq_zero.1 ((mul_eq_zero.1 (h i)).resolve_left (ha i))
  rw [rootArrayNewton]
  split_ifs with h1 h2 h3
  · exact hz _ h1
  · exact funext fun i => absurd (h2 i) (ha i)
  · exact hn
  · rw [hn]
    cases n with
    | zero => rfl
    | succ n =>
      rw [rootArrayNewton, if_pos fun i => by simp [linear]]

example : rootArrayNewton (linear ![(3 : ℚ), -2] ![60, -5]) (fun _ => ![3, -2]) (1 / 1000) 1 ![20, 0] = ![60, -5] :=
  C152_newton_partial (by decide) _ _ 0

/-- **C152** (part).  Newton's method goes on as long as the step of a single element is not shorter than the tolerance: each element with a
slope makes its own Newton step, the others stay.  Missing: the limit of the passes. -/
theorem C152_newton_goes_on_partial (f f' : (ι → K) → ι → K) {tol : K} (ht : 0 < tol) (p : ι → K) (n : ℕ) {j : ι}
    (hj : f' p j ≠ 0) (hs : tol ≤ |f p j / f' p j|) :
    rootArrayNewton f f' tol (n + 1) p =
      rootArrayNewton f f' tol n (fun i => if f' p i = 0 then p i else p i - f p i / f' p i) := by
  have h0 : f p j ≠ 0 := fun h => by
    rw [h, zero_div, abs_zero] at hs
    exact absurd hs (not_le.2 ht)
  have e : newtonNew f f' p = fun i => if f' p i = 0 then p i else p i - f p i / f' p i := by
    funext i
    unfold newtonNew
    by_cases h : f' p i = 0
    · rw [if_neg (not_not.2 h), if_pos h]
    · rw [if_pos h, if_neg h]
  rw [rootArrayNewton, if_neg fun h => h0 (h j), if_neg fun h => hj (h j), if_neg fun h => absurd (h j hj) (not_lt.2 hs), e]

/-- Two equations, the first solved already. -/
example : rootArrayNewton (fun x : Fin 2 → ℚ => ![x 0, x 1 ^ 2 - 4]) (fun x => ![1, 2 * x 1]) (1 / 10) 1 ![0, 1] = ![0, 5 / 2] := by
  decide +kernel

/-- In the loop, `q0` and `q1` are the values at `p` and `p1`; then a short last step bounds the value at the result. -/
theorem secantLoop_small [Unique ι] {f : (ι → K) → ι → K} {L tol : K} (hL : 0 ≤ L)
    (hf : ∀ x y, |f x default - f y default| ≤ L * |x default - y default|) (n : ℕ) (s : Sec K ι) (h0 : s.q0 = f s.p)
    (h1 : s.q1 = f s.p1) (he : (secantLoop f tol n s).2 = .small) : |f (secantLoop f tol n s).1 default| ≤ 2 * L * tol := by
  induction n generalizing s with
  | zero => exact absurd he (by rw [secantLoop]; exact Exit.noConfusion)
  | succ n ih =>
    rw [secantLoop] at he ⊢
    split_ifs at he ⊢ with h2 h3
    · have hq : s.q1 default ≠ s.q0 default := fun h => h2 fun i => by rw [Unique.eq_default i]; exact h
      have hd : |s.dp default| < tol := h3 _ hq
      have hp : s.p1 default - s.p default ≠ 0 := fun h => by
        have := hf s.p1 s.p
        rw [h, abs_zero, mul_zero, ← h0, ← h1] at this
        exact hq (sub_eq_zero.1 (abs_eq_zero.1 (le_antisymm this (abs_nonneg _))))
      have hq0 := sub_ne_zero.2 hq
      have e1 : s.q1 default = s.dp default * ((s.q1 default - s.q0 default) / (s.p1 default - s.p default)) := by
        rw [Sec.dp]
        field_simp
      have b1 : |s.q1 default| ≤ tol * L := by
        rw [e1, abs_mul]
        refine mul_le_mul hd.le ?_ (abs_nonneg _) ((abs_nonneg _).trans hd.le)
        rw [abs_div, div_le_iff₀ (abs_pos.2 hp), h0, h1]
        exact hf _ _
      have b2 : |f s.new default - s.q1 default| ≤ L * tol := by
        rw [h1]
        refine (hf _ _).trans (mul_le_mul_of_nonneg_left ?_ hL)
        rw [Sec.new, if_pos hq]
        rw [sub_sub_cancel_left, abs_neg]
        exact hd.le
      calc |f s.new default| = |(f s.new default - s.q1 default) + s.q1 default| := by rw [sub_add_cancel]
        _ ≤ L * tol + tol * L := (abs_add_le _ _).trans (add_le_add b2 b1)
        _ = 2 * L * tol := by ring
    · exact ih _ (by rw [Sec.next, h1]) rfl he

/-- **C152** (part).  For one equation `f(x) = 0` whose slope is nowhere steeper than `L`: if the secant method stops
because of a short step, the value at the result is at most `2 L tol`.  Missing: the caller is not told why it
stopped, see `C152_fails_flat` and `C152_fails_maxiter`. -/
theorem C152_small_partial {g : K → K} {L : K} (hL : 0 ≤ L) (hg : ∀ x y, |g x - g y| ≤ L * |x - y|) (dx tol x0 : K) (n : ℕ)
    (he : (rootArraySecant (fun (x : Unit → K) _ => g (x ())) dx (fun _ => x0) tol n).2 = .small) :
    |g ((rootArraySecant (fun (x : Unit → K) _ => g (x ())) dx (fun _ => x0) tol n).1 ())| ≤ 2 * L * tol :=
  secantLoop_small hL (fun _ _ => hg _ _) n _ rfl rfl he

/-- `x = 2` found from 1 with slope 3. -/
example : (rootArraySecant (fun (x : Unit → ℚ) _ => 3 * (x () - 2)) (1 / 1000) (fun _ => 1) (1 / 100) 5).2 = .small := by
  decide +kernel

omit [IsStrictOrderedRing K] in
/-- **C152** is false where the function does not change between the two starting points: their mean is returned,
whatever the value there; Newton's method returns the starting point. -/
theorem C152_fails_flat [Nonempty ι] {c : K} (hc : c ≠ 0) (dx : K) (x0 : ι → K) (tol : K) (n : ℕ) :
    (rootArraySecant (fun _ _ => c) dx x0 tol (n + 1)).1 = (fun i => (second dx x0 i + x0 i) / 2) ∧
      rootArrayNewton (fun _ _ => c) (fun _ _ => 0) tol (n + 1) x0 = x0 := by
  constructor
  · rw [rootArraySecant, secantLoop, if_pos (by intro _; rfl)]
    rfl
  · rw [rootArrayNewton, if_neg fun h => hc (h (Classical.arbitrary ι)), if_pos fun _ => rfl]

/-- **C152** is false when the passes run out: the two iterates are exchanged before the loop ends, the older one is
returned.  With one pass the second starting point comes back although the exact solution has been computed. -/
theorem C152_fails_maxiter {a r : ι → K} (ha : ∀ i, a i ≠ 0) {dx : K} (hd : 0 < dx) {tol : K} (x0 : ι → K) {j : ι}
    (hj : tol ≤ |second dx x0 j - r j|) :
    (rootArraySecant (linear a r) dx x0 tol 1).1 = second dx x0 ∧
      (secantStart (linear a r) dx x0).new = r := by
  have step : ∀ i, _ := fun i =>
    linear_new (s := secantStart (linear a r) dx x0) (r := r) (ha i) rfl rfl (second_ne hd x0 i)
  refine ⟨?_, funext fun i => (step i).2.2⟩
  rw [rootArraySecant, secantLoop, if_neg fun h => (step j).1 (h j), if_neg fun h => ?_]
  · rfl
  · have := h j (step j).1
    rw [(step j).2.1] at this
    exact absurd hj (not_le.2 this)

example : (rootArraySecant (linear ![(3 : ℚ)] ![60]) (1 / 1000) ![20] (1 / 1000) 1).1 = ![20021 / 1000] := by decide +kernel

/-- Two coupled equations, `x - y = 1` and `x + y = 0`. -/
def coupled (x : Fin 2 → K) : Fin 2 → K := ![x 0 - x 1 - 1, x 0 + x 1]

/-- **C152** is false for coupled equations: the step of each variable is computed from the change of its own equation
only.  From `(0, 0)` the method stops at once at `(dx / 2, 0)`, where the first equation is not solved; the equations have
the unique solution `(1/2, -1/2)`. -/
theorem C152_fails_coupled {dx tol : K} (hd : 0 < dx) (ht : dx < tol) (n : ℕ) :
    rootArraySecant coupled dx (fun _ => 0) tol (n + 1) = (![dx / 2, 0], .small) ∧
      coupled (rootArraySecant coupled dx (fun _ => 0) tol (n + 1)).1 0 = dx / 2 - 1 ∧
      ∀ x : Fin 2 → K, coupled x = 0 ↔ x = ![1 / 2, -1 / 2] := by
  have e : rootArraySecant coupled dx (fun _ => 0) tol (n + 1) = (![dx / 2, 0], .small) := by
    set s : Sec K (Fin 2) := secantStart coupled dx (fun _ => 0) with hs
    have p : s.p = fun _ => 0 := rfl
    have p1 : s.p1 = fun _ => dx := by funext i; simp [hs, secantStart, second]
    have q0 : s.q0 = ![-1, 0] := by funext i; fin_cases i <;> simp [hs, secantStart, coupled]
    have q1 : s.q1 = ![-1, dx + dx] := by funext i; fin_cases i <;> simp [hs, secantStart, coupled, second]
    have act : ∀ i, s.active i = true := fun _ => rfl
    have h2 : dx + dx ≠ 0 := by positivity
    rw [rootArraySecant, ← hs, secantLoop, if_neg, if_pos]
    · refine Prod.ext ?_ rfl
      funext i
      fin_cases i
      · simp [Sec.new, q0, q1, p, p1, act]
      · simp [Sec.new, Sec.dp, q0, q1, p, p1, h2]
    · intro i h
      fin_cases i
      · simp [q0, q1] at h
      · simp only [Sec.dp, q0, q1, p, p1]
        simp only [Fin.mk_one, Matrix.cons_val_one, Matrix.cons_val_zero, sub_zero]
        rw [mul_div_cancel_left₀ _ h2, abs_of_pos hd]
        exact ht
    · intro h
      have := h 1
      simp [q0, q1, h2] at this
  refine ⟨e, by rw [e]; simp [coupled], fun x => ⟨fun h => ?_, fun h => ?_⟩⟩
  · have h0 := congrFun h 0
    have h1 := congrFun h 1
    simp [coupled] at h0 h1
    funext i
    fin_cases i
    · simp; linarith
    · simp; linarith
  · rw [h]
    funext i
    fin_cases i <;> simp [coupled] <;> norm_num

/-- **C152** (part), `root_secant`.  A linear equation whose root lies less than ten per cent from the start: the result
is the root or a point accepted by the test `(f - tol)² < tol`.  Missing: roots further away, see
`C152_fails_mirror`, `C152_fails_end`; the test itself, see `C152_fails_tolerance`. -/
theorem C152_near_partial {a r x0 tol eps : K} (ha : a ≠ 0) (hr : (x0 * (11 / 10) - r) * (x0 * (9 / 10) - r) < 0) (he : 0 ≤ eps)
    (n : ℕ) : ∃ v, rootSecant (fun x => a * (x - r)) tol eps (n + 1) x0 = some v ∧ (v = r ∨ (a * (v - r) - tol) ^ 2 < tol) := by
  have ha2 : 0 < a * a := mul_self_pos.2 ha
  have hx : x0 ≠ 0 := by
    rintro rfl
    nlinarith [mul_self_nonneg r]
  have e0 : x0 * (1 + 1 / 10) = x0 * (11 / 10) := by ring
  have e1 : x0 * (1 - 1 / 10) = x0 * (9 / 10) := by ring
  have hneg : ¬ 0 ≤ a * (x0 * (11 / 10) - r) * (a * (x0 * (9 / 10) - r)) := by
    rw [show a * (x0 * (11 / 10) - r) * (a * (x0 * (9 / 10) - r)) =
      a * a * ((x0 * (11 / 10) - r) * (x0 * (9 / 10) - r)) by ring]
    exact not_le.2 (mul_neg_of_pos_of_neg ha2 hr)
  -- from the root on, nothing changes
  have stay : ∀ n p0 fp0, (fp0 = 0 ∨ p0 ≠ r ∧ fp0 = a * (p0 - r)) →
      rootSecantLoop (fun x => a * (x - r)) tol eps n p0 r fp0 0 = some r := by
    intro n
    induction n with
    | zero => intro _ _ _; rfl
    | succ n ih =>
      intro p0 fp0 h
      rw [rootSecantLoop]
      split_ifs with h1 h2 h3
      · rfl
      · rcases h with h | ⟨h, h'⟩
        · rw [h, abs_zero] at h2
          rcases h2 with h2 | h2 | h2
          · exact absurd he (not_le.2 h2)
          · exact absurd he (not_le.2 h2)
          · exact absurd rfl h2
        · exact absurd (h'.symm.trans h3.symm) (mul_ne_zero ha (sub_ne_zero.2 h))
      · have hf : fp0 ≠ 0 := fun e => h3 e.symm
        have ep : (p0 * 0 - r * fp0) / (0 - fp0) = r := by
          rw [mul_zero, zero_sub, zero_sub, neg_div_neg_eq, mul_div_cancel_right₀ _ hf]
        simp only [ep]
        rw [sub_self, mul_zero]
        exact ih _ _ (Or.inl rfl)
      · simp only [sub_self, mul_zero]
        exact ih _ _ (Or.inl rfl)
  simp only [rootSecant, e0, e1, if_neg hneg]
  rw [rootSecantLoop]
  have hne : a * (x0 * (9 / 10) - r) ≠ a * (x0 * (11 / 10) - r) := fun h => by
    have := mul_left_cancel₀ ha h
    exact hx (by linarith)
  split_ifs with h1 h2
  · exact ⟨_, rfl, Or.inr h1⟩
  · have ep : (x0 * (11 / 10) * (a * (x0 * (9 / 10) - r)) - x0 * (9 / 10) * (a * (x0 * (11 / 10) - r))) /
        (a * (x0 * (9 / 10) - r) - a * (x0 * (11 / 10) - r)) = r := by
      rw [div_eq_iff (sub_ne_zero.2 hne)]; ring
    simp only [ep]
    rw [sub_self, mul_zero]
    refine ⟨r, stay n _ _ (Or.inr ⟨fun h => ?_, rfl⟩), Or.inl rfl⟩
    rw [h] at hr
    simp at hr
  · exact absurd (Or.inr (Or.inr hne.symm)) h2

/-- Root 21 from 20. -/
example : rootSecant (fun x : ℚ => 3 * (x - 21)) (1 / 1000) (1 / 100000000) 1 20 = some 21 := by decide +kernel

/-- **C152** is false for roots further away: the ends of the interval are exchanged but not their values, the first
step goes to the mirror image of the root. -/
theorem C152_fails_mirror {a r x0 tol eps : K} (ha : a ≠ 0) (hx : x0 ≠ 0)
    (hr : 0 ≤ (x0 * (11 / 10) - r) * (x0 * (9 / 10) - r)) (ht : tol ≤ (a * (x0 * (9 / 10) - r) - tol) ^ 2) :
    rootSecant (fun x => a * (x - r)) tol eps 1 x0 = some (2 * x0 - r) := by
  have e0 : x0 * (1 + 1 / 10) = x0 * (11 / 10) := by ring
  have e1 : x0 * (1 - 1 / 10) = x0 * (9 / 10) := by ring
  have hpos : 0 ≤ a * (x0 * (11 / 10) - r) * (a * (x0 * (9 / 10) - r)) := by
    rw [show a * (x0 * (11 / 10) - r) * (a * (x0 * (9 / 10) - r)) =
      a * a * ((x0 * (11 / 10) - r) * (x0 * (9 / 10) - r)) by ring]
    exact mul_nonneg (mul_self_nonneg a) hr
  have hne : a * (x0 * (9 / 10) - r) ≠ a * (x0 * (11 / 10) - r) := fun h => by
    have := mul_left_cancel₀ ha h
    exact hx (by linarith)
  simp only [rootSecant, e0, e1, if_pos hpos]
  rw [rootSecantLoop, if_neg (not_lt.2 ht), if_pos (Or.inr (Or.inr hne.symm)), if_neg hne]
  simp only [rootSecantLoop, Option.some.injEq]
  rw [div_eq_iff (sub_ne_zero.2 hne)]
  ring

/-- Root 60 from 20: the first step goes to -20. -/
example : rootSecant (fun x : ℚ => x - 60) (1 / 1000) (1 / 100000000) 1 20 = some (-20) := by decide +kernel

/-- **C152** is false at the ends: if the root is ten per cent below the start, the point ten per cent above is returned; if
it is ten per cent above and two passes are allowed, the result is infinite. -/
theorem C152_fails_end {a x0 tol eps : K} (ha : a ≠ 0) (hx : x0 ≠ 0) (ht : 0 < tol) (n : ℕ) :
    (tol < 1 → rootSecant (fun x => a * (x - x0 * (9 / 10))) tol eps (n + 1) x0 = some (x0 * (11 / 10))) ∧
      (tol ≤ (a * (x0 * (9 / 10) - x0 * (11 / 10)) - tol) ^ 2 → eps < |a * (x0 * (9 / 10) - x0 * (11 / 10))| →
        rootSecant (fun x => a * (x - x0 * (11 / 10))) tol eps (n + 2) x0 = none) := by
  have e0 : x0 * (1 + 1 / 10) = x0 * (11 / 10) := by ring
  have e1 : x0 * (1 - 1 / 10) = x0 * (9 / 10) := by ring
  constructor
  · intro h
    simp only [rootSecant, e0, e1, sub_self, mul_zero, le_refl, if_true]
    rw [rootSecantLoop, if_pos]
    rw [zero_sub, neg_sq]
    nlinarith
  · intro h hp
    have hne : a * (x0 * (9 / 10) - x0 * (11 / 10)) ≠ 0 := mul_ne_zero ha fun h => hx (by linarith)
    simp only [rootSecant, e0, e1, sub_self, mul_zero, zero_mul, le_refl, if_true]
    rw [rootSecantLoop, if_neg (not_lt.2 h), if_pos (Or.inr (Or.inr hne.symm)), if_neg hne]
    simp only [mul_zero, sub_zero]
    have ep : x0 * (9 / 10) * (a * (x0 * (9 / 10) - x0 * (11 / 10))) / (a * (x0 * (9 / 10) - x0 * (11 / 10))) = x0 * (9 / 10) :=
      mul_div_cancel_right₀ _ hne
    simp only [ep]
    rw [rootSecantLoop, if_neg (not_lt.2 h), if_pos (Or.inl hp), if_pos rfl]

/-- Roots 18 and 22 from 20. -/
example : rootSecant (fun x : ℚ => x - 18) (1 / 1000) (1 / 100000000) 100 20 = some 22 ∧
    rootSecant (fun x : ℚ => x - 22) (1 / 1000) (1 / 100000000) 100 20 = none := by decide +kernel

/-- **C152** is false for the tolerance: every value `s` with `(s - tol)² < tol` is accepted at the lower end, such as 0.032
for a tolerance of 0.001. -/
theorem C152_fails_tolerance {a r x0 tol eps : K} (hr : (x0 * (11 / 10) - r) * (x0 * (9 / 10) - r) < 0) (ha : a ≠ 0)
    (ht : (a * (x0 * (9 / 10) - r) - tol) ^ 2 < tol) (n : ℕ) :
    rootSecant (fun x => a * (x - r)) tol eps (n + 1) x0 = some (x0 * (9 / 10)) := by
  have e0 : x0 * (1 + 1 / 10) = x0 * (11 / 10) := by ring
  have e1 : x0 * (1 - 1 / 10) = x0 * (9 / 10) := by ring
  have hneg : ¬ 0 ≤ a * (x0 * (11 / 10) - r) * (a * (x0 * (9 / 10) - r)) := by
    rw [show a * (x0 * (11 / 10) - r) * (a * (x0 * (9 / 10) - r)) =
      a * a * ((x0 * (11 / 10) - r) * (x0 * (9 / 10) - r)) by ring]
    exact not_le.2 (mul_neg_of_pos_of_neg (mul_self_pos.2 ha) hr)
  simp only [rootSecant, e0, e1, if_neg hneg]
  rw [rootSecantLoop, if_pos ht]

/-- `f(x) = -0.016 (x - 20) = 0` from 20: the result is 18, where `f` is 32 times the tolerance. -/
example : rootSecant (fun x : ℚ => -(2 / 125) * (x - 20)) (1 / 1000) (1 / 100000000) 100 20 = some 18 ∧
    -(2 / 125) * ((18 : ℚ) - 20) = 32 * (1 / 1000) := by
  refine ⟨?_, by norm_num⟩
  rw [C152_fails_tolerance (n := 99) (by norm_num) (by norm_num) (by norm_num)]
  norm_num

end Verif.RootFind
