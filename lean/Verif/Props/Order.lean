import Verif.Props.Tolerance
import Mathlib.Data.List.Perm.Basic

/-!
# C136: the order in which parts are added

`solve_num_expl` and `solve_nonnum` keep the parts in the order in which they were added to the environment.
-/

set_option linter.unusedSectionVars false

namespace Verif.Attempt

/-- The elements of `l` at the positions `σ`. -/
def pick {α : Type*} (σ : List ℕ) (l : List α) : List α := σ.filterMap fun i => l[i]?

theorem pick_map {α β : Type*} (σ : List ℕ) (l : List α) (f : α → β) : pick σ (l.map f) = (pick σ l).map f := by
  simp [pick, List.map_filterMap]

theorem pick_mem {α : Type*} {σ : List ℕ} {l : List α} {a : α} (h : a ∈ pick σ l) : a ∈ l := by
  obtain ⟨i, -, hi⟩ := List.mem_filterMap.1 h
  exact List.mem_of_getElem? hi

theorem pick_range {α : Type*} (l : List α) : pick (List.range l.length) l = l := by
  unfold pick
  induction l with
  | nil => rfl
  | cons a l ih =>
    rw [List.length_cons, List.range_succ_eq_map, List.filterMap_cons]
    simp only [List.getElem?_cons_zero, List.filterMap_map]
    congr 1

/-- Reordering keeps all elements. -/
theorem pick_perm {α : Type*} {σ : List ℕ} {l : List α} (h : σ.Perm (List.range l.length)) : (pick σ l).Perm l := by
  have := h.filterMap fun i => l[i]?
  have e := pick_range l
  unfold pick at e
  rw [e] at this
  exact this

variable {K X H N P P' : Type*} [Field K] [AddCommGroup X] [Module K X]

theorem evals_getElem (p : P) (h : K) : ∀ (ds : List (Diff K X H P)) (ms : List H) (xs : List X) (i : ℕ),
    (evals p h ds ms xs)[i]? = (ds[i]?).bind fun d => (ms[i]?).bind fun m => (xs[i]?).map fun x => d m p x h := by
  intro ds
  induction ds with
  | nil => intro ms xs i; simp [evals]
  | cons d ds ih =>
    intro ms xs i
    cases ms with
    | nil => simp [evals]
    | cons m ms =>
      cases xs with
      | nil => simp [evals]
      | cons x xs =>
        cases i with
        | zero => simp [evals]
        | succ i => simp [evals, ih]

theorem evals_pick (p : P) (h : K) (σ : List ℕ) {ds : List (Diff K X H P)} {ms : List H} {xs : List X}
    (hm : ms.length = ds.length) (hx : xs.length = ds.length) :
    evals p h (pick σ ds) (pick σ ms) (pick σ xs) = pick σ (evals p h ds ms xs) := by
  induction σ with
  | nil => rfl
  | cons i σ ih =>
    unfold pick at ih ⊢
    have e := evals_getElem p h ds ms xs i
    by_cases hi : i < ds.length
    · have h1 : ds[i]? = some ds[i] := List.getElem?_eq_getElem hi
      have h2 : ms[i]? = some (ms[i]'(hm ▸ hi)) := List.getElem?_eq_getElem _
      have h3 : xs[i]? = some (xs[i]'(hx ▸ hi)) := List.getElem?_eq_getElem _
      rw [h1, h2, h3] at e
      simp only [Option.bind_some, Option.map_some] at e
      rw [List.filterMap_cons_some h1, List.filterMap_cons_some h2, List.filterMap_cons_some h3,
        List.filterMap_cons_some e, evals, ih]
    · have h1 : ds[i]? = none := List.getElem?_eq_none (not_lt.1 hi)
      have h2 : ms[i]? = none := List.getElem?_eq_none (hm ▸ not_lt.1 hi)
      have h3 : xs[i]? = none := List.getElem?_eq_none (hx ▸ not_lt.1 hi)
      rw [h1] at e
      rw [List.filterMap_cons_none h1, List.filterMap_cons_none h2, List.filterMap_cons_none h3,
        List.filterMap_cons_none e, ih]

theorem along_pick (a : K) (σ : List ℕ) {xs ds : List X} (hx : ds.length = xs.length) :
    along a (pick σ xs) (pick σ ds) = pick σ (along a xs ds) := by
  induction σ with
  | nil => rfl
  | cons i σ ih =>
    unfold pick along at ih ⊢
    by_cases hi : i < xs.length
    · have h1 : xs[i]? = some xs[i] := List.getElem?_eq_getElem hi
      have h2 : ds[i]? = some (ds[i]'(hx ▸ hi)) := List.getElem?_eq_getElem _
      have e : (List.zipWith (fun x d => x + a • d) xs ds)[i]? = some (xs[i] + a • ds[i]'(hx ▸ hi)) := by
        rw [List.getElem?_zipWith, h1, h2]
      rw [List.filterMap_cons_some h1, List.filterMap_cons_some h2, List.filterMap_cons_some e, List.zipWith_cons_cons, ih]
    · have h1 : xs[i]? = none := List.getElem?_eq_none (not_lt.1 hi)
      have h2 : ds[i]? = none := List.getElem?_eq_none (hx ▸ not_lt.1 hi)
      have e : (List.zipWith (fun x d => x + a • d) xs ds)[i]? = none := by
        rw [List.getElem?_zipWith, h1]
      rw [List.filterMap_cons_none h1, List.filterMap_cons_none h2, List.filterMap_cons_none e, ih]

theorem solveAll_getElem (p : P) (h : K) : ∀ (fs : List (N → P → K → N)) (ns : List N) (i : ℕ), ns.length = fs.length →
    (solveAll p h fs ns)[i]? = (fs[i]?).bind fun f => (ns[i]?).map fun n => f n p h := by
  intro fs
  induction fs with
  | nil =>
    intro ns i hl
    rw [List.length_eq_zero_iff.1 hl]
    simp [solveAll]
  | cons f fs ih =>
    intro ns i hl
    cases ns with
    | nil => simp at hl
    | cons n ns =>
      cases i with
      | zero => simp [solveAll]
      | succ i => simpa [solveAll] using ih ns i (by simpa using hl)

theorem solveAll_pick (p : P) (h : K) (τ : List ℕ) {fs : List (N → P → K → N)} {ns : List N}
    (hn : ns.length = fs.length) : solveAll p h (pick τ fs) (pick τ ns) = pick τ (solveAll p h fs ns) := by
  induction τ with
  | nil => rfl
  | cons i τ ih =>
    unfold pick at ih ⊢
    have e := solveAll_getElem p h fs ns i hn
    by_cases hi : i < fs.length
    · have h1 : fs[i]? = some fs[i] := List.getElem?_eq_getElem hi
      have h2 : ns[i]? = some (ns[i]'(hn ▸ hi)) := List.getElem?_eq_getElem _
      rw [h1, h2] at e
      simp only [Option.bind_some, Option.map_some] at e
      rw [List.filterMap_cons_some h1, List.filterMap_cons_some h2, List.filterMap_cons_some e, solveAll, ih]
    · have h1 : fs[i]? = none := List.getElem?_eq_none (not_lt.1 hi)
      have h2 : ns[i]? = none := List.getElem?_eq_none (hn ▸ not_lt.1 hi)
      rw [h1] at e
      rw [List.filterMap_cons_none h1, List.filterMap_cons_none h2, List.filterMap_cons_none e, ih]

/-- Specification: `sys'` is the plant `sys` with its numeric parts added in the order `σ`, its non-numeric parts in the
order `τ`, and the rows of the port array in another order, translated by `t`: each part reads the same ports, and the
port update gets the same values from the same parts. -/
structure Reordered (sys : System K X H N P) (sys' : System K X H N P') (σ τ : List ℕ) (t : P → P') : Prop where
  numeric : σ.Perm (List.range sys.diffs.length)
  others : τ.Perm (List.range sys.solves.length)
  diffs : List.Forall₂ (fun d d' => ∀ m p x h, d m p x h = d' m (t p) x h) (pick σ sys.diffs) sys'.diffs
  solves : List.Forall₂ (fun f f' => ∀ n p h, f n p h = f' n (t p) h) (pick τ sys.solves) sys'.solves
  interm : ∀ xs ns p, xs.length = sys.diffs.length → ns.length = sys.solves.length →
    sys'.interm (pick σ xs) (pick τ ns) (t p) = t (sys.interm xs ns p)
  result : ∀ xs ns p, xs.length = sys.diffs.length → ns.length = sys.solves.length →
    sys'.result (pick σ xs) (pick τ ns) (t p) = t (sys.result xs ns p)

/-- Specification: the state of the reordered plant. -/
def reorder (σ τ : List ℕ) (t : P → P') (s : State X H N P) : State X H N P' :=
  ⟨pick σ s.parts, pick τ s.nonnum, t s.ports, s.stable⟩

variable {sys : System K X H N P} {sys' : System K X H N P'} {σ τ : List ℕ} {t : P → P'}

theorem Reordered.evals (hr : Reordered sys sys' σ τ t) (h : K) {ms : List H} {xs : List X} (p : P)
    (hm : ms.length = sys.diffs.length) (hx : xs.length = sys.diffs.length) :
    evals (t p) h sys'.diffs (pick σ ms) (pick σ xs) = pick σ (evals p h sys.diffs ms xs) := by
  rw [← evals_pick p h σ hm hx]
  refine (evals_same (Rp := fun p p' => p' = t p) (h := h) rfl _ _ ?_).symm
  exact hr.diffs.imp fun d d' hd m x p p' hp => by rw [hp]; exact hd m p x h

theorem Reordered.solve (hr : Reordered sys sys' σ τ t) (h : K) {ns : List N} (p : P)
    (hn : ns.length = sys.solves.length) :
    solveAll (t p) h sys'.solves (pick τ ns) = pick τ (solveAll p h sys.solves ns) := by
  rw [← solveAll_pick p h τ hn]
  have := hr.solves
  clear hn hr
  generalize pick τ ns = ns
  generalize pick τ sys.solves = fs at this
  generalize sys'.solves = fs' at this
  induction this generalizing ns with
  | nil => rfl
  | cons h1 _ ih =>
    cases ns with
    | nil => rfl
    | cons n ns => rw [solveAll, solveAll, ih, h1 n p h]

theorem Reordered.twins (hr : Reordered sys sys' σ τ t) (h : K) :
    Twins sys sys' (fun xs xs' => xs.length = sys.diffs.length ∧ xs' = pick σ xs)
      (fun ms ms' => ms.length = sys.diffs.length ∧ ms' = pick σ ms)
      (fun ns ns' => ns.length = sys.solves.length ∧ ns' = pick τ ns) (fun _ p p' => p' = t p) h := by
  refine ⟨?_, ?_, ?_, ?_, ?_⟩
  · rintro ms _ p _ xs _ ⟨hm, rfl⟩ rfl ⟨hx, rfl⟩ - - - -
    rw [hr.evals h p hm hx, pick_map, pick_map]
    have := evals_length p h hm hx
    exact ⟨⟨by simpa using this, rfl⟩, ⟨by simpa using this, rfl⟩⟩
  · rintro a xs _ ds _ ⟨hx, rfl⟩ ⟨hd, rfl⟩
    exact ⟨by rw [along_length a (hd.trans hx.symm), hx], along_pick a σ (hd.trans hx.symm)⟩
  · rintro ns _ ys p _ ⟨hn, rfl⟩ rfl
    exact ⟨by rw [solveAll_length, hn], hr.solve h p hn⟩
  · rintro xs _ ns _ ys p _ ⟨hx, rfl⟩ ⟨hn, rfl⟩ rfl
    exact hr.interm xs ns p hx hn
  · rintro xs _ ns _ ys p _ ⟨hx, rfl⟩ ⟨hn, rfl⟩ rfl
    exact hr.result xs ns p hx hn

/-- **C136** (part).  A plant whose parts were added in another order makes the same simulation: with any step lengths
that the plant accepts at the first attempt, the reordered plant accepts them too, and temperatures, memories,
non-numeric parts and ports are those of the plant in the other order.  Missing: after stability violations the order
matters, see `C136_fails_order`. -/
theorem C136_simulation_partial (hr : Reordered sys sys' σ τ t) (l : List K) (s : State X H N P)
    (hc : s.parts.length = sys.diffs.length) (hn : s.nonnum.length = sys.solves.length)
    (hst : ∀ l₁ h l₂, l = l₁ ++ h :: l₂ → (call sys (simulate sys s (l₁.map fun h => ([], h))) [] h).stable = true) :
    Agree (reorder σ τ t (simulate sys s (l.map fun h => ([], h))))
        (simulate sys' (reorder σ τ t s) (l.map fun h => ([], h))) ∧
      ∀ l₁ h l₂, l = l₁ ++ h :: l₂ →
        (call sys' (simulate sys' (reorder σ τ t s) (l₁.map fun h => ([], h))) [] h).stable = true := by
  have hlen : sys'.diffs.length = (pick σ s.parts).length := by
    rw [← hr.diffs.length_eq, (pick_perm hr.numeric).length_eq, (pick_perm (hc ▸ hr.numeric)).length_eq, hc]
  suffices main : ∀ (l : List K) (s : State X H N P) (s' : State X H N P'),
      Corresponds sys sys' (fun xs xs' => xs.length = sys.diffs.length ∧ xs' = pick σ xs)
        (fun ms ms' => ms.length = sys.diffs.length ∧ ms' = pick σ ms)
        (fun ns ns' => ns.length = sys.solves.length ∧ ns' = pick τ ns) (fun _ p p' => p' = t p) s s' →
      (∀ l₁ h l₂, l = l₁ ++ h :: l₂ → (call sys (simulate sys s (l₁.map fun h => ([], h))) [] h).stable = true) →
      Agree (reorder σ τ t (simulate sys s (l.map fun h => ([], h)))) (simulate sys' s' (l.map fun h => ([], h))) ∧
        ∀ l₁ h l₂, l = l₁ ++ h :: l₂ → (call sys' (simulate sys' s' (l₁.map fun h => ([], h))) [] h).stable = true by
    refine main l s _ ⟨hc, hlen.symm, ⟨by simp [hc], ?_⟩, ⟨by simp [hc], ?_⟩, ⟨hn, rfl⟩, rfl⟩ hst
    · simp [reorder, pick_map]
    · simp [reorder, pick_map]
  intro l
  induction l with
  | nil =>
    intro s s' ha _
    refine ⟨⟨?_, ?_, ha.nonnum.2.symm, ha.ports.symm⟩, fun l₁ h l₂ e => absurd e (by simp)⟩
    · simpa [reorder, pick_map, simulate] using ha.temps.2.symm
    · simpa [reorder, pick_map, simulate] using ha.mems.2.symm
  | cons h l ih =>
    intro s s' ha hst
    have s0 := hst [] h l rfl
    have s1 : (call sys' s' [] h).stable = true := by
      have s0' : (call sys s [] h).stable = true := s0
      rw [call_stable, List.all_eq_true] at s0' ⊢
      have ep : s'.ports = t s.ports := ha.ports
      rw [ha.temps.2, ha.mems.2, ep, hr.evals h s.ports ha.mems.1 ha.temps.1]
      exact fun e he => s0' e (pick_mem he)
    obtain ⟨r1, r2⟩ := ih _ _ (call_twins (hr.twins h) ha s0 s1) fun l₁ c l₂ e => hst (h :: l₁) c l₂ (by rw [e]; rfl)
    refine ⟨r1, ?_⟩
    intro l₁ c l₂ e
    cases l₁ with
    | nil =>
      obtain ⟨rfl, rfl⟩ : h = c ∧ l = l₂ := by simpa using e
      exact s1
    | cons c' l₁ =>
      obtain ⟨rfl, e'⟩ : h = c' ∧ l = l₁ ++ c :: l₂ := by simpa using e
      exact r2 l₁ c l₂ e'

/-- Two connected parts, each reading the temperature of the other, added in either order. -/
example : Reordered (K := ℚ) (X := ℚ) (H := Unit) (N := Unit) (P := ℚ × ℚ) (P' := ℚ × ℚ)
    ⟨[fun _ p x _ => ⟨p.2 - x, (), true⟩, fun _ p x _ => ⟨3 * (p.1 - x), (), true⟩], [],
      fun xs _ _ => (xs.getD 0 0, xs.getD 1 0), fun xs _ _ => (xs.getD 0 0, xs.getD 1 0)⟩
    ⟨[fun _ p x _ => ⟨3 * (p.2 - x), (), true⟩, fun _ p x _ => ⟨p.1 - x, (), true⟩], [],
      fun xs _ _ => (xs.getD 0 0, xs.getD 1 0), fun xs _ _ => (xs.getD 0 0, xs.getD 1 0)⟩ [1, 0] [] Prod.swap := by
  refine ⟨by decide, by decide, ?_, ?_, ?_, ?_⟩
  · simp [pick]
  · simp [pick]
  · intro xs ns p hx _
    match xs, hx with
    | [a, b], _ => simp [pick]
  · intro xs ns p hx _
    match xs, hx with
    | [a, b], _ => simp [pick]

end Verif.Attempt

namespace Verif.StepControl

open Stats

theorem truncErr_perm (rtol atol : ℝ) {a b : List Cell} (h : a.Perm b) : truncErr rtol atol a = truncErr rtol atol b := by
  induction h with
  | nil => rfl
  | cons x _ ih => rw [truncErr, truncErr, ih]
  | swap x y l =>
    simp only [truncErr]
    cases cellErr rtol atol x <;> cases cellErr rtol atol y <;> cases truncErr rtol atol l <;> simp [add_left_comm]
  | trans _ _ ih1 ih2 => rw [ih1, ih2]

/-- **C136** (part).  The error by which a step is accepted does not depend on the order of the parts. -/
theorem C136_error_partial (rtol atol : ℝ) {a b : List (ℕ × List Cell)} (h : a.Perm b) :
    plantErr rtol atol a = plantErr rtol atol b := by
  unfold plantErr
  rw [truncErr_perm rtol atol (h.flatMap_right Prod.snd), (h.map Prod.fst).sum_eq]

example : List.Perm [(2, [(⟨30, 31, 31.02, 1⟩ : Cell), ⟨40, 40, 39.98, 1⟩]), (1, [⟨20, 21, 22, 1⟩])]
    [(1, [⟨20, 21, 22, 1⟩]), (2, [⟨30, 31, 31.02, 1⟩, ⟨40, 40, 39.98, 1⟩])] := List.Perm.swap _ _ _

theorem damp_lt {x : ℝ} (h : 1.05 < x) : damp x < x := by
  unfold damp
  rw [if_pos h]
  split_ifs
  · exact h
  · calc x ^ (0.99 : ℝ) < x ^ (1 : ℝ) := Real.rpow_lt_rpow_of_exponent_lt (by linarith) (by norm_num)
      _ = x := Real.rpow_one x

theorem damp_ge {x : ℝ} (h : 1.05 < x) : 1.05 ≤ damp x := by
  unfold damp
  rw [if_pos h]
  split_ifs with h1
  · exact le_refl _
  · exact not_lt.1 h1

theorem pass_breach (c : Cfg) (l : Loop) (loc : ℝ) (corr : List ℝ) (err : Option ℝ) (h : l.cnt + 1 ≠ 100) :
    pass c l ⟨some loc, corr, err⟩ = .retry { l with
      h := lower l.vN loc * 0.9, vN := some (lower l.vN loc), maxFactor := damp l.maxFactor, failed := l.failed + 1,
      sinceFail := 0, cnt := l.cnt + 1 } := if_neg h

theorem growth_zero (c : Cfg) (mf e : ℝ) : growth c mf 0 e = 1 := by
  simp [growth]

theorem pass_after_breach (c : Cfg) (l : Loop) {e : ℝ} (he : 0 < e ∧ e < 1) (hs : l.sinceFail = 0) (hm : l.h ≤ c.maxStep) :
    pass c l ⟨none, [], some e⟩ = .accept l 4 := by
  obtain ⟨h, vN, mf, sf, cnt, fl⟩ := l
  subst hs
  rw [pass_some, if_pos he, growth_zero, mul_one, if_neg (not_lt.2 hm)]

theorem pass_exact (c : Cfg) (l : Loop) (hm : l.h * l.maxFactor ≤ c.maxStep) :
    pass c l ⟨none, [], some 0⟩ = .accept { l with h := l.h * l.maxFactor } 7 := by
  rw [pass_some, if_neg (by simp), if_pos rfl, if_neg (not_lt.2 hm)]

/-- **C136** is false after stability violations.  Two parts are stable up to steps of length `a` and `b`.  If the part
with the longer limit was added first, two attempts fail, otherwise one.  The accepted steps are equal, but the limit
of growth is then smaller, and so is the length of the step after an exact one. -/
theorem C136_fails_order (c : Cfg) (env : Env) {a b err : ℝ} (hb : 0 < b) (hab : b < 0.855 * a)
    (ha : a < env.newStep) (he : 0 < err ∧ err < 1) (hm : 1.05 < damp env.maxFactor) 
    (hmax : 0.855 * b * damp env.maxFactor ≤ c.maxStep) (hk : 0.855 * b ≤ c.maxStep) :
    let first := fun h => (⟨breach h [a, b], [], some err⟩ : Attempt)
    let second := fun h => (⟨breach h [b, a], [], some err⟩ : Attempt)
    ∃ e₁ e₂ f₁ f₂,
      Call c env [first env.newStep, first (0.855 * a), first (0.855 * b)] (.accepted (0.855 * b) 4 2 e₁) ∧
      Call c env [second env.newStep, second (0.855 * b)] (.accepted (0.855 * b) 4 1 e₂) ∧
      e₁.newStep = e₂.newStep ∧ e₁.maxFactor < e₂.maxFactor ∧
      Call c e₁ [⟨none, [], some 0⟩] (.accepted (0.855 * b) 7 0 f₁) ∧
      Call c e₂ [⟨none, [], some 0⟩] (.accepted (0.855 * b) 7 0 f₂) ∧ f₁.newStep < f₂.newStep := by
  intro first second
  have ha0 : 0 < a := by linarith
  have q1 : first env.newStep = ⟨some (a * 0.95), [], some err⟩ := by simp [first, breach, ha]
  have q2 : first (0.855 * a) = ⟨some (b * 0.95), [], some err⟩ := by
    have : ¬ a < 0.855 * a := by linarith
    simp [first, breach, hab, this]
  have q3 : first (0.855 * b) = ⟨none, [], some err⟩ := by
    have h1 : ¬ a < 0.855 * b := by linarith
    have h2 : ¬ b < 0.855 * b := by linarith
    simp [first, breach, h1, h2]
  have q4 : second env.newStep = ⟨some (b * 0.95), [], some err⟩ := by
    have : b < env.newStep := by linarith
    simp [second, breach, this]
  have q5 : second (0.855 * b) = ⟨none, [], some err⟩ := by
    have h1 : ¬ a < 0.855 * b := by linarith
    have h2 : ¬ b < 0.855 * b := by linarith
    simp [second, breach, h1, h2]
  have ea : a * 0.95 * 0.9 = 0.855 * a := by ring
  have eb : b * 0.95 * 0.9 = 0.855 * b := by ring
  have lo : lower (some (a * 0.95)) (b * 0.95) = b * 0.95 := by
    unfold lower
    exact if_pos (by linarith)
  have d1 := damp_lt hm
  have d0 : 0 < damp (damp env.maxFactor) := by linarith [damp_ge hm]
  have hb' : 0 < 0.855 * b := by positivity
  have x1 : 0.855 * b * damp (damp env.maxFactor) < 0.855 * b * damp env.maxFactor := mul_lt_mul_of_pos_left d1 hb'
  rw [q1, q2, q3, q4, q5]
  refine ⟨⟨0.855 * b, damp (damp env.maxFactor), 0⟩, ⟨0.855 * b, damp env.maxFactor, 0⟩,
    ⟨0.855 * b * damp (damp env.maxFactor), damp (damp env.maxFactor), 1⟩,
    ⟨0.855 * b * damp env.maxFactor, damp env.maxFactor, 1⟩, ?_, ?_, rfl, d1, ?_, ?_, x1⟩
  · unfold Call
    refine Exec.retry (pass_breach _ _ _ _ _ (by simp [Loop.start])) ?_
    refine Exec.retry (pass_breach _ _ _ _ _ (by simp [Loop.start])) ?_
    have := Exec.accept (c := c) (pass_after_breach c (l := ⟨0.855 * b, some (b * 0.95), damp (damp env.maxFactor), 0, 2, 2⟩)
      he rfl hk)
    have hlt : b * 0.95 < a * 0.95 := by linarith
    simpa [Loop.start, lower, hlt, eb] using this
  · unfold Call
    refine Exec.retry (pass_breach _ _ _ _ _ (by simp [Loop.start])) ?_
    have := Exec.accept (c := c) (pass_after_breach c (l := ⟨0.855 * b, some (b * 0.95), damp env.maxFactor, 0, 1, 1⟩)
      he rfl hk)
    simpa [Loop.start, lower, eb] using this
  · exact Exec.accept (pass_exact c (Loop.start ⟨0.855 * b, damp (damp env.maxFactor), 0⟩) (x1.le.trans hmax))
  · exact Exec.accept (pass_exact c (Loop.start ⟨0.855 * b, damp env.maxFactor, 0⟩) hmax)

/-- Limits of 20 s and 4 s, a first attempt with 30 s, growth by at most 2. -/
example : (4 : ℝ) < 0.855 * 20 ∧ (1.05 : ℝ) < damp 2 := by
  refine ⟨by norm_num, ?_⟩
  unfold damp
  have : (1.05 : ℝ) < 2 ^ (0.99 : ℝ) := by
    calc (1.05 : ℝ) < 2 ^ (0.5 : ℝ) := by
          rw [show (0.5 : ℝ) = 1 / 2 by norm_num, ← Real.sqrt_eq_rpow]
          exact Real.lt_sqrt_of_sq_lt (by norm_num)
      _ ≤ 2 ^ (0.99 : ℝ) := Real.rpow_le_rpow_of_exponent_le (by norm_num) (by norm_num)
  rw [if_pos (by norm_num), if_neg (not_lt.2 this.le)]
  exact this

end Verif.StepControl
