import Verif.Lemmas.Twin
import Verif.Model.StepControl
import Verif.Model.Stats
import Mathlib.Analysis.SpecialFunctions.Sqrt

/-!
# C134: plants without connection in one environment

Two plants which are not connected, simulated in one environment, compute the same temperatures as alone if the step
lengths are the same.  The step lengths are not: the error is averaged over the cells of the whole environment.
-/

set_option linter.unusedSectionVars false

namespace Verif.Attempt

variable {K X H N P Q : Type*} [Field K] [AddCommGroup X] [Module K X]

/-- Specification: two plants in one environment.  Each part reads the ports of its own plant only, and each plant's
ports are updated from its own parts. -/
def beside (A : System K X H N P) (B : System K X H N Q) : System K X H N (P × Q) where
  diffs := (A.diffs.map fun d m p x h => d m p.1 x h) ++ B.diffs.map fun d m p x h => d m p.2 x h
  solves := (A.solves.map fun f n p h => f n p.1 h) ++ B.solves.map fun f n p h => f n p.2 h
  interm xs ns p := (A.interm (xs.take A.diffs.length) (ns.take A.solves.length) p.1,
    B.interm (xs.drop A.diffs.length) (ns.drop A.solves.length) p.2)
  result xs ns p := (A.result (xs.take A.diffs.length) (ns.take A.solves.length) p.1,
    B.result (xs.drop A.diffs.length) (ns.drop A.solves.length) p.2)

/-- Specification: the state of the first plant alone. -/
def first (A : System K X H N P) (s : State X H N (P × Q)) : State X H N P :=
  ⟨s.parts.take A.diffs.length, s.nonnum.take A.solves.length, s.ports.1, s.stable⟩

/-- Specification: the state of the second plant alone. -/
def second (A : System K X H N P) (s : State X H N (P × Q)) : State X H N Q :=
  ⟨s.parts.drop A.diffs.length, s.nonnum.drop A.solves.length, s.ports.2, s.stable⟩

/-- Specification: the temperatures, memories, non-numeric parts and ports of two states are equal. -/
def Agree (s t : State X H N P) : Prop :=
  s.parts.map PState.prev = t.parts.map PState.prev ∧ s.parts.map PState.mem = t.parts.map PState.mem ∧
    s.nonnum = t.nonnum ∧ s.ports = t.ports

theorem evals_map (f : Q → P) (q : Q) (h : K) : ∀ (ds : List (Diff K X H P)) (ms : List H) (xs : List X),
    evals q h (ds.map fun d m p x h => d m (f p) x h) ms xs = evals (f q) h ds ms xs := by
  intro ds
  induction ds with
  | nil => intro ms xs; rfl
  | cons d ds ih =>
    intro ms xs
    cases ms with
    | nil => rfl
    | cons m ms =>
      cases xs with
      | nil => rfl
      | cons x xs => rw [List.map_cons, evals, evals, ih]

theorem solveAll_map (f : Q → P) (q : Q) (h : K) : ∀ (fs : List (N → P → K → N)) (ns : List N),
    solveAll q h (fs.map fun g n p h => g n (f p) h) ns = solveAll (f q) h fs ns := by
  intro fs
  induction fs with
  | nil => intro ns; rfl
  | cons g fs ih =>
    intro ns
    cases ns with
    | nil => rfl
    | cons n ns => rw [List.map_cons, solveAll, solveAll, ih]

theorem evals_take (p : P) (h : K) (db : List (Diff K X H P)) : ∀ (da : List (Diff K X H P)) (ms : List H) (xs : List X),
    (evals p h (da ++ db) ms xs).take da.length = evals p h da (ms.take da.length) (xs.take da.length) := by
  intro da
  induction da with
  | nil => intro ms xs; rfl
  | cons d da ih =>
    intro ms xs
    cases ms with
    | nil => rfl
    | cons m ms =>
      cases xs with
      | nil => rfl
      | cons x xs =>
        simp only [List.cons_append, evals, List.length_cons, List.take_succ_cons, ih]

theorem evals_nil_left (p : P) (h : K) (ds : List (Diff K X H P)) (xs : List X) : evals p h ds [] xs = [] := by
  cases ds <;> rfl

theorem evals_nil_right (p : P) (h : K) (ds : List (Diff K X H P)) (ms : List H) : evals p h ds ms [] = [] := by
  cases ds <;> cases ms <;> rfl

theorem evals_drop (p : P) (h : K) (db : List (Diff K X H P)) : ∀ (da : List (Diff K X H P)) (ms : List H) (xs : List X),
    (evals p h (da ++ db) ms xs).drop da.length = evals p h db (ms.drop da.length) (xs.drop da.length) := by
  intro da
  induction da with
  | nil => intro ms xs; rfl
  | cons d da ih =>
    intro ms xs
    cases ms with
    | nil => simp [evals_nil_left]
    | cons m ms =>
      cases xs with
      | nil => simp [evals_nil_right]
      | cons x xs =>
        simp only [List.cons_append, evals, List.length_cons, List.drop_succ_cons, ih]

theorem solveAll_take (p : P) (h : K) (fb : List (N → P → K → N)) : ∀ (fa : List (N → P → K → N)) (ns : List N),
    (solveAll p h (fa ++ fb) ns).take fa.length = solveAll p h fa (ns.take fa.length) := by
  intro fa
  induction fa with
  | nil => intro ns; rfl
  | cons f fa ih =>
    intro ns
    cases ns with
    | nil => rfl
    | cons n ns => simp only [List.cons_append, solveAll, List.length_cons, List.take_succ_cons, ih]

theorem solveAll_drop (p : P) (h : K) (fb : List (N → P → K → N)) : ∀ (fa : List (N → P → K → N)) (ns : List N),
    (solveAll p h (fa ++ fb) ns).drop fa.length = solveAll p h fb (ns.drop fa.length) := by
  intro fa
  induction fa with
  | nil => intro ns; rfl
  | cons f fa ih =>
    intro ns
    cases ns with
    | nil =>
      have : solveAll p h fb ([] : List N) = [] := by cases fb <;> rfl
      simp [solveAll, this]
    | cons n ns => simp only [List.cons_append, solveAll, List.length_cons, List.drop_succ_cons, ih]

theorem predict_flag (p : P) (h : K) : ∀ (ds : List (Diff K X H P)) (ss : List (PState X H)),
    (predict p h ds ss).2 = (evals p h ds (ss.map PState.mem) (ss.map PState.prev)).all Eval.stable := by
  intro ds
  induction ds with
  | nil => intro ss; cases ss <;> rfl
  | cons d ds ih =>
    intro ss
    cases ss with
    | nil => rfl
    | cons s ss =>
      rw [predict]
      simp only [List.map_cons, evals, List.all_cons]
      split_ifs with hd
      · rw [hd, Bool.true_and]
        exact ih ss
      · simp [hd]

theorem call_stable (sys : System K X H N P) (s : State X H N P) (h : K) :
    (call sys s [] h).stable =
      (evals s.ports h sys.diffs (s.parts.map PState.mem) (s.parts.map PState.prev)).all Eval.stable := by
  rw [← predict_flag]
  simp only [call, List.foldl_nil]
  unfold attempt
  split_ifs with hp
  · rw [hp]; rfl
  · simp [hp]

theorem first_twins (A : System K X H N P) (B : System K X H N Q) (h : K) :
    Twins (beside A B) A (fun xs xs' => xs.take A.diffs.length = xs') (fun ms ms' => ms.take A.diffs.length = ms')
      (fun ns ns' => ns.take A.solves.length = ns') (fun _ p p' => p.1 = p') h := by
  refine ⟨?_, ?_, ?_, ?_, ?_⟩
  · rintro ms _ p _ xs _ rfl rfl rfl - - - -
    have := evals_take p h (B.diffs.map fun d m p x h => d m p.2 x h) (A.diffs.map fun d m p x h => d m p.1 x h) ms xs
    rw [List.length_map, evals_map Prod.fst] at this
    rw [← List.map_take, ← List.map_take]
    exact ⟨by rw [← this]; rfl, by rw [← this]; rfl⟩
  · rintro a xs _ ds _ rfl rfl
    exact List.take_zipWith
  · rintro ns _ ys p _ rfl rfl
    have := solveAll_take p h (B.solves.map fun f n p h => f n p.2 h) (A.solves.map fun f n p h => f n p.1 h) ns
    rw [List.length_map, solveAll_map Prod.fst] at this
    exact this
  · rintro xs _ ns _ ys p _ rfl rfl rfl
    rfl
  · rintro xs _ ns _ ys p _ rfl rfl rfl
    rfl

theorem second_twins (A : System K X H N P) (B : System K X H N Q) (h : K) :
    Twins (beside A B) B (fun xs xs' => xs.drop A.diffs.length = xs') (fun ms ms' => ms.drop A.diffs.length = ms')
      (fun ns ns' => ns.drop A.solves.length = ns') (fun _ p p' => p.2 = p') h := by
  refine ⟨?_, ?_, ?_, ?_, ?_⟩
  · rintro ms _ p _ xs _ rfl rfl rfl - - - -
    have := evals_drop p h (B.diffs.map fun d m p x h => d m p.2 x h) (A.diffs.map fun d m p x h => d m p.1 x h) ms xs
    rw [List.length_map, evals_map Prod.snd] at this
    rw [← List.map_drop, ← List.map_drop]
    exact ⟨by rw [← this]; rfl, by rw [← this]; rfl⟩
  · rintro a xs _ ds _ rfl rfl
    exact List.drop_zipWith
  · rintro ns _ ys p _ rfl rfl
    have := solveAll_drop p h (B.solves.map fun f n p h => f n p.2 h) (A.solves.map fun f n p h => f n p.1 h) ns
    rw [List.length_map, solveAll_map Prod.snd] at this
    exact this
  · rintro xs _ ns _ ys p _ rfl rfl rfl
    rfl
  · rintro xs _ ns _ ys p _ rfl rfl rfl
    rfl

theorem both_stable (A : System K X H N P) (B : System K X H N Q) (s : State X H N (P × Q)) (h : K)
    (hs : (call (beside A B) s [] h).stable = true) {a : State X H N P} {b : State X H N Q} (ha : Agree (first A s) a)
    (hb : Agree (second A s) b) : (call A a [] h).stable = true ∧ (call B b [] h).stable = true := by
  rw [call_stable, List.all_eq_true] at hs
  obtain ⟨a1, a2, -, a4⟩ := ha
  obtain ⟨b1, b2, -, b4⟩ := hb
  rw [call_stable, call_stable, ← a1, ← a2, ← a4, ← b1, ← b2, ← b4]
  have e1 := evals_take s.ports h (B.diffs.map fun d m p x h => d m p.2 x h) (A.diffs.map fun d m p x h => d m p.1 x h)
    (s.parts.map PState.mem) (s.parts.map PState.prev)
  have e2 := evals_drop s.ports h (B.diffs.map fun d m p x h => d m p.2 x h) (A.diffs.map fun d m p x h => d m p.1 x h)
    (s.parts.map PState.mem) (s.parts.map PState.prev)
  rw [List.length_map, evals_map Prod.fst] at e1
  rw [List.length_map, evals_map Prod.snd] at e2
  simp only [first, second, List.map_take, List.map_drop]
  rw [← e1, ← e2, List.all_eq_true, List.all_eq_true]
  exact ⟨fun e he => hs e (List.mem_of_mem_take he), fun e he => hs e (List.mem_of_mem_drop he)⟩

/-- **C134** (part).  Two plants without connection in one environment, simulated with any step lengths that the
environment accepts at the first attempt, give the temperatures, memories and ports which each of them gives when it
is simulated alone with these step lengths; alone they accept them too.  Missing: the environment does not choose the
step lengths which the plant alone would choose, see `C134_fails_tolerance`. -/
theorem C134_same_steps_partial (A : System K X H N P) (B : System K X H N Q) (l : List K) (s : State X H N (P × Q))
    (hc : s.parts.length = A.diffs.length + B.diffs.length)
    (hst : ∀ l₁ h l₂, l = l₁ ++ h :: l₂ →
      (call (beside A B) (simulate (beside A B) s (l₁.map fun h => ([], h))) [] h).stable = true) :
    Agree (first A (simulate (beside A B) s (l.map fun h => ([], h))))
        (simulate A (first A s) (l.map fun h => ([], h))) ∧
      Agree (second A (simulate (beside A B) s (l.map fun h => ([], h))))
        (simulate B (second A s) (l.map fun h => ([], h))) ∧
      ∀ l₁ h l₂, l = l₁ ++ h :: l₂ →
        (call A (simulate A (first A s) (l₁.map fun h => ([], h))) [] h).stable = true ∧
          (call B (simulate B (second A s) (l₁.map fun h => ([], h))) [] h).stable = true := by
  have hcA : (beside A B).diffs.length = A.diffs.length + B.diffs.length := by simp [beside]
  suffices main : ∀ (l : List K) (s : State X H N (P × Q)) (a : State X H N P) (b : State X H N Q),
      Corresponds (beside A B) A (fun xs xs' => xs.take A.diffs.length = xs') (fun ms ms' => ms.take A.diffs.length = ms')
        (fun ns ns' => ns.take A.solves.length = ns') (fun _ p p' => p.1 = p') s a →
      Corresponds (beside A B) B (fun xs xs' => xs.drop A.diffs.length = xs') (fun ms ms' => ms.drop A.diffs.length = ms')
        (fun ns ns' => ns.drop A.solves.length = ns') (fun _ p p' => p.2 = p') s b →
      (∀ l₁ h l₂, l = l₁ ++ h :: l₂ →
        (call (beside A B) (simulate (beside A B) s (l₁.map fun h => ([], h))) [] h).stable = true) →
      Agree (first A (simulate (beside A B) s (l.map fun h => ([], h)))) (simulate A a (l.map fun h => ([], h))) ∧
        Agree (second A (simulate (beside A B) s (l.map fun h => ([], h)))) (simulate B b (l.map fun h => ([], h))) ∧
        ∀ l₁ h l₂, l = l₁ ++ h :: l₂ → (call A (simulate A a (l₁.map fun h => ([], h))) [] h).stable = true ∧
          (call B (simulate B b (l₁.map fun h => ([], h))) [] h).stable = true by
    refine main l s _ _ ⟨by rw [hc, hcA], by simp [first, hc], ?_, ?_, rfl, rfl⟩
      ⟨by rw [hc, hcA], by simp [second, hc], ?_, ?_, rfl, rfl⟩ hst
    · simp [first, List.map_take]
    · simp [first, List.map_take]
    · simp [second, List.map_drop]
    · simp [second, List.map_drop]
  intro l
  induction l with
  | nil =>
    intro s a b ha hb _
    refine ⟨⟨?_, ?_, ha.nonnum, ha.ports⟩, ⟨?_, ?_, hb.nonnum, hb.ports⟩, fun l₁ h l₂ e => absurd e (by simp)⟩
    · simpa [first, List.map_take, simulate] using ha.temps
    · simpa [first, List.map_take, simulate] using ha.mems
    · simpa [second, List.map_drop, simulate] using hb.temps
    · simpa [second, List.map_drop, simulate] using hb.mems
  | cons h l ih =>
    intro s a b ha hb hst
    have agA : Agree (first A s) a := by
      refine ⟨?_, ?_, ha.nonnum, ha.ports⟩
      · simpa [first, List.map_take] using ha.temps
      · simpa [first, List.map_take] using ha.mems
    have agB : Agree (second A s) b := by
      refine ⟨?_, ?_, hb.nonnum, hb.ports⟩
      · simpa [second, List.map_drop] using hb.temps
      · simpa [second, List.map_drop] using hb.mems
    have s0 := hst [] h l rfl
    obtain ⟨s1, s2⟩ := both_stable A B s h s0 agA agB
    obtain ⟨r1, r2, r3⟩ := ih _ _ _ (call_twins (first_twins A B h) ha s0 s1) (call_twins (second_twins A B h) hb s0 s2)
      fun l₁ c l₂ e => hst (h :: l₁) c l₂ (by rw [e]; rfl)
    refine ⟨r1, r2, ?_⟩
    intro l₁ c l₂ e
    cases l₁ with
    | nil =>
      obtain ⟨rfl, rfl⟩ : h = c ∧ l = l₂ := by simpa using e
      exact ⟨s1, s2⟩
    | cons c' l₁ =>
      obtain ⟨rfl, e'⟩ : h = c' ∧ l = l₁ ++ c :: l₂ := by simpa using e
      exact r3 l₁ c l₂ e'

/-- Two plants, each with one part that cools down towards the temperature at its port: the steps are accepted. -/
example : let A : System ℚ ℚ Unit Unit ℚ := ⟨[fun _ p x _ => ⟨p - x, (), true⟩], [], fun _ _ p => p, fun _ _ p => p⟩
    let B : System ℚ ℚ Unit Unit ℚ := ⟨[fun _ p x h => ⟨2 * (p - x), (), decide (h < 1 / 2)⟩], [], fun _ _ p => p, fun _ _ p => p⟩
    let s : State ℚ Unit Unit (ℚ × ℚ) := ⟨[⟨8, 8, 8, 0, 0, ()⟩, ⟨4, 4, 4, 0, 0, ()⟩], [], (0, 2), true⟩
    ∀ l₁ h l₂, [(1 / 4 : ℚ), 1 / 8] = l₁ ++ h :: l₂ →
      (call (beside A B) (simulate (beside A B) s (l₁.map fun h => ([], h))) [] h).stable = true := by
  intro A B s l₁ h l₂ e
  rcases l₁ with _ | ⟨a, _ | ⟨b, l₁⟩⟩
  · obtain ⟨rfl, -⟩ : (1 / 4 : ℚ) = h ∧ _ := by simpa using e
    decide +kernel
  · obtain ⟨rfl, rfl, -⟩ : (1 / 4 : ℚ) = a ∧ (1 / 8 : ℚ) = h ∧ _ := by simpa using e
    decide +kernel
  · simp at e

end Verif.Attempt

namespace Verif.Stats

theorem truncErr_append (rtol atol : ℝ) : ∀ a b : List Cell, truncErr rtol atol (a ++ b) =
    (truncErr rtol atol a).bind fun x => (truncErr rtol atol b).map fun y => x + y := by
  intro a b
  induction a with
  | nil => simp [truncErr]
  | cons c a ih =>
    simp only [List.cons_append, truncErr, ih]
    cases cellErr rtol atol c <;> cases truncErr rtol atol a <;> cases truncErr rtol atol b <;> simp [add_assoc]

theorem truncErr_nonneg (rtol atol : ℝ) : ∀ {a : List Cell} {e : ℝ}, truncErr rtol atol a = some e → 0 ≤ e := by
  intro a
  induction a with
  | nil => intro e h; simp only [truncErr, Option.some.injEq] at h; exact h.le
  | cons c a ih =>
    intro e h
    simp only [truncErr, cellErr] at h
    split_ifs at h with h0
    · simp at h
    · cases h1 : truncErr rtol atol a with
      | none => simp [h1] at h
      | some x =>
        simp only [h1, Option.bind_eq_bind, Option.bind_some, Option.some.injEq] at h
        rw [← h]
        exact add_nonneg (sq_nonneg _) (ih h1)

/-- A cell whose temperature `T` does not change. -/
def idle (T : ℝ) : Cell := ⟨T, T, T, 1⟩

theorem truncErr_idle {rtol atol T : ℝ} (ht : T * rtol + atol ≠ 0) (m : ℕ) :
    truncErr rtol atol (List.replicate m (idle T)) = some 0 := by
  induction m with
  | zero => rfl
  | succ m ih =>
    have : cellErr rtol atol (idle T) = some 0 := by simp [cellErr, tolerance, idle, ht]
    rw [List.replicate_succ, truncErr, ih, this]
    simp

end Verif.Stats

namespace Verif.StepControl

open Stats

/-- **C134** is false for the step lengths.  However large the error of a plant is, the step is accepted if the
environment contains a part, not connected to it, with sufficiently many cells whose temperatures do not change: the
error is divided by the number of all cells. -/
theorem C134_fails_tolerance (c : Cfg) (l : Loop) {rtol atol T : ℝ} (ht : 0 < T * rtol + atol)
    (parts : List (ℕ × List Cell)) {e : ℝ} (he : plantErr rtol atol parts = some e) (h1 : 1 ≤ e) (hm : l.h ≠ c.minStep) :
    (∃ l', pass c l ⟨none, [], plantErr rtol atol parts⟩ = .retry l') ∧
      ∃ m l' code, pass c l ⟨none, [], plantErr rtol atol (parts ++ [(m, List.replicate m (idle T))])⟩ =
        .accept l' code := by
  constructor
  · simp only [pass, he, List.foldl_nil]
    rw [if_neg (by intro h; linarith [h.2]), if_neg (by linarith), if_neg hm]
    exact ⟨_, rfl⟩
  · unfold plantErr at he
    cases hS : truncErr rtol atol (parts.flatMap Prod.snd) with
    | none => simp [hS] at he
    | some S =>
      have S0 := truncErr_nonneg _ _ hS
      obtain ⟨m, hmS⟩ := exists_nat_gt S
      have e2 : plantErr rtol atol (parts ++ [(m, List.replicate m (idle T))]) =
          some ((S / (((parts.map Prod.fst).sum + m : ℕ) : ℝ)) ^ (0.5 : ℝ)) := by
        unfold plantErr
        rw [List.flatMap_append, truncErr_append, hS]
        simp [truncErr_idle ht.ne']
      have hq0 : 0 ≤ S / (((parts.map Prod.fst).sum + m : ℕ) : ℝ) := by positivity
      have hq : S / (((parts.map Prod.fst).sum + m : ℕ) : ℝ) < 1 := by
        have hk : S < (((parts.map Prod.fst).sum + m : ℕ) : ℝ) :=
          hmS.trans_le (by exact_mod_cast Nat.le_add_left m _)
        rw [div_lt_one (S0.trans_lt hk)]
        exact hk
      have hr := Real.rpow_lt_one hq0 hq (by norm_num : (0 : ℝ) < 0.5)
      have hr0 := Real.rpow_nonneg hq0 0.5
      refine ⟨m, ?_⟩
      simp only [pass, e2, List.foldl_nil]
      rcases hr0.eq_or_lt with h0 | h0
      · rw [if_neg (by intro h; linarith [h.1]), if_pos h0.symm]
        exact ⟨_, _, rfl⟩
      · rw [if_pos ⟨h0, hr⟩]
        by_cases hg : l.h * growth c l.maxFactor l.sinceFail
            ((S / (((parts.map Prod.fst).sum + m : ℕ) : ℝ)) ^ (0.5 : ℝ)) > c.maxStep
        · exact ⟨_, _, if_pos hg⟩
        · exact ⟨_, _, if_neg hg⟩

/-- One cell whose error is five times the tolerance. -/
example : plantErr 0 1 [(1, [⟨20, 25, 20, 1⟩])] = some 5 ∧ (0 : ℝ) < 20 * 0 + 1 := by
  constructor
  · have : ((5 : ℝ) ^ 2) ^ (0.5 : ℝ) = 5 := by
      rw [← Real.rpow_natCast, ← Real.rpow_mul (by norm_num)]
      norm_num
    simp [plantErr, truncErr, cellErr, tolerance]
    norm_num at this ⊢
  · norm_num

end Verif.StepControl
