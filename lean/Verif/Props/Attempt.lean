import Verif.Model.Attempt
import Verif.Props.Conductance

/-!
# Rejected attempts (C05)
-/

set_option linter.unusedSectionVars false

namespace Verif.Attempt

variable {K X H N P : Type*} [Field K] [AddCommGroup X] [Module K X]

/-- The differential does not use what the part remembers from earlier evaluations. -/
def Diff.Forgetful (d : Diff K X H P) : Prop := ∀ m m' p x h, d m p x h = d m' p x h

/-- Non-numeric parts whose new state follows from the port array and the step length. -/
def ForgetfulSolve (f : N → P → K → N) : Prop := ∀ n n' p h, f n p h = f n' p h

structure System.Forgetful (sys : System K X H N P) : Prop where
  diffs : ∀ d ∈ sys.diffs, Diff.Forgetful d
  solves : ∀ f ∈ sys.solves, ForgetfulSolve f

/-- The state belongs to the system, and one differential and one solve function per part. -/
structure State.Fits (sys : System K X H N P) (s : State X H N P) : Prop where
  parts : sys.diffs.length = s.parts.length
  nonnum : sys.solves.length = s.nonnum.length

/-- Full statement of C05: for every system, whatever attempts are rejected before, a solver call ends in the state
(port values, temperatures, result rows) in which it ends if the accepted step is tried at once. -/
def C05_statement (K X H N P : Type*) [Field K] [AddCommGroup X] [Module K X] : Prop :=
  ∀ (sys : System K X H N P) (s : State X H N P), s.Fits sys → ∀ (hs : List K) (h : K),
    (call sys s hs h).stable = true →
    (call sys s hs h).ports = (call sys s [] h).ports ∧
      (call sys s hs h).parts.map PState.T = (call sys s [] h).parts.map PState.T ∧
      (call sys s hs h).parts.map PState.res = (call sys s [] h).parts.map PState.res

theorem predict_length (ports : P) (h : K) (ds : List (Diff K X H P)) (ss : List (PState X H)) :
    (predict ports h ds ss).1.length = ss.length := by
  induction ds generalizing ss with
  | nil => cases ss <;> rfl
  | cons d ds ih =>
    cases ss with
    | nil => rfl
    | cons s ss =>
      rw [predict]
      split_ifs
      · simp [ih]
      · simp

theorem predict_prev (ports : P) (h : K) (ds : List (Diff K X H P)) (ss : List (PState X H)) :
    (predict ports h ds ss).1.map PState.prev = ss.map PState.prev := by
  induction ds generalizing ss with
  | nil => cases ss <;> rfl
  | cons d ds ih =>
    cases ss with
    | nil => rfl
    | cons s ss =>
      rw [predict]
      split_ifs
      · simp [ih, predict1]
      · simp [predict1]

theorem correct_prev (ports : P) (h : K) (ds : List (Diff K X H P)) (ss : List (PState X H)) :
    (correct ports h ds ss).map PState.prev = ss.map PState.prev := by
  induction ds generalizing ss with
  | nil => cases ss <;> rfl
  | cons d ds ih =>
    cases ss with
    | nil => rfl
    | cons s ss => simp [correct, ih, correct1]

theorem solveAll_length (ports : P) (h : K) (fs : List (N → P → K → N)) (ns : List N) :
    (solveAll ports h fs ns).length = ns.length := by
  induction fs generalizing ns with
  | nil => cases ns <;> rfl
  | cons f fs ih => cases ns <;> simp [solveAll, ih]

theorem attempt_prev (sys : System K X H N P) (h : K) (s : State X H N P) :
    (attempt sys h s).parts.map PState.prev = s.parts.map PState.prev := by
  unfold attempt
  split_ifs
  · simp only [finish]
    rw [correct_prev, predict_prev]
  · exact predict_prev ..

theorem attempt_nonnum_length (sys : System K X H N P) (h : K) (s : State X H N P) :
    (attempt sys h s).nonnum.length = s.nonnum.length := by
  unfold attempt
  split_ifs
  · simp only [finish, solveAll_length]
  · rfl

theorem predict_stable_congr {ports : P} {h : K} {ds : List (Diff K X H P)} (hd : ∀ d ∈ ds, Diff.Forgetful d)
    {ss ss' : List (PState X H)} (hp : ss.map PState.prev = ss'.map PState.prev) :
    (predict ports h ds ss).2 = (predict ports h ds ss').2 := by
  induction ds generalizing ss ss' with
  | nil => cases ss <;> cases ss' <;> rfl
  | cons d ds ih =>
    cases ss with
    | nil =>
      cases ss' with
      | nil => rfl
      | cons => simp at hp
    | cons s ss =>
      cases ss' with
      | nil => simp at hp
      | cons s' ss' =>
        simp only [List.map_cons, List.cons.injEq] at hp
        have e : d s.mem ports s.prev h = d s'.mem ports s'.prev h := by
          rw [hp.1]; exact hd d (List.mem_cons_self ..) ..
        rw [predict, predict, e]
        split_ifs
        · exact ih (fun d' hd' => hd d' (List.mem_cons_of_mem _ hd')) hp.2
        · rfl

/-- After a stable predictor followed by the corrector nothing of the earlier contents is left. -/
theorem correct_predict_congr {ports p1 : P} {h : K} {ds : List (Diff K X H P)} (hd : ∀ d ∈ ds, Diff.Forgetful d)
    {ss ss' : List (PState X H)} (hl : ds.length = ss.length) (hp : ss.map PState.prev = ss'.map PState.prev)
    (hst : (predict ports h ds ss).2 = true) :
    (predict ports h ds ss).1.map PState.T = (predict ports h ds ss').1.map PState.T ∧
      correct p1 h ds (predict ports h ds ss).1 = correct p1 h ds (predict ports h ds ss').1 := by
  induction ds generalizing ss ss' with
  | nil =>
    cases ss with
    | nil =>
      cases ss' with
      | nil => exact ⟨rfl, rfl⟩
      | cons => simp at hp
    | cons => simp at hl
  | cons d ds ih =>
    cases ss with
    | nil => simp at hl
    | cons s ss =>
      cases ss' with
      | nil => simp at hp
      | cons s' ss' =>
        simp only [List.map_cons, List.cons.injEq] at hp
        have e : d s.mem ports s.prev h = d s'.mem ports s'.prev h := by
          rw [hp.1]; exact hd d (List.mem_cons_self ..) ..
        have hbool : (d s.mem ports s.prev h).stable = true := by
          by_contra hb
          rw [predict, if_neg hb] at hst
          cases hst
        have hst' : (predict ports h ds ss).2 = true := by
          rw [predict, if_pos hbool] at hst
          exact hst
        obtain ⟨i1, i2⟩ := ih (fun d' hd' => hd d' (List.mem_cons_of_mem _ hd')) (by simpa using hl) hp.2 hst'
        have hbool' : (d s'.mem ports s'.prev h).stable = true := by rw [← e]; exact hbool
        rw [predict, predict, if_pos hbool, if_pos hbool']
        have hT : (predict1 ports h d s).T = (predict1 ports h d s').T := by
          simp only [predict1]
          rw [e, hp.1]
        have hpr : (predict1 ports h d s).prev = (predict1 ports h d s').prev := hp.1
        have hdf : (predict1 ports h d s).df0 = (predict1 ports h d s').df0 := by simp only [predict1, e]
        have hmem : (predict1 ports h d s).mem = (predict1 ports h d s').mem := by simp only [predict1, e]
        refine ⟨by simp only [List.map_cons, hT, i1], ?_⟩
        simp only [correct, i2]
        congr 1
        simp only [correct1, hT, hpr, hdf, hmem]

theorem solveAll_congr {ports : P} {h : K} {fs : List (N → P → K → N)} (hf : ∀ f ∈ fs, ForgetfulSolve f)
    {ns ns' : List N} (hl : fs.length = ns.length) (hl' : fs.length = ns'.length) :
    solveAll ports h fs ns = solveAll ports h fs ns' := by
  induction fs generalizing ns ns' with
  | nil =>
    cases ns with
    | nil =>
      cases ns' with
      | nil => rfl
      | cons => simp at hl'
    | cons => simp at hl
  | cons f fs ih =>
    cases ns with
    | nil => simp at hl
    | cons n ns =>
      cases ns' with
      | nil => simp at hl'
      | cons n' ns' =>
        rw [solveAll, solveAll, hf f (List.mem_cons_self ..) n n',
          ih (fun f' hf' => hf f' (List.mem_cons_of_mem _ hf')) (by simpa using hl) (by simpa using hl')]

/-- An attempt of a forgetful system depends only on the port array and on the results of the last step. -/
theorem attempt_congr {sys : System K X H N P} (hs : sys.Forgetful) {h : K} {s s' : State X H N P}
    (hf : s.Fits sys) (hp : s.parts.map PState.prev = s'.parts.map PState.prev) (hn : s.nonnum.length = s'.nonnum.length)
    (hq : s.ports = s'.ports) (hst : (attempt sys h s).stable = true) : attempt sys h s = attempt sys h s' := by
  have hpred : (predict s.ports h sys.diffs s.parts).2 = true := by
    by_contra hb
    rw [attempt, if_neg hb] at hst
    cases hst
  have hpred' : (predict s'.ports h sys.diffs s'.parts).2 = true := by
    rw [← hq, ← predict_stable_congr hs.diffs hp]; exact hpred
  rw [attempt, attempt, if_pos hpred, if_pos hpred', ← hq]
  have hT := fun p1 : P => (correct_predict_congr (p1 := p1) hs.diffs hf.parts hp hpred)
  have hN := solveAll_congr (ports := s.ports) (h := h) (ns' := s'.nonnum) hs.solves hf.nonnum (by rw [hf.nonnum, hn])
  simp only [finish]
  rw [(hT s.ports).1, hN]
  simp only [(hT _).2]

/-- C05 for systems without memory (differentials and non-numeric parts which do not depend on what they computed
before): however many attempts are rejected before, with whatever step lengths, for instability or for error, the
solver call ends in exactly the state (ports, temperatures, results, memories) in which it ends if the accepted
step is tried at once. -/
theorem C05_no_trace_partial {sys : System K X H N P} (hs : sys.Forgetful) {s : State X H N P} (hf : s.Fits sys)
    (hs' : List K) (h : K) (hst : (call sys s hs' h).stable = true) : call sys s hs' h = call sys s [] h := by
  have key : ∀ l : List K, let st := l.foldl (fun st h' => rejected sys s.ports h' st) s
      st.parts.map PState.prev = s.parts.map PState.prev ∧ st.nonnum.length = s.nonnum.length ∧ st.ports = s.ports := by
    intro l
    induction l using List.reverseRecOn with
    | nil => exact ⟨rfl, rfl, rfl⟩
    | append_singleton l h' ih =>
      simp only [List.foldl_append, List.foldl_cons, List.foldl_nil, rejected]
      exact ⟨(attempt_prev ..).trans ih.1, (attempt_nonnum_length ..).trans ih.2.1, trivial⟩
  obtain ⟨k1, k2, k3⟩ := key hs'
  have hf' : State.Fits sys (hs'.foldl (fun st h' => rejected sys s.ports h' st) s) := by
    refine ⟨?_, by rw [hf.nonnum, k2]⟩
    have := congrArg List.length k1
    simp only [List.length_map] at this
    rw [this]; exact hf.parts
  exact attempt_congr hs hf' k1 k2 k3 hst

/-- Case: one part which relaxes towards its port, one which copies a port. -/
def demo : System ℚ ℚ Unit ℚ ℚ where
  diffs := [fun _ p x h => ⟨p - x, (), decide (h ≤ 1)⟩]
  solves := [fun _ p _ => p]
  interm := fun ts _ _ => ts.sum
  result := fun rs ns _ => rs.sum + ns.sum

theorem demo_forgetful : demo.Forgetful := by
  constructor
  · intro d hd
    simp only [demo, List.mem_singleton] at hd
    subst hd
    intro _ _ _ _ _; rfl
  · intro f hf
    simp only [demo, List.mem_singleton] at hf
    subst hf
    intro _ _ _ _; rfl

example : (call demo ⟨[⟨1, 7, 7, 7, 7, ()⟩], [9], 3, true⟩ [2, 1] (1 / 2)).stable = true ∧
    (call demo ⟨[⟨1, 7, 7, 7, 7, ()⟩], [9], 3, true⟩ [2, 1] (1 / 2)).parts.map PState.res = [3 / 2] ∧
    (attempt demo 2 ⟨[⟨1, 7, 7, 7, 7, ()⟩], [9], 3, true⟩).stable = false := by
  refine ⟨by decide +kernel, by decide +kernel, by decide +kernel⟩

/-- C05 fails for parts with memory: a part which counts its evaluations and uses the count. -/
theorem C05_fails_memory : ¬ C05_statement ℚ ℚ ℚ ℚ ℚ := by
  intro h
  have := (h ⟨[fun m _ _ _ => ⟨m, m + 1, true⟩], [], fun _ _ p => p, fun _ _ p => p⟩
    ⟨[⟨0, 0, 0, 0, 0, 0⟩], [], 0, true⟩ ⟨rfl, rfl⟩ [1] 1 (by decide +kernel)).2.2
  revert this
  decide +kernel

end Verif.Attempt

namespace Verif.Conductance

theorem lamAir_strictMono {a b : ℝ} (hab : a < b) (hb : b ≤ 200) (_ha : -100 ≤ a) : lamAir a < lamAir b := by
  unfold lamAir
  nlinarith

/-- C05 fails for every pipe: the surface temperature is computed from the coefficients of the previous evaluation,
rejected or not.  One rejected evaluation before the accepted one, with the same water and ambient temperatures and
warm water, gives a larger conductance to the ambient than the accepted evaluation alone. -/
theorem C05_fails_pipe_remembers {g : Shell} (v : g.Valid) (hh : g.vertical = false) {e : Eval} (he : e.Valid)
    (hw : e.Tamb < e.T) : (history g [e]).ua < (history g [e, e]).ua := by
  have e1 : history g [e] = evaluate g Coeffs.init e := rfl
  have e2 : history g [e, e] = evaluate g (history g [e]) e := rfl
  have hT1 : (history g [e]).Ts = e.Tamb := C79_first_surface_is_ambient g e
  have hpos := C79_coefficients_positive v (es := [e]) (by simpa using he) (by simp)
  have hpos2 := C79_coefficients_positive v (es := [e, e]) (by simpa using he) (by simp)
  have hT2 : e.Tamb < (history g [e, e]).Ts := by
    rw [e2]
    simp only [evaluate, surfaceTemp]
    have hA := v.aShellIns_pos
    have : 0 < (e.T - e.Tamb) * (history g [e]).ua / ((history g [e]).alphaInf * g.aShellIns) :=
      div_pos (mul_pos (by linarith) hpos.2.2.1) (mul_pos hpos.2.1 hA)
    linarith
  have hT2' : (history g [e, e]).Ts ≤ 100 ∨ (history g [e, e]).Ts ≤ 200 := by
    right
    have := (C52_surface_between_always v (es := [e]) (by simpa using he) e).2
    have h2 : max e.T e.Tamb ≤ 200 := max_le (by linarith [he.T1]) he.a1
    exact le_trans this h2
  have hT2'' : (history g [e, e]).Ts ≤ 200 := by rcases hT2' with h | h <;> linarith
  have hal : (history g [e]).alphaI = (history g [e, e]).alphaI := rfl
  have hinf : (history g [e]).alphaInf < (history g [e, e]).alphaInf := by
    have a1 : (history g [e]).alphaInf
        = cylinderAlphaInf (history g [e]).Ts e.Tamb g.flowLength g.vertical g.rTotal := rfl
    have a2 : (history g [e, e]).alphaInf
        = cylinderAlphaInf (history g [e, e]).Ts e.Tamb g.flowLength g.vertical g.rTotal := rfl
    rw [a1, a2, hT1, hh]
    simp only [cylinderAlphaInf, Bool.false_eq_true, if_false]
    have hR0 : rayleigh e.Tamb e.Tamb (nyAir ((e.Tamb + e.Tamb) / 2)) g.flowLength = 0 := by simp [rayleigh]
    rw [hR0, zero_mul, Real.zero_rpow (by norm_num), mul_zero, add_zero]
    have hR : 0 ≤ rayleigh (history g [e, e]).Ts e.Tamb (nyAir ((e.Tamb + (history g [e, e]).Ts) / 2)) g.flowLength :=
      rayleigh_nonneg (by linarith [he.a0]) v.flowLength
    generalize rayleigh (history g [e, e]).Ts e.Tamb (nyAir ((e.Tamb + (history g [e, e]).Ts) / 2)) g.flowLength = R at *
    have hpw : 0 ≤ (R * 0.3269207911296459) ^ ((1 : ℝ) / 6) := by positivity
    have hl : lamAir ((e.Tamb + e.Tamb) / 2) < lamAir ((e.Tamb + (history g [e, e]).Ts) / 2) :=
      lamAir_strictMono (by linarith) (by linarith [he.a1]) (by linarith [he.a0])
    have hl0 : 0 < lamAir ((e.Tamb + e.Tamb) / 2) := lamAir_pos (by linarith [he.a0]) (by linarith [he.a1])
    apply div_lt_div_of_pos_right _ v.flowLength
    have hsq : (0.752 : ℝ) ^ 2 ≤ (0.752 + 0.387 * (R * 0.3269207911296459) ^ ((1 : ℝ) / 6)) ^ 2 :=
      pow_le_pow_left₀ (by norm_num) (by linarith) 2
    exact mul_lt_mul' hsq hl hl0.le (lt_of_lt_of_le (by norm_num) hsq)
  have u1 : (history g [e]).ua = uaFldWllInsAmbCyl g (history g [e]).alphaI (history g [e]).alphaInf := rfl
  have u2 : (history g [e, e]).ua = uaFldWllInsAmbCyl g (history g [e, e]).alphaI (history g [e, e]).alphaInf := rfl
  rw [u1, u2, ← hal]
  unfold uaFldWllInsAmbCyl
  have h1 := v.rLnWll_pos
  have h2 := v.rLnIns_nonneg
  have h3 := v.rRins_pos
  have q1 : 0 < 1 / (history g [e]).alphaI := one_div_pos.2 hpos.1
  have q2 : 0 < g.rLnWll / g.lamWll := div_pos h1 v.lamWll
  have q3 : 0 ≤ g.rLnIns / g.lamIns := div_nonneg h2 v.lamIns.le
  have q4 : 0 < g.rRins / (history g [e, e]).alphaInf := div_pos h3 hpos2.2.1
  have q5 : g.rRins / (history g [e, e]).alphaInf < g.rRins / (history g [e]).alphaInf :=
    div_lt_div_of_pos_left h3 hpos.2.1 hinf
  exact div_lt_div_of_pos_left v.aShellI_pos (by linarith) (by linarith)

example : (history pipeShell [⟨0.2, 60, 20, 0.05⟩]).ua < (history pipeShell [⟨0.2, 60, 20, 0.05⟩, ⟨0.2, 60, 20, 0.05⟩]).ua :=
  C05_fails_pipe_remembers pipeShell_valid rfl (by constructor <;> norm_num) (by norm_num)

end Verif.Conductance
