import Verif.Props.Extremes
import Verif.Lemmas.HeunError
import Mathlib.Analysis.Calculus.Deriv.Prod
import Mathlib.Analysis.SpecialFunctions.ExpDeriv
import Mathlib.Topology.Algebra.Module.FiniteDimension
import Mathlib.Analysis.Calculus.ContDiff.RCLike
import Mathlib.Analysis.Normed.Module.FiniteDimension
import Mathlib.Analysis.Calculus.ContDiff.Operations
import Mathlib.Topology.Algebra.MetricSpace.Lipschitz
import Mathlib.Topology.MetricSpace.Thickening

/-!
# C129: smaller steps lead to the solution of the differential equation
-/

set_option linter.unusedSectionVars false

namespace Verif.Attempt

open Set

variable {X H N P : Type*}

section Data

variable {K : Type*} [Field K] [AddCommGroup X] [Module K X]

/-- Specification: the plant consists of `n` parts with the differential equations `y' k = f k ports (y k)` and of `m`
parts that hand on what they find at the ports (`g`: pumps, connectors, valves); `π` gives the ports that belong to
temperatures of the former and states of the latter. -/
structure Consists (sys : System K X H N P) {n m : ℕ} (f : Fin n → P → X → X) (g : Fin m → P → N)
    (π : (Fin n → X) → (Fin m → N) → P) : Prop where
  diffs : ∀ k : Fin n, ∃ d, sys.diffs[k.val]? = some d ∧ ∀ μ p x h, (d μ p x h).dT = f k p x
  solves : ∀ j : Fin m, ∃ s, sys.solves[j.val]? = some s ∧ ∀ ν p h, s ν p h = g j p
  interm : ∀ y w y' w', sys.interm (List.ofFn y) (List.ofFn w) (π y' w') = π y w
  result : ∀ y w y' w', sys.result (List.ofFn y) (List.ofFn w) (π y' w') = π y w

/-- Specification: the state of the simulation at the beginning of a step. -/
structure At {n m : ℕ} (π : (Fin n → X) → (Fin m → N) → P) (s : State X H N P) (y : Fin n → X) (w : Fin m → N) : Prop where
  parts : s.parts.map PState.prev = List.ofFn y
  ports : s.ports = π y w
  nonnum : s.nonnum.length = m

theorem solveAll_getElem? {p : P} {h : K} {j : ℕ} {f : N → P → K → N} {ν : N} :
    ∀ {fs : List (N → P → K → N)} {ns : List N}, fs[j]? = some f → ns[j]? = some ν →
      (solveAll p h fs ns)[j]? = some (f ν p h) := by
  induction j with
  | zero =>
    intro fs ns h1 h2
    cases fs with
    | nil => simp at h1
    | cons f' fs =>
      cases ns with
      | nil => simp at h2
      | cons ν' ns =>
        simp only [List.getElem?_cons_zero, Option.some.injEq] at h1 h2
        subst h1 h2
        rfl
  | succ j ih =>
    intro fs ns h1 h2
    cases fs with
    | nil => simp at h1
    | cons f' fs =>
      cases ns with
      | nil => simp at h2
      | cons ν' ns =>
        simp only [List.getElem?_cons_succ] at h1 h2
        rw [solveAll, List.getElem?_cons_succ]
        exact ih h1 h2

variable {sys : System K X H N P} {n m : ℕ} {f : Fin n → P → X → X} {g : Fin m → P → N}
  {π : (Fin n → X) → (Fin m → N) → P}

theorem solveAll_eq (hc : Consists sys f g π) (p : P) (h : K) {ns : List N} (hn : ns.length = m) :
    solveAll p h sys.solves ns = List.ofFn fun j => g j p := by
  apply List.ext_getElem?
  intro i
  by_cases hi : i < m
  · obtain ⟨s, h1, h2⟩ := hc.solves ⟨i, hi⟩
    rw [solveAll_getElem? h1 (List.getElem?_eq_getElem (by rw [hn]; exact hi)), h2, List.getElem?_ofFn, dif_pos hi]
  · rw [List.getElem?_eq_none (by rw [solveAll_length, hn]; omega),
      List.getElem?_eq_none (by rw [List.length_ofFn]; omega)]

/-- What an attempt computes from the slopes `a` at the beginning and `b` after the predictor. -/
theorem attempt_at (hc : Consists sys f g π) {s : State X H N P} {y : Fin n → X} {w : Fin m → N} (hs : At π s y w)
    {h : K} (hst : (attempt sys h s).stable = true) :
    At π (advance (attempt sys h s))
      (y + (h / 2) • ((fun k => f k (π y w) (y k)) + fun k => f k (π (y + h • fun k => f k (π y w) (y k)) fun j =>
        g j (π y w)) ((y + h • fun k => f k (π y w) (y k)) k)))
      (fun j => g j (π (y + h • fun k => f k (π y w) (y k)) fun j => g j (π y w))) := by
  have hpred : (predict s.ports h sys.diffs s.parts).2 = true := by
    by_contra hb
    rw [attempt, if_neg hb] at hst
    cases hst
  have hlen : s.parts.length = n := by
    have := congrArg List.length hs.parts
    simpa using this
  have hpart : ∀ k : Fin n, ∃ st, s.parts[k.val]? = some st ∧ st.prev = y k := by
    intro k
    have hk : k.val < s.parts.length := by rw [hlen]; exact k.2
    refine ⟨s.parts[k.val], List.getElem?_eq_getElem hk, ?_⟩
    have := congrArg (fun l => l[k.val]?) hs.parts
    simp only [List.getElem?_map, List.getElem?_eq_getElem hk, List.getElem?_ofFn, k.2, dif_pos, Option.map_some,
      Option.some.injEq] at this
    exact this
  set a : Fin n → X := fun k => f k (π y w) (y k) with ha
  set n1 : Fin m → N := fun j => g j (π y w) with hn1
  have hT : (predict s.ports h sys.diffs s.parts).1.map PState.T = List.ofFn (y + h • a) := by
    apply eq_ofFn
    · rw [List.length_map, predict_length, hlen]
    · intro k
      obtain ⟨st, h1, h2⟩ := hpart k
      obtain ⟨d, h3, h4⟩ := hc.diffs k
      rw [List.getElem?_map, predict_getElem? hpred h3 h1]
      simp only [predict1, Option.map_some, h4, h2, hs.ports]
      rfl
  have hn : solveAll s.ports h sys.solves s.nonnum = List.ofFn n1 := by
    rw [solveAll_eq hc _ _ hs.nonnum, hs.ports]
  have hp1 : sys.interm ((predict s.ports h sys.diffs s.parts).1.map PState.T)
      (solveAll s.ports h sys.solves s.nonnum) s.ports = π (y + h • a) n1 := by
    rw [hT, hn, hs.ports]
    exact hc.interm _ _ _ _
  have hn2 : solveAll (π (y + h • a) n1) h sys.solves (List.ofFn n1) = List.ofFn fun j => g j (π (y + h • a) n1) :=
    solveAll_eq hc _ _ (by simp)
  have hres : (correct (π (y + h • a) n1) h sys.diffs (predict s.ports h sys.diffs s.parts).1).map PState.res =
      List.ofFn (y + (h / 2) • (a + fun k => f k (π (y + h • a) n1) ((y + h • a) k))) := by
    apply eq_ofFn
    · rw [List.length_map, correct_length, predict_length, hlen]
    · intro k
      obtain ⟨st, h1, h2⟩ := hpart k
      obtain ⟨d, h3, h4⟩ := hc.diffs k
      rw [List.getElem?_map, correct_getElem? h3 (predict_getElem? hpred h3 h1)]
      simp only [correct1, predict1, Option.map_some, h4, h2, hs.ports]
      rfl
  have hat : attempt sys h s = ⟨correct (π (y + h • a) n1) h sys.diffs (predict s.ports h sys.diffs s.parts).1,
      List.ofFn fun j => g j (π (y + h • a) n1),
      π (y + (h / 2) • (a + fun k => f k (π (y + h • a) n1) ((y + h • a) k))) fun j => g j (π (y + h • a) n1), true⟩ := by
    unfold attempt
    rw [if_pos hpred]
    unfold finish
    dsimp only
    rw [hp1, hn, hn2, hres, hc.result]
  rw [hat]
  refine ⟨?_, rfl, by simp [advance]⟩
  rw [← hres]
  simp [advance]

theorem rejected_at {s : State X H N P} {y : Fin n → X} {w : Fin m → N} (hs : At π s y w) {bkp : P}
    (hb : bkp = π y w) (h : K) : At π (rejected sys bkp h s) y w :=
  ⟨by rw [← hs.parts]; exact attempt_prev sys h s, hb, by rw [← hs.nonnum]; exact attempt_nonnum_length sys h s⟩

/-- The state in which the last attempt of a solver call begins. -/
theorem rejections_at {s : State X H N P} {y : Fin n → X} {w : Fin m → N} (hs : At π s y w) (hs' : List K) :
    At π (hs'.foldl (fun st h' => rejected sys s.ports h' st) s) y w := by
  have key : ∀ (l : List K) (t : State X H N P), At π t y w →
      At π (l.foldl (fun st h' => rejected sys s.ports h' st) t) y w := by
    intro l
    induction l with
    | nil => intro t ht; exact ht
    | cons a l ih => intro t ht; exact ih _ (rejected_at ht hs.ports a)
  exact key hs' s hs

theorem call_at (hc : Consists sys f g π) {s : State X H N P} {y : Fin n → X} {w : Fin m → N} (hs : At π s y w)
    {hs' : List K} {h : K} (hst : (call sys s hs' h).stable = true) :
    At π (advance (call sys s hs' h))
      (y + (h / 2) • ((fun k => f k (π y w) (y k)) + fun k => f k (π (y + h • fun k => f k (π y w) (y k)) fun j =>
        g j (π y w)) ((y + h • fun k => f k (π y w) (y k)) k)))
      (fun j => g j (π (y + h • fun k => f k (π y w) (y k)) fun j => g j (π y w))) :=
  attempt_at hc (rejections_at hs hs') hst

end Data

variable [NormedAddCommGroup X] [NormedSpace ℝ X] [NormedAddCommGroup N]

/-- Specification: a run with the accepted step lengths of `l`, none of them negative or longer than `Δ`, all accepted
attempts stable, which covers the time `t`. -/
structure Run (sys : System ℝ X H N P) (s : State X H N P) (l : List (List ℝ × ℝ)) (Δ t : ℝ) : Prop where
  nonneg : 0 ≤ Δ
  steps : ∀ c ∈ l, 0 ≤ c.2 ∧ c.2 ≤ Δ
  stable : ∀ (l₁ : List (List ℝ × ℝ)) c l₂, l = l₁ ++ c :: l₂ → (call sys (simulate sys s l₁) c.1 c.2).stable = true
  time : (l.map Prod.snd).sum = t

/-- Specification: the right hand side of the plant if everything that is handed on has arrived: `ω y` are the states
of the parts that hand on temperatures `y`. -/
def plantRhs {n m : ℕ} (f : Fin n → P → X → X) (π : (Fin n → X) → (Fin m → N) → P) (ω : (Fin n → X) → Fin m → N)
    (y : Fin n → X) : Fin n → X := fun k => f k (π y (ω y)) (y k)

/-- Specification: `y` is a solution of the differential equation of the plant on `[0, T]`. -/
def Solution {n : ℕ} (F : (Fin n → X) → Fin n → X) (T : ℝ) (y : ℝ → Fin n → X) : Prop :=
  ∀ t ∈ Icc 0 T, HasDerivWithinAt y (F (y t)) (Icc 0 T) t

/-- Specification: the plant is continuous enough at the temperatures `D`.  The right hand side has the Lipschitz
constant `L`; the parts that
hand on form no circle: being off by `c j * r` before, they are off by at most `ρ * c j * r` afterwards; what is
handed on depends on the temperatures with the constant `Lω`, and the slopes depend on it with the constant `Lw`, as long
as it is off by less than `R`. -/
structure Tame {n m : ℕ} (f : Fin n → P → X → X) (g : Fin m → P → N) (π : (Fin n → X) → (Fin m → N) → P)
    (ω : (Fin n → X) → Fin m → N) (D : Set (Fin n → X)) (c : Fin m → ℝ) (ρ L Lω Lw R : ℝ) : Prop where
  pos : 0 ≤ L ∧ 0 ≤ Lω ∧ 0 ≤ Lw ∧ 0 ≤ ρ ∧ ρ < 1
  weights : ∀ j, 0 ≤ c j
  rhs : ∀ y ∈ D, ∀ y' ∈ D, ‖plantRhs f π ω y - plantRhs f π ω y'‖ ≤ L * ‖y - y'‖
  handed : ∀ y ∈ D, ∀ y' ∈ D, ∀ j, ‖ω y j - ω y' j‖ ≤ c j * (Lω * ‖y - y'‖)
  relay : ∀ y ∈ D, ∀ w r, 0 ≤ r → r ≤ R → (∀ j, ‖w j - ω y j‖ ≤ c j * r) → ∀ j, ‖g j (π y w) - ω y j‖ ≤ c j * (ρ * r)
  slope : ∀ y ∈ D, ∀ w r, 0 ≤ r → r ≤ R → (∀ j, ‖w j - ω y j‖ ≤ c j * r) →
    ‖(fun k => f k (π y w) (y k)) - plantRhs f π ω y‖ ≤ Lw * r

/-- Specification: all temperatures closer than `ε` to the solution belong to `D`. -/
def Tube {n : ℕ} (Y : ℝ → Fin n → X) (T ε : ℝ) (D : Set (Fin n → X)) : Prop :=
  ∀ t ∈ Icc 0 T, ∀ y, ‖y - Y t‖ ≤ ε → y ∈ D

section Analysis

variable {sys : System ℝ X H N P} {n m : ℕ} {f : Fin n → P → X → X} {g : Fin m → P → N}
  {π : (Fin n → X) → (Fin m → N) → P} {ω : (Fin n → X) → Fin m → N} {D : Set (Fin n → X)} {c : Fin m → ℝ} {ρ L Lω Lw R : ℝ}

/-- The speed of a solution changes slowly. -/
theorem Solution.speed {F : (Fin n → X) → Fin n → X} {T M : ℝ} {Y : ℝ → Fin n → X} (hL0 : 0 ≤ L)
    (hL : ∀ s ∈ Icc 0 T, ∀ t ∈ Icc 0 T, ‖F (Y t) - F (Y s)‖ ≤ L * ‖Y t - Y s‖) (hY : Solution F T Y) (hM : ∀ t ∈ Icc 0 T, ‖F (Y t)‖ ≤ M) :
    ∀ s ∈ Icc 0 T, ∀ t ∈ Icc 0 T, s ≤ t → ‖F (Y t) - F (Y s)‖ ≤ L * M * (t - s) := by
  intro s hs t ht hst
  have hp : HeunError.Primitive T (fun t => F (Y t)) Y := hY
  obtain ⟨h1, h2⟩ := hp.shift (a := s) (b := t - s) hs.1 (by linarith [ht.2])
  have := norm_image_sub_le_of_norm_deriv_right_le_segment h1 h2 (C := M) ?_ (t - s) (right_mem_Icc.2 (by linarith))
  · simp only [add_sub_cancel, add_zero, sub_zero] at this
    calc _ ≤ L * ‖Y t - Y s‖ := hL s hs t ht
      _ ≤ L * (M * (t - s)) := mul_le_mul_of_nonneg_left this hL0
      _ = _ := by ring
  · intro r hr
    exact hM _ ⟨by linarith [hr.1, hs.1], by linarith [hr.2, ht.2]⟩

/-- One step: what is handed on is late by at most `Λ * Δ`, and the error grows as in `HeunError.accumulate`. -/
theorem first_order_step (ht : Tame f g π ω D c ρ L Lω Lw R) {T M ε : ℝ} {Y : ℝ → Fin n → X} (hM0 : 0 ≤ M)
    (hY : Solution (plantRhs f π ω) T Y) (hM : ∀ t ∈ Icc 0 T, ‖plantRhs f π ω (Y t)‖ ≤ M) {Λ G k Δ t h : ℝ}
    (hΛ : Λ = Lω * (M + 1) / (1 - ρ)) (hG : G = Lw * Λ * (1 + L / 2) + L * M * (1 + L / 4)) (hk : k = L + L ^ 2 / 2)
    (hΔ0 : 0 ≤ Δ) (hΔ1 : Δ ≤ 1) (hΔ : Δ * (L * (T * Real.exp (k * T) * G) + L * (M + 1) + Lw * Λ) ≤ 1)
    (hD : Tube Y T ε D) (hε : T * Real.exp (k * T) * G * Δ + Δ * (M + 1) ≤ ε) (hR : Λ * Δ ≤ R)
    (ht0 : 0 ≤ t) (hh0 : 0 ≤ h) (hh : h ≤ Δ) (htT : t + h ≤ T) {x : Fin n → X} {w : Fin m → N}
    (he : ‖x - Y t‖ ≤ t * Real.exp (k * t) * (G * Δ)) (hw : ∀ j, ‖w j - ω x j‖ ≤ c j * (Λ * Δ))
    {a b x' : Fin n → X} {w1 w' : Fin m → N} (ha : a = fun k => f k (π x w) (x k)) (hw1 : w1 = fun j => g j (π x w))
    (hb : b = fun k => f k (π (x + h • a) w1) ((x + h • a) k)) (hw' : w' = fun j => g j (π (x + h • a) w1))
    (hx' : x' = x + (h / 2) • (a + b)) :
    ‖x' - Y (t + h)‖ ≤ (t + h) * Real.exp (k * (t + h)) * (G * Δ) ∧ ∀ j, ‖w' j - ω x' j‖ ≤ c j * (Λ * Δ) := by
  obtain ⟨hL0, hω0, hw0, hρ0, hρ1⟩ := ht.pos
  have hΛ0 : 0 ≤ Λ := by rw [hΛ]; exact div_nonneg (by positivity) (by linarith)
  have hΛρ : Lω * (M + 1) = Λ * (1 - ρ) := by rw [hΛ, div_mul_cancel₀]; linarith
  have hG0 : 0 ≤ G := by rw [hG]; positivity
  have hk0 : 0 ≤ k := by rw [hk]; positivity
  have hT0 : 0 ≤ T := by linarith
  have htm : t ∈ Icc 0 T := ⟨ht0, by linarith⟩
  -- slopes
  have he2 : ‖x - Y t‖ ≤ T * Real.exp (k * T) * G * Δ := by
    refine he.trans ?_
    have h1 : t * Real.exp (k * t) ≤ T * Real.exp (k * T) :=
      mul_le_mul htm.2 (Real.exp_le_exp.2 (mul_le_mul_of_nonneg_left htm.2 hk0)) (Real.exp_pos _).le hT0
    calc _ ≤ T * Real.exp (k * T) * (G * Δ) := mul_le_mul_of_nonneg_right h1 (by positivity)
      _ = _ := by ring
  have hYm : ∀ t ∈ Icc 0 T, Y t ∈ D := fun t ht => hD t ht _ (by
    rw [sub_self, norm_zero]
    exact le_trans (by positivity) hε)
  have hxm : x ∈ D := hD t htm _ (by
    have : 0 ≤ Δ * (M + 1) := by positivity
    linarith)
  have hFx : ‖plantRhs f π ω x‖ ≤ M + L * (T * Real.exp (k * T) * G * Δ) := by
    have h1 := ht.rhs x hxm (Y t) (hYm t htm)
    have h2 := norm_le_norm_add_norm_sub' (plantRhs f π ω x) (plantRhs f π ω (Y t))
    have h3 := mul_le_mul_of_nonneg_left he2 hL0
    have h4 := hM t htm
    linarith
  have hp : ‖a - plantRhs f π ω x‖ ≤ Lw * (Λ * Δ) := by
    rw [ha]
    exact ht.slope x hxm w _ (by positivity) hR hw
  have hV : M + L * (T * Real.exp (k * T) * G * Δ) + L * (Δ * (M + 1)) + Lw * (Λ * Δ) ≤ M + 1 := by
    have : Δ * (L * (T * Real.exp (k * T) * G) + L * (M + 1) + Lw * Λ) =
      L * (T * Real.exp (k * T) * G * Δ) + L * (Δ * (M + 1)) + Lw * (Λ * Δ) := by ring
    linarith
  have hpos1 : 0 ≤ L * (Δ * (M + 1)) := by positivity
  have haV : ‖a‖ ≤ M + 1 := by
    have := norm_le_norm_add_norm_sub' a (plantRhs f π ω x)
    linarith
  have hha : ‖h • a‖ ≤ Δ * (M + 1) := by
    rw [norm_smul, Real.norm_eq_abs, abs_of_nonneg hh0]
    exact mul_le_mul hh haV (norm_nonneg _) hΔ0
  have hnear : ∀ d : Fin n → X, ‖d‖ ≤ Δ * (M + 1) → x + d ∈ D := by
    intro d hd
    refine hD t htm _ ?_
    rw [add_sub_right_comm]
    exact (norm_add_le _ _).trans ((add_le_add he2 hd).trans hε)
  have ham := hnear _ hha
  have hcj := ht.weights
  have hlate : ∀ j, ∀ r, r ≤ Δ * (M + 1) → c j * (ρ * (Λ * Δ)) + c j * (Lω * r) ≤ c j * (Λ * Δ) := by
    intro j r hr
    have h6 := mul_le_mul_of_nonneg_left (mul_le_mul_of_nonneg_left hr hω0) (hcj j)
    have h7 : c j * (ρ * (Λ * Δ)) + c j * (Lω * (Δ * (M + 1))) = c j * (Λ * Δ) := by
      have : Lω * (Δ * (M + 1)) = Δ * (Λ * (1 - ρ)) := by rw [← hΛρ]; ring
      rw [this]; ring
    linarith
  -- what is handed on after the predictor
  have hw1' : ∀ j, ‖w1 j - ω (x + h • a) j‖ ≤ c j * (Λ * Δ) := by
    intro j
    have h1 := ht.relay x hxm w _ (by positivity) hR hw j
    have h2 := ht.handed x hxm (x + h • a) ham j
    rw [sub_add_cancel_left, norm_neg] at h2
    have h4 : ‖w1 j - ω (x + h • a) j‖ ≤ c j * (ρ * (Λ * Δ)) + c j * (Lω * ‖h • a‖) := by
      rw [hw1]
      exact (norm_sub_le_norm_sub_add_norm_sub _ (ω x j) _).trans (add_le_add h1 h2)
    exact h4.trans (hlate j _ hha)
  have hq : ‖b - plantRhs f π ω (x + h • a)‖ ≤ Lw * (Λ * Δ) := by
    rw [hb]
    exact ht.slope _ ham w1 _ (by positivity) hR hw1'
  have hbV : ‖b‖ ≤ M + 1 := by
    have h1 := norm_le_norm_add_norm_sub' b (plantRhs f π ω (x + h • a))
    have h2 := norm_le_norm_add_norm_sub' (plantRhs f π ω (x + h • a)) (plantRhs f π ω x)
    have h3 := ht.rhs (x + h • a) ham x hxm
    rw [add_sub_cancel_left] at h3
    have h4 := mul_le_mul_of_nonneg_left hha hL0
    linarith
  constructor
  · have hspeed := Solution.speed hL0 (fun s hs t ht' => ht.rhs _ (hYm t ht') _ (hYm s hs)) hY hM
    have hp' : HeunError.Primitive T (fun t => plantRhs f π ω (Y t)) Y := hY
    have hτ := HeunError.trapezoid_rough hp' hspeed ht0 hh0 htT
    have hη := HeunError.euler_error hp' hspeed ht0 hh0 htT
    have hstep := HeunError.step_error hL0 hh0 (ht.rhs _ hxm _ (hYm t htm))
      (ht.rhs _ ham _ (hYm (t + h) ⟨by linarith, htT⟩)) hp hq hτ hη
    rw [← hx'] at hstep
    refine HeunError.accumulate hk0 ht0 hh0 (by positivity) he (hstep.trans (add_le_add ?_ ?_))
    · refine mul_le_mul_of_nonneg_right ?_ (norm_nonneg _)
      have : h * L ^ 2 / 2 ≤ L ^ 2 / 2 := by
        have := mul_le_mul_of_nonneg_right (hh.trans hΔ1) (sq_nonneg L)
        linarith
      have := mul_le_mul_of_nonneg_left this hh0
      rw [hk]
      linarith
    · have hh1 : h ≤ 1 := hh.trans hΔ1
      have e1 : h * (Lw * (Λ * Δ)) * (1 + h * L / 2) ≤ h * (Lw * (Λ * Δ)) * (1 + L / 2) := by
        refine mul_le_mul_of_nonneg_left ?_ (by positivity)
        have := mul_le_mul_of_nonneg_right hh1 hL0
        linarith
      have e2 : L * M * h ^ 2 ≤ L * M * (h * Δ) :=
        mul_le_mul_of_nonneg_left (by rw [sq]; exact mul_le_mul_of_nonneg_left hh hh0) (by positivity)
      have e3 : h * L / 2 * (L * M * h ^ 2 / 2) ≤ L / 2 * (L * M * (h * Δ) / 2) := by
        refine mul_le_mul ?_ (by linarith) (by positivity) (by positivity)
        have := mul_le_mul_of_nonneg_right hh1 hL0
        linarith
      have e4 : h * (G * Δ) = h * (Lw * (Λ * Δ)) * (1 + L / 2) + L * M * (h * Δ) + L / 2 * (L * M * (h * Δ) / 2) := by
        rw [hG]; ring
      rw [e4]
      linarith
  · intro j
    have hxm' : x' ∈ D := by
      rw [hx']
      refine hnear _ ?_
      rw [norm_smul, Real.norm_eq_abs, abs_of_nonneg (by linarith)]
      have h4 : ‖a + b‖ ≤ 2 * (M + 1) := (norm_add_le _ _).trans (by linarith)
      calc h / 2 * ‖a + b‖ ≤ h / 2 * (2 * (M + 1)) := mul_le_mul_of_nonneg_left h4 (by linarith)
        _ = h * (M + 1) := by ring
        _ ≤ _ := mul_le_mul_of_nonneg_right hh (by linarith)
    have h1 := ht.relay (x + h • a) ham w1 _ (by positivity) hR hw1' j
    have h2 := ht.handed (x + h • a) ham x' hxm' j
    have h3 : ‖x + h • a - x'‖ ≤ Δ * (M + 1) := by
      have e : x + h • a - x' = (h / 2) • (a - b) := by rw [hx']; module
      rw [e, norm_smul, Real.norm_eq_abs, abs_of_nonneg (by linarith)]
      have h4 : ‖a - b‖ ≤ 2 * (M + 1) := (norm_sub_le _ _).trans (by linarith)
      calc h / 2 * ‖a - b‖ ≤ h / 2 * (2 * (M + 1)) := mul_le_mul_of_nonneg_left h4 (by linarith)
        _ = h * (M + 1) := by ring
        _ ≤ _ := mul_le_mul_of_nonneg_right hh (by linarith)
    have h4 : ‖w' j - ω x' j‖ ≤ c j * (ρ * (Λ * Δ)) + c j * (Lω * ‖x + h • a - x'‖) := by
      rw [hw']
      exact (norm_sub_le_norm_sub_add_norm_sub _ (ω (x + h • a) j) _).trans (add_le_add h1 h2)
    exact h4.trans (hlate j _ h3)

/-- **C129** (first order): let the step lengths be at most `Δ`.  Whatever steps are taken and rejected, the result of
a run is as close to the solution of the differential equation of the plant as a constant times `Δ`; the constant does
not depend on the steps.  Pumps, connectors and valves may hand on temperatures late.  Nothing is asked of the plant at
temperatures (`D`) which are far from the solution. -/
theorem C129_converges_partial (hc : Consists sys f g π) (ht : Tame f g π ω D c ρ L Lω Lw R) {T ε : ℝ} (hT : 0 ≤ T)
    {Y : ℝ → Fin n → X} (hY : Solution (plantRhs f π ω) T Y) (hε : 0 < ε) (hD : Tube Y T ε D) (hR : 0 < R) :
    ∃ Δ₀ > 0, ∃ C, ∀ (s : State X H N P) (l : List (List ℝ × ℝ)) (Δ t : ℝ), At π s (Y 0) (ω (Y 0)) → Run sys s l Δ t →
      Δ ≤ Δ₀ → t ≤ T → ∃ x, (simulate sys s l).parts.map PState.prev = List.ofFn x ∧ ‖x - Y t‖ ≤ C * Δ := by
  obtain ⟨hL0, hω0, hw0, hρ0, hρ1⟩ := ht.pos
  have hcont : ContinuousOn (fun t => plantRhs f π ω (Y t)) (Icc 0 T) := by
    have h1 : ContinuousOn (plantRhs f π ω) D :=
      (LipschitzOnWith.of_dist_le_mul (K := ⟨L, hL0⟩) (by
        intro y hy y' hy'
        rw [dist_eq_norm, dist_eq_norm]
        exact ht.rhs y hy y' hy')).continuousOn
    exact h1.comp (fun t ht' => (hY t ht').continuousWithinAt) fun t ht' => hD t ht' _ (by simpa using hε.le)
  obtain ⟨M, hM⟩ := isCompact_Icc.exists_bound_of_continuousOn hcont
  have hM0 : 0 ≤ M := (norm_nonneg _).trans (hM 0 ⟨le_rfl, hT⟩)
  obtain ⟨Λ, hΛ⟩ : ∃ Λ, Λ = Lω * (M + 1) / (1 - ρ) := ⟨_, rfl⟩
  obtain ⟨G, hG⟩ : ∃ G, G = Lw * Λ * (1 + L / 2) + L * M * (1 + L / 4) := ⟨_, rfl⟩
  obtain ⟨k, hk⟩ : ∃ k, k = L + L ^ 2 / 2 := ⟨_, rfl⟩
  have hΛ0 : 0 ≤ Λ := by rw [hΛ]; exact div_nonneg (by positivity) (by linarith)
  have hG0 : 0 ≤ G := by rw [hG]; positivity
  have hk0 : 0 ≤ k := by rw [hk]; positivity
  set B := L * (T * Real.exp (k * T) * G) + L * (M + 1) + Lw * Λ with hB
  have hB0 : 0 ≤ B := by positivity
  set E := T * Real.exp (k * T) * G + (M + 1) with hE
  have hE0 : 0 ≤ E := by positivity
  refine ⟨min (1 / (1 + B)) (min (ε / (1 + E)) (R / (1 + Λ))), by positivity, T * Real.exp (k * T) * G, ?_⟩
  intro s l Δ t hs hr hΔ htT
  have hΔ0 := hr.nonneg
  have small : ∀ {r b : ℝ}, 0 < r → 0 ≤ b → Δ ≤ r / (1 + b) → Δ * b ≤ r := by
    intro r b hr0 hb h
    rw [le_div_iff₀ (by positivity)] at h
    linarith
  have hΔ1 : Δ ≤ 1 := (hΔ.trans (min_le_left _ _)).trans (by rw [div_le_one (by positivity)]; linarith)
  have hΔB : Δ * B ≤ 1 := small one_pos hB0 (hΔ.trans (min_le_left _ _))
  have hΔE : T * Real.exp (k * T) * G * Δ + Δ * (M + 1) ≤ ε := by
    have := small hε hE0 (hΔ.trans ((min_le_right _ _).trans (min_le_left _ _)))
    rw [hE] at this
    linarith
  have hΔR : Λ * Δ ≤ R := by
    have := small hR hΛ0 (hΔ.trans ((min_le_right _ _).trans (min_le_right _ _)))
    linarith
  have key : ∀ (l : List (List ℝ × ℝ)) (s : State X H N P) (t₀ : ℝ), 0 ≤ t₀ → t₀ + (l.map Prod.snd).sum ≤ T →
      (∀ c ∈ l, 0 ≤ c.2 ∧ c.2 ≤ Δ) → (∀ (l₁ : List (List ℝ × ℝ)) c l₂, l = l₁ ++ c :: l₂ →
        (call sys (simulate sys s l₁) c.1 c.2).stable = true) →
      (∃ x w, At π s x w ∧ ‖x - Y t₀‖ ≤ t₀ * Real.exp (k * t₀) * (G * Δ) ∧ ∀ j, ‖w j - ω x j‖ ≤ c j * (Λ * Δ)) →
      ∃ x, (simulate sys s l).parts.map PState.prev = List.ofFn x ∧
        ‖x - Y (t₀ + (l.map Prod.snd).sum)‖ ≤ (t₀ + (l.map Prod.snd).sum) *
          Real.exp (k * (t₀ + (l.map Prod.snd).sum)) * (G * Δ) := by
    intro l
    induction l with
    | nil =>
      intro s t₀ _ _ _ _ h
      obtain ⟨x, w, h1, h2, _⟩ := h
      exact ⟨x, h1.parts, by simpa using h2⟩
    | cons c' l ih =>
      intro s t₀ ht₀ hle hst hstab h
      obtain ⟨x, w, h1, h2, h3⟩ := h
      obtain ⟨hc1, hc2⟩ := hst c' List.mem_cons_self
      have hsum : 0 ≤ (l.map Prod.snd).sum :=
        List.sum_nonneg fun r hr => by
          obtain ⟨c'', hc'', rfl⟩ := List.mem_map.mp hr
          exact (hst c'' (List.mem_cons_of_mem _ hc'')).1
      rw [List.map_cons, List.sum_cons, ← add_assoc] at hle ⊢
      have hcall := call_at hc h1 (hstab [] c' l rfl)
      have hstep := first_order_step ht hM0 hY hM hΛ hG hk hΔ0 hΔ1 hΔB hD hΔE hΔR ht₀ hc1 hc2 (by linarith) h2 h3 rfl rfl rfl rfl rfl
      exact ih _ _ (by linarith) hle (fun c'' hc'' => hst c'' (List.mem_cons_of_mem _ hc''))
        (fun l₁ c'' l₂ e => hstab (c' :: l₁) c'' l₂ (by rw [e]; rfl)) ⟨_, _, hcall, hstep.1, hstep.2⟩
  obtain ⟨x, h1, h2⟩ := key l s 0 le_rfl (by rw [zero_add, hr.time]; exact htT) hr.steps hr.stable
    ⟨Y 0, ω (Y 0), hs, by simp, fun j => by simpa using mul_nonneg (ht.weights j) (by positivity)⟩
  rw [zero_add, hr.time] at h2
  have ht0 : 0 ≤ t := by
    rw [← hr.time]
    exact List.sum_nonneg fun r hr' => by
      obtain ⟨c'', hc'', rfl⟩ := List.mem_map.mp hr'
      exact (hr.steps c'' hc'').1
  refine ⟨x, h1, h2.trans ?_⟩
  have h3 : t * Real.exp (k * t) ≤ T * Real.exp (k * T) :=
    mul_le_mul htT (Real.exp_le_exp.2 (mul_le_mul_of_nonneg_left htT hk0)) (Real.exp_pos _).le hT
  calc _ ≤ T * Real.exp (k * T) * (G * Δ) := mul_le_mul_of_nonneg_right h3 (by positivity)
    _ = _ := by ring

/-! ## Second order -/

theorem Describes.consists {π : (Fin n → X) → P} (hd : Describes sys f π) :
    Consists sys f (fun j : Fin 0 => j.elim0) (fun y (_ : Fin 0 → N) => π y) :=
  ⟨hd.diffs, fun j => j.elim0, fun y _ y' _ => by rw [List.ofFn_zero]; exact hd.interm y y',
    fun y _ y' _ => by rw [List.ofFn_zero]; exact hd.result y y'⟩

/-- The errors of a run with steps of at most `Δ`, if the plant has the Lipschitz constant `L` where the run comes
along. -/
theorem second_order_run {π : (Fin n → X) → P} (hd : Describes sys f π) (hL0 : 0 ≤ L) {T B M G k Δ₀ : ℝ} (hT : 0 ≤ T)
    (hB : 0 ≤ B) {Y Z : ℝ → Fin n → X} (hY : Solution (rhs f π) T Y)
    (hZ : ∀ t ∈ Icc 0 T, HasDerivWithinAt (fun t => rhs f π (Y t)) (Z t) (Icc 0 T) t)
    (hZB : ∀ s ∈ Icc 0 T, ∀ t ∈ Icc 0 T, s ≤ t → ‖Z t - Z s‖ ≤ B * (t - s))
    (hLY : ∀ s ∈ Icc 0 T, ∀ t ∈ Icc 0 T, ‖rhs f π (Y t) - rhs f π (Y s)‖ ≤ L * ‖Y t - Y s‖)
    (hM0 : 0 ≤ M) (hM : ∀ t ∈ Icc 0 T, ‖rhs f π (Y t)‖ ≤ M) (hG : G = B / 12 + L / 2 * (L * M / 2))
    (hk : k = L + |Δ₀| * L ^ 2 / 2) {Δ : ℝ} (hΔ : Δ ≤ Δ₀)
    (hmem : ∀ t ∈ Icc 0 T, ∀ h, 0 ≤ h → h ≤ Δ → t + h ≤ T → ∀ x, ‖x - Y t‖ ≤ t * Real.exp (k * t) * (G * Δ ^ 2) →
      ‖rhs f π x - rhs f π (Y t)‖ ≤ L * ‖x - Y t‖ ∧
        ‖rhs f π (x + h • rhs f π x) - rhs f π (Y (t + h))‖ ≤ L * ‖x + h • rhs f π x - Y (t + h)‖)
    (s : State X H N P) (l : List (List ℝ × ℝ)) (t : ℝ) (hs1 : s.parts.map PState.prev = List.ofFn (Y 0))
    (hs2 : s.ports = π (Y 0)) (hs3 : s.nonnum = []) (hr : Run sys s l Δ t) (htT : t ≤ T) :
    ∃ x, (simulate sys s l).parts.map PState.prev = List.ofFn x ∧ ‖x - Y t‖ ≤ T * Real.exp (k * T) * G * Δ ^ 2 := by
  have hG0 : 0 ≤ G := by rw [hG]; positivity
  have hk0 : 0 ≤ k := by rw [hk]; positivity
  have hΔ0 := hr.nonneg
  have hs : At (fun y (_ : Fin 0 → N) => π y) s (Y 0) Fin.elim0 := ⟨hs1, hs2, by rw [hs3]; rfl⟩
  have hspeed := Solution.speed hL0 hLY hY hM
  have hp' : HeunError.Primitive T (fun t => rhs f π (Y t)) Y := hY
  have key : ∀ (l : List (List ℝ × ℝ)) (s : State X H N P) (t₀ : ℝ), 0 ≤ t₀ → t₀ + (l.map Prod.snd).sum ≤ T →
      (∀ c ∈ l, 0 ≤ c.2 ∧ c.2 ≤ Δ) → (∀ (l₁ : List (List ℝ × ℝ)) c l₂, l = l₁ ++ c :: l₂ →
        (call sys (simulate sys s l₁) c.1 c.2).stable = true) →
      (∃ x w, At (fun y (_ : Fin 0 → N) => π y) s x w ∧ ‖x - Y t₀‖ ≤ t₀ * Real.exp (k * t₀) * (G * Δ ^ 2)) →
      ∃ x, (simulate sys s l).parts.map PState.prev = List.ofFn x ∧
        ‖x - Y (t₀ + (l.map Prod.snd).sum)‖ ≤ (t₀ + (l.map Prod.snd).sum) *
          Real.exp (k * (t₀ + (l.map Prod.snd).sum)) * (G * Δ ^ 2) := by
    intro l
    induction l with
    | nil =>
      intro s t₀ _ _ _ _ h
      obtain ⟨x, w, h1, h2⟩ := h
      exact ⟨x, h1.parts, by simpa using h2⟩
    | cons c' l ih =>
      intro s t₀ ht₀ hle hst hstab h
      obtain ⟨x, w, h1, h2⟩ := h
      obtain ⟨hc1, hc2⟩ := hst c' List.mem_cons_self
      have hsum : 0 ≤ (l.map Prod.snd).sum :=
        List.sum_nonneg fun r hr => by
          obtain ⟨c'', hc'', rfl⟩ := List.mem_map.mp hr
          exact (hst c'' (List.mem_cons_of_mem _ hc'')).1
      rw [List.map_cons, List.sum_cons, ← add_assoc] at hle ⊢
      have hcall := call_at hd.consists h1 (hstab [] c' l rfl)
      have htT' : t₀ + c'.2 ≤ T := by linarith
      have hτ := HeunError.trapezoid_smooth hp' hZ hZB ht₀ hc1 htT'
      have hη := HeunError.euler_error hp' hspeed ht₀ hc1 htT'
      obtain ⟨m1, m2⟩ := hmem t₀ ⟨ht₀, by linarith⟩ c'.2 hc1 hc2 htT' x h2
      have hstep := HeunError.step_error hL0 hc1 (ε := 0) (x := x) (p := rhs f π x)
        (q := rhs f π (x + c'.2 • rhs f π x)) m1 m2 (by simp) (by simp) hτ hη
      refine ih _ _ (by linarith) hle (fun c'' hc'' => hst c'' (List.mem_cons_of_mem _ hc''))
        (fun l₁ c'' l₂ e => hstab (c' :: l₁) c'' l₂ (by rw [e]; rfl)) ⟨_, _, hcall, ?_⟩
      refine HeunError.accumulate hk0 ht₀ hc1 (by positivity) h2 (hstep.trans (add_le_add ?_ ?_))
      · refine mul_le_mul_of_nonneg_right ?_ (norm_nonneg _)
        have h3 : c'.2 ≤ |Δ₀| := (hc2.trans hΔ).trans (le_abs_self _)
        have h4 := mul_le_mul_of_nonneg_right h3 (sq_nonneg L)
        have h5 : L + c'.2 * L ^ 2 / 2 ≤ k := by rw [hk]; linarith
        have := mul_le_mul_of_nonneg_left h5 hc1
        linarith
      · have h3 : c'.2 ^ 2 ≤ Δ ^ 2 := pow_le_pow_left₀ hc1 hc2 2
        have h4 := mul_le_mul_of_nonneg_left h3 hc1
        have h5 : c'.2 * (G * Δ ^ 2) = (B / 12 + L / 2 * (L * M / 2)) * (c'.2 * Δ ^ 2) := by rw [hG]; ring
        have h6 := mul_le_mul_of_nonneg_left h4 (show 0 ≤ B / 12 + L / 2 * (L * M / 2) by positivity)
        rw [h5]
        refine le_trans (le_of_eq ?_) h6
        ring
  obtain ⟨x, h1, h2⟩ := key l s 0 le_rfl (by rw [zero_add, hr.time]; exact htT) hr.steps hr.stable
    ⟨Y 0, _, hs, by simp⟩
  rw [zero_add, hr.time] at h2
  have ht0 : 0 ≤ t := by
    rw [← hr.time]
    exact List.sum_nonneg fun r hr' => by
      obtain ⟨c'', hc'', rfl⟩ := List.mem_map.mp hr'
      exact (hr.steps c'' hc'').1
  refine ⟨x, h1, h2.trans ?_⟩
  have h3 : t * Real.exp (k * t) ≤ T * Real.exp (k * T) :=
    mul_le_mul htT (Real.exp_le_exp.2 (mul_le_mul_of_nonneg_left htT hk0)) (Real.exp_pos _).le hT
  calc _ ≤ T * Real.exp (k * T) * (G * Δ ^ 2) := mul_le_mul_of_nonneg_right h3 (by positivity)
    _ = _ := by ring

/-- **C129** (second order), partial: in a plant whose parts all have a differential equation, and for a solution whose
second derivative `Z` does not change too fast, the result is as close to the solution as a constant times `Δ ^ 2`.
Nothing is asked of the plant at temperatures which are far from the solution.  Missing: plants with pumps, connectors
or mixing valves (`C129_fails_second_order`). -/
theorem C129_second_order_partial {π : (Fin n → X) → P} (hd : Describes sys f π) (hL0 : 0 ≤ L)
    (hL : ∀ y ∈ D, ∀ y' ∈ D, ‖rhs f π y - rhs f π y'‖ ≤ L * ‖y - y'‖) {T B ε : ℝ} (hT : 0 ≤ T) (hB : 0 ≤ B)
    {Y Z : ℝ → Fin n → X} (hY : Solution (rhs f π) T Y) (hε : 0 < ε) (hD : Tube Y T ε D)
    (hZ : ∀ t ∈ Icc 0 T, HasDerivWithinAt (fun t => rhs f π (Y t)) (Z t) (Icc 0 T) t)
    (hZB : ∀ s ∈ Icc 0 T, ∀ t ∈ Icc 0 T, s ≤ t → ‖Z t - Z s‖ ≤ B * (t - s)) :
    ∃ Δ₀ > 0, ∃ C, ∀ (s : State X H N P) (l : List (List ℝ × ℝ)) (Δ t : ℝ), s.parts.map PState.prev = List.ofFn (Y 0) →
      s.ports = π (Y 0) → s.nonnum = [] → Run sys s l Δ t → Δ ≤ Δ₀ → t ≤ T →
      ∃ x, (simulate sys s l).parts.map PState.prev = List.ofFn x ∧ ‖x - Y t‖ ≤ C * Δ ^ 2 := by
  have hcont : ContinuousOn (fun t => rhs f π (Y t)) (Icc 0 T) := fun t ht => (hZ t ht).continuousWithinAt
  obtain ⟨M, hM⟩ := isCompact_Icc.exists_bound_of_continuousOn hcont
  have hM0 : 0 ≤ M := (norm_nonneg _).trans (hM 0 ⟨le_rfl, hT⟩)
  obtain ⟨G, hG⟩ : ∃ G, G = B / 12 + L / 2 * (L * M / 2) := ⟨_, rfl⟩
  have hG0 : 0 ≤ G := by rw [hG]; positivity
  obtain ⟨k, hk⟩ : ∃ k, k = L + |(1 : ℝ)| * L ^ 2 / 2 := ⟨_, rfl⟩
  have hk0 : 0 ≤ k := by rw [hk]; positivity
  have hYm : ∀ t ∈ Icc 0 T, Y t ∈ D := fun t ht => hD t ht _ (by simpa using hε.le)
  set A := T * Real.exp (k * T) * G with hA
  have hA0 : 0 ≤ A := by positivity
  set E := A + (M + L * A) with hE
  have hE0 : 0 ≤ E := by positivity
  refine ⟨min 1 (ε / (1 + E)), by positivity, A, ?_⟩
  intro s l Δ t hs1 hs2 hs3 hr hΔ htT
  have hΔ0 := hr.nonneg
  have hΔ1 : Δ ≤ 1 := hΔ.trans (min_le_left _ _)
  have hΔE : Δ * E ≤ ε := by
    have := hΔ.trans (min_le_right _ _)
    rw [le_div_iff₀ (by positivity)] at this
    linarith
  refine second_order_run hd hL0 hT hB hY hZ hZB (fun s hs t ht => hL _ (hYm t ht) _ (hYm s hs)) hM0 hM hG hk hΔ1 ?_
    s l t hs1 hs2 hs3 hr htT
  intro t' ht' h hh0 hh htT' x hx
  have hΔ2 : Δ ^ 2 ≤ Δ := by nlinarith
  have hxA : ‖x - Y t'‖ ≤ A * Δ := by
    refine hx.trans ?_
    have h1 : t' * Real.exp (k * t') ≤ T * Real.exp (k * T) :=
      mul_le_mul ht'.2 (Real.exp_le_exp.2 (mul_le_mul_of_nonneg_left ht'.2 hk0)) (Real.exp_pos _).le hT
    calc _ ≤ T * Real.exp (k * T) * (G * Δ) := mul_le_mul h1 (mul_le_mul_of_nonneg_left hΔ2 hG0) (by positivity) (by positivity)
      _ = _ := by rw [hA]; ring
  have hsum : A * Δ + Δ * (M + L * A) ≤ ε := by rw [hE] at hΔE; linarith
  have hxm : x ∈ D := hD t' ht' _ (hxA.trans (by
    have : 0 ≤ Δ * (M + L * A) := by positivity
    linarith))
  have hx1 := hL x hxm _ (hYm t' ht')
  refine ⟨hx1, hL _ ?_ _ (hYm _ ⟨by linarith [ht'.1], htT'⟩)⟩
  refine hD t' ht' _ ?_
  rw [add_sub_right_comm]
  have hF : ‖rhs f π x‖ ≤ M + L * A := by
    have h1 := norm_le_norm_add_norm_sub' (rhs f π x) (rhs f π (Y t'))
    have h2 := hM t' ht'
    have h3 := mul_le_mul_of_nonneg_left (hxA.trans (mul_le_of_le_one_right hA0 hΔ1)) hL0
    linarith
  refine (norm_add_le _ _).trans (le_trans (add_le_add hxA ?_) hsum)
  rw [norm_smul, Real.norm_eq_abs, abs_of_nonneg hh0]
  exact mul_le_mul hh hF (norm_nonneg _) hΔ0

/-- **C129** (second order), partial: it is enough that the right hand side of the plant is twice continuously
differentiable near the solution.  Missing: plants with pumps, connectors or mixing valves
(`C129_fails_second_order`). -/
theorem C129_smooth_partial [FiniteDimensional ℝ X] {π : (Fin n → X) → P} (hd : Describes sys f π)
    {O : Set (Fin n → X)} (hO : IsOpen O) (hF : ContDiffOn ℝ 2 (rhs f π) O) {T : ℝ} (hT : 0 ≤ T) {Y : ℝ → Fin n → X}
    (hY : Solution (rhs f π) T Y) (hYO : ∀ t ∈ Icc 0 T, Y t ∈ O) :
    ∃ Δ₀ > 0, ∃ C, ∀ (s : State X H N P) (l : List (List ℝ × ℝ)) (Δ t : ℝ), s.parts.map PState.prev = List.ofFn (Y 0) →
      s.ports = π (Y 0) → s.nonnum = [] → Run sys s l Δ t → Δ ≤ Δ₀ → t ≤ T →
      ∃ x, (simulate sys s l).parts.map PState.prev = List.ofFn x ∧ ‖x - Y t‖ ≤ C * Δ ^ 2 := by
  have : ProperSpace (Fin n → X) := FiniteDimensional.proper ℝ _
  have hYc : ContinuousOn Y (Icc 0 T) := fun t ht => (hY t ht).continuousWithinAt
  have hK : IsCompact (Y '' Icc 0 T) := isCompact_Icc.image_of_continuousOn hYc
  have hKO : Y '' Icc 0 T ⊆ O := by rintro _ ⟨t, ht, rfl⟩; exact hYO t ht
  obtain ⟨ε, hε, hεO⟩ := hK.exists_cthickening_subset_open hO hKO
  have hcomp : IsCompact (Metric.cthickening ε (Y '' Icc 0 T)) := hK.cthickening
  have hYm : ∀ t ∈ Icc 0 T, Y t ∈ Metric.cthickening ε (Y '' Icc 0 T) := fun t ht =>
    Metric.self_subset_cthickening _ ⟨t, ht, rfl⟩
  have hlip : ∀ Φ : (Fin n → X) → Fin n → X, ContDiffOn ℝ 1 Φ O →
      ∃ K : NNReal, LipschitzOnWith K Φ (Metric.cthickening ε (Y '' Icc 0 T)) := by
    intro Φ hΦ
    have : LocallyLipschitzOn (Metric.cthickening ε (Y '' Icc 0 T)) Φ := by
      intro x hx
      obtain ⟨K, t, ht, hK'⟩ := (hΦ.contDiffAt (hO.mem_nhds (hεO hx))).exists_lipschitzOnWith
      exact ⟨K, t, mem_nhdsWithin_of_mem_nhds ht, hK'⟩
    exact this.exists_lipschitzOnWith_of_compact hcomp
  obtain ⟨K, hKl⟩ := hlip _ (hF.of_le (by norm_num))
  have hder : ContDiffOn ℝ 1 (fderiv ℝ (rhs f π)) O := hF.fderiv_of_isOpen hO (by norm_num)
  obtain ⟨K', hKl'⟩ := hlip _ (hder.clm_apply (hF.of_le (by norm_num)))
  have hd1 : ∀ y ∈ O, HasFDerivAt (rhs f π) (fderiv ℝ (rhs f π) y) y := fun y hy =>
    ((hF.contDiffAt (hO.mem_nhds hy)).differentiableAt (by norm_num)).hasFDerivAt
  have hZ : ∀ t ∈ Icc 0 T, HasDerivWithinAt (fun t => rhs f π (Y t)) (fderiv ℝ (rhs f π) (Y t) (rhs f π (Y t)))
      (Icc 0 T) t := fun t ht => (hd1 _ (hYO t ht)).comp_hasDerivWithinAt t (hY t ht)
  have hcont : ContinuousOn (fun t => rhs f π (Y t)) (Icc 0 T) := fun t ht => (hZ t ht).continuousWithinAt
  obtain ⟨M, hM⟩ := isCompact_Icc.exists_bound_of_continuousOn hcont
  have hM0 : 0 ≤ M := (norm_nonneg _).trans (hM 0 ⟨le_rfl, hT⟩)
  refine C129_second_order_partial (D := Metric.cthickening ε (Y '' Icc 0 T)) hd K.2 ?_ hT (B := K' * M) (by positivity) hY
    hε ?_ hZ ?_
  · intro y hy y' hy'
    have := hKl.dist_le_mul y hy y' hy'
    rwa [dist_eq_norm, dist_eq_norm] at this
  · intro t ht y hy
    refine Metric.mem_cthickening_of_dist_le y (Y t) ε _ ⟨t, ht, rfl⟩ ?_
    rwa [dist_eq_norm]
  · intro s hs t ht hst
    have h1 := hKl'.dist_le_mul _ (hYm t ht) _ (hYm s hs)
    rw [dist_eq_norm, dist_eq_norm] at h1
    have h2 := (convex_Icc (0 : ℝ) T).norm_image_sub_le_of_norm_hasDerivWithin_le hY hM hs ht
    rw [Real.norm_eq_abs, abs_of_nonneg (by linarith)] at h2
    calc _ ≤ K' * ‖Y t - Y s‖ := h1
      _ ≤ K' * (M * (t - s)) := mul_le_mul_of_nonneg_left h2 K'.2
      _ = _ := by ring

/-- **C129** (second order) for plants with constant flows and coefficients: nothing has to be assumed of the
solution. -/
theorem C129_linear_partial {π : (Fin n → X) → P} (hd : Describes sys f π) (A : (Fin n → X) →L[ℝ] (Fin n → X))
    (b : Fin n → X) (hA : ∀ y, rhs f π y = A y + b) {T : ℝ} (hT : 0 ≤ T) {Y : ℝ → Fin n → X}
    (hY : Solution (rhs f π) T Y) (Δ₀ : ℝ) :
    ∃ C, ∀ (s : State X H N P) (l : List (List ℝ × ℝ)) (Δ t : ℝ), s.parts.map PState.prev = List.ofFn (Y 0) →
      s.ports = π (Y 0) → s.nonnum = [] → Run sys s l Δ t → Δ ≤ Δ₀ → t ≤ T →
      ∃ x, (simulate sys s l).parts.map PState.prev = List.ofFn x ∧ ‖x - Y t‖ ≤ C * Δ ^ 2 := by
  have hL : ∀ y y', ‖rhs f π y - rhs f π y'‖ ≤ ‖A‖ * ‖y - y'‖ := by
    intro y y'
    rw [hA, hA, add_sub_add_right_eq_sub, ← map_sub]
    exact A.le_opNorm _
  have hZ : ∀ t ∈ Icc 0 T, HasDerivWithinAt (fun t => rhs f π (Y t)) (A (rhs f π (Y t))) (Icc 0 T) t := by
    intro t ht
    have h1 := (A.hasFDerivAt.comp_hasDerivWithinAt t (hY t ht)).add_const b
    refine h1.congr (fun s _ => ?_) ?_ <;> simp [hA]
  have hcont : ContinuousOn (fun t => rhs f π (Y t)) (Icc 0 T) := fun t ht => (hZ t ht).continuousWithinAt
  obtain ⟨M, hM⟩ := isCompact_Icc.exists_bound_of_continuousOn hcont
  have hM0 : 0 ≤ M := (norm_nonneg _).trans (hM 0 ⟨le_rfl, hT⟩)
  refine ⟨T * Real.exp ((‖A‖ + |Δ₀| * ‖A‖ ^ 2 / 2) * T) * (‖A‖ * (‖A‖ * M) / 12 + ‖A‖ / 2 * (‖A‖ * M / 2)),
    fun s l Δ t h1 h2 h3 hr hΔ htT => second_order_run hd (norm_nonneg A) hT (B := ‖A‖ * (‖A‖ * M)) (by positivity) hY hZ
      ?_ (fun s _ t _ => hL _ _) hM0 hM rfl rfl hΔ (fun _ _ _ _ _ _ _ _ => ⟨hL _ _, hL _ _⟩) s l t h1 h2 h3 hr htT⟩
  intro s hs t ht hst
  have := Solution.speed (norm_nonneg A) (fun s _ t _ => hL _ _) hY hM s hs t ht hst
  rw [← map_sub]
  calc _ ≤ ‖A‖ * ‖rhs f π (Y t) - rhs f π (Y s)‖ := A.le_opNorm _
    _ ≤ ‖A‖ * (‖A‖ * M * (t - s)) := mul_le_mul_of_nonneg_left this (norm_nonneg _)
    _ = _ := by ring

end Analysis

/-! ## Two pipes in a circle, with and without a pump -/

/-- The temperatures of the two pipes. -/
noncomputable def circleSolution (t : ℝ) : Fin 2 → ℝ := ![50 + 30 * Real.exp (-t), 50 - 30 * Real.exp (-t)]

theorem circleSolution_deriv (t : ℝ) (s : Set ℝ) : HasDerivWithinAt circleSolution
    ![1 / 2 * (circleSolution t 1 - circleSolution t 0), 1 / 2 * (circleSolution t 0 - circleSolution t 1)] s t := by
  have h : HasDerivAt (fun t : ℝ => Real.exp (-t)) (-Real.exp (-t)) t := by
    have := HasDerivAt.exp (hasDerivAt_neg t)
    simpa using this
  rw [hasDerivWithinAt_pi]
  intro i
  fin_cases i
  · have := ((h.const_mul 30).const_add 50).hasDerivWithinAt (s := s)
    refine this.congr_deriv ?_
    simp [circleSolution]
    ring
  · have := ((h.const_mul 30).const_sub 50).hasDerivWithinAt (s := s)
    refine this.congr_deriv ?_
    simp [circleSolution]
    ring

/-- The right hand side of the circle. -/
noncomputable def circleRhs : (Fin 2 → ℝ) →L[ℝ] (Fin 2 → ℝ) :=
  LinearMap.toContinuousLinearMap
    { toFun := fun y => ![1 / 2 * (y 1 - y 0), 1 / 2 * (y 0 - y 1)]
      map_add' := by
        intro y y'
        ext i
        fin_cases i <;> simp <;> ring
      map_smul' := by
        intro r y
        ext i
        fin_cases i <;> simp <;> ring }

/-- The circle of two pipes meets the hypotheses: whatever steps of at most a second are taken in ten seconds, the
result is that of the differential equation up to a constant times the square of the longest step. -/
example : ∃ C, ∀ (s : State ℝ Unit ℝ (ℝ × ℝ)) (l : List (List ℝ × ℝ)) (Δ t : ℝ),
    s.parts.map PState.prev = List.ofFn (circleSolution 0) → s.ports = (80, 20) → s.nonnum = [] →
    Run (circle (1 / 2 : ℝ)) s l Δ t → Δ ≤ 1 → t ≤ 10 →
    ∃ x, (simulate (circle (1 / 2 : ℝ)) s l).parts.map PState.prev = List.ofFn x ∧
      ‖x - circleSolution t‖ ≤ C * Δ ^ 2 := by
  have e : ∀ y : Fin 2 → ℝ, rhs (fun (k : Fin 2) (p : ℝ × ℝ) x => if k = 0 then 1 / 2 * (p.2 - x) else
      1 / 2 * (p.1 - x)) (fun y => (y 0, y 1)) y = circleRhs y + 0 := by
    intro y
    ext i
    fin_cases i <;> simp [rhs, circleRhs]
  obtain ⟨C, hC⟩ := C129_linear_partial (circle_describes (1 / 2 : ℝ)) circleRhs 0 e (T := 10) (by norm_num)
    (Y := circleSolution) (fun t _ => by rw [e]; simpa [circleRhs] using circleSolution_deriv t _) 1
  refine ⟨C, fun s l Δ t h1 h2 h3 => hC s l Δ t h1 ?_ h3⟩
  rw [h2]
  norm_num [circleSolution]

theorem pumpCircle_consists (a : ℝ) : Consists (pumpCircle a) (n := 2) (m := 1)
    (fun k p x => if k = 0 then a * (p.2.2 - x) else a * (p.1 - x)) (fun _ p => p.2.1) (fun y w => (y 0, y 1, w 0)) := by
  refine ⟨?_, ?_, fun _ _ _ _ => rfl, fun _ _ _ _ => rfl⟩
  · intro k
    match k with
    | 0 => exact ⟨_, rfl, fun _ _ _ _ => rfl⟩
    | 1 => exact ⟨_, rfl, fun _ _ _ _ => rfl⟩
  · intro j
    match j with
    | 0 => exact ⟨_, rfl, fun _ _ _ => rfl⟩

theorem pumpCircle_rhs (y : Fin 2 → ℝ) : plantRhs (n := 2) (m := 1)
    (fun k (p : ℝ × ℝ × ℝ) x => if k = 0 then 1 / 2 * (p.2.2 - x) else 1 / 2 * (p.1 - x)) (fun y w => (y 0, y 1, w 0))
    (fun y _ => y 1) y = ![1 / 2 * (y 1 - y 0), 1 / 2 * (y 0 - y 1)] := by
  ext i
  fin_cases i <;> simp [plantRhs]

theorem pumpCircle_tame : Tame (n := 2) (m := 1) (X := ℝ) (N := ℝ)
    (fun k (p : ℝ × ℝ × ℝ) x => if k = 0 then 1 / 2 * (p.2.2 - x) else 1 / 2 * (p.1 - x)) (fun _ p => p.2.1)
    (fun y w => (y 0, y 1, w 0)) (fun y _ => y 1) univ (fun _ => 1) 0 1 1 1 1 := by
  refine ⟨by norm_num, fun _ => zero_le_one, ?_, ?_, ?_, ?_⟩
  · intro y _ y' _
    rw [pumpCircle_rhs, pumpCircle_rhs, pi_norm_le_iff_of_nonneg (by positivity)]
    have h0 := norm_le_pi_norm (y - y') 0
    have h1 := norm_le_pi_norm (y - y') 1
    rw [Pi.sub_apply, Real.norm_eq_abs, abs_le] at h0 h1
    intro i
    fin_cases i
    · simp only [Fin.zero_eta, Pi.sub_apply, Matrix.cons_val_zero, Real.norm_eq_abs, abs_le, one_mul]
      constructor <;> linarith [h0.1, h0.2, h1.1, h1.2]
    · simp only [Fin.mk_one, Pi.sub_apply, Matrix.cons_val_one, Matrix.cons_val_fin_one, Real.norm_eq_abs, abs_le, one_mul]
      constructor <;> linarith [h0.1, h0.2, h1.1, h1.2]
  · intro y _ y' _ j
    simpa using norm_le_pi_norm (y - y') 1
  · intro y _ w r hr _ _ j
    simp
  · intro y _ w r hr _ h
    have h0 := h 0
    rw [Real.norm_eq_abs, abs_le] at h0
    rw [pumpCircle_rhs, pi_norm_le_iff_of_nonneg (by linarith)]
    intro i
    fin_cases i
    · simp [abs_le]
      constructor <;> linarith [h0.1, h0.2]
    · simpa using hr

theorem pumpCircle_solution (T : ℝ) : Solution (plantRhs (n := 2) (m := 1)
    (fun k (p : ℝ × ℝ × ℝ) x => if k = 0 then 1 / 2 * (p.2.2 - x) else 1 / 2 * (p.1 - x)) (fun y w => (y 0, y 1, w 0))
    (fun y _ => y 1)) T circleSolution := by
  intro t _
  rw [pumpCircle_rhs]
  exact circleSolution_deriv t _

/-- The circle with the pump meets the hypotheses of the first order theorem. -/
example : ∃ Δ₀ > 0, ∃ C, ∀ (s : State ℝ Unit ℝ (ℝ × ℝ × ℝ)) (l : List (List ℝ × ℝ)) (Δ t : ℝ),
    At (fun (y : Fin 2 → ℝ) (w : Fin 1 → ℝ) => (y 0, y 1, w 0)) s (circleSolution 0) (fun _ => circleSolution 0 1) →
    Run (pumpCircle (1 / 2 : ℝ)) s l Δ t → Δ ≤ Δ₀ → t ≤ 10 →
    ∃ x, (simulate (pumpCircle (1 / 2 : ℝ)) s l).parts.map PState.prev = List.ofFn x ∧
      ‖x - circleSolution t‖ ≤ C * Δ :=
  C129_converges_partial (pumpCircle_consists _) pumpCircle_tame (by norm_num) (pumpCircle_solution 10) one_pos
    (fun _ _ _ _ => mem_univ _) one_pos

theorem simulate_append {K : Type*} [Field K] {X : Type*} [AddCommGroup X] [Module K X] (sys : System K X H N P)
    (s : State X H N P) (l l' : List (List K × K)) : simulate sys s (l ++ l') = simulate sys (simulate sys s l) l' := by
  induction l generalizing s with
  | nil => rfl
  | cons c l ih => exact ih _

/-- The beginning of the run: the pipes at 80 and 20 degrees. -/
noncomputable def pumpStart : State ℝ Unit ℝ (ℝ × ℝ × ℝ) :=
  ⟨[⟨80, 0, 0, 0, 0, ()⟩, ⟨20, 0, 0, 0, 0, ()⟩], [20], (80, 20, 20), true⟩

theorem pumpCircle_stable (h : ℝ) {s : State ℝ Unit ℝ (ℝ × ℝ × ℝ)} (hl : s.parts.length = 2) :
    (call (pumpCircle (1 / 2 : ℝ)) s [] h).stable = true := by
  obtain ⟨parts, nn, p, st⟩ := s
  match parts, hl with
  | [a, b], _ => rfl

/-- In steps of equal length the sum of both temperatures and half a step of what the pump hands on is constant. -/
theorem pumpCircle_run (h : ℝ) (j : ℕ) : ∃ u v w, At (n := 2) (m := 1) (fun y w => (y 0, y 1, w 0))
      (simulate (pumpCircle (1 / 2 : ℝ)) pumpStart (List.replicate j ([], h))) ![u, v] ![w] ∧
    u + v + h / 4 * w = 100 + h / 4 * 20 ∧
    ∃ u' v' w', At (n := 2) (m := 1) (fun y w => (y 0, y 1, w 0))
      (simulate (pumpCircle (1 / 2 : ℝ)) pumpStart (List.replicate (j + 1) ([], h))) ![u', v'] ![w'] ∧
      u' + v' + h / 4 * w' = 100 + h / 4 * 20 ∧ w' = v + h * (1 / 2 * (u - v)) := by
  have step : ∀ {s : State ℝ Unit ℝ (ℝ × ℝ × ℝ)} {u v w : ℝ},
      At (n := 2) (m := 1) (fun y w => (y 0, y 1, w 0)) s ![u, v] ![w] → u + v + h / 4 * w = 100 + h / 4 * 20 →
      ∃ u' v' w', At (n := 2) (m := 1) (fun y w => (y 0, y 1, w 0)) (advance (call (pumpCircle (1 / 2 : ℝ)) s [] h))
        ![u', v'] ![w'] ∧ u' + v' + h / 4 * w' = 100 + h / 4 * 20 ∧ w' = v + h * (1 / 2 * (u - v)) := by
    intro s u v w hs hi
    have hl : s.parts.length = 2 := by
      have := congrArg List.length hs.parts
      simpa using this
    have := call_at (pumpCircle_consists (1 / 2)) hs (pumpCircle_stable h hl)
    refine ⟨u + h / 2 * (1 / 2 * (w - u) + 1 / 2 * (v - (u + h * (1 / 2 * (w - u))))),
      v + h / 2 * (1 / 2 * (u - v) + 1 / 2 * (u + h * (1 / 2 * (w - u)) - (v + h * (1 / 2 * (u - v))))),
      v + h * (1 / 2 * (u - v)), ?_, by rw [← hi]; ring, rfl⟩
    convert this using 1
    · ext i
      fin_cases i <;> simp <;> ring
    · ext i
      fin_cases i
      simp
  have all : ∀ j, ∃ u v w, At (n := 2) (m := 1) (fun y w => (y 0, y 1, w 0))
      (simulate (pumpCircle (1 / 2 : ℝ)) pumpStart (List.replicate j ([], h))) ![u, v] ![w] ∧
      u + v + h / 4 * w = 100 + h / 4 * 20 := by
    intro j
    induction j with
    | zero => exact ⟨80, 20, 20, ⟨by simp [simulate, pumpStart], by simp [simulate, pumpStart], rfl⟩, by norm_num⟩
    | succ j ih =>
      obtain ⟨u, v, w, h1, h2⟩ := ih
      obtain ⟨u', v', w', h3, h4, _⟩ := step h1 h2
      refine ⟨u', v', w', ?_, h4⟩
      rw [List.replicate_succ', simulate_append]
      exact h3
  obtain ⟨u, v, w, h1, h2⟩ := all j
  obtain ⟨u', v', w', h3, h4, h5⟩ := step h1 h2
  refine ⟨u, v, w, h1, h2, u', v', w', ?_, h4, h5⟩
  rw [List.replicate_succ', simulate_append]
  exact h3

theorem pumpCircle_isRun {h : ℝ} (hh : 0 ≤ h) (j : ℕ) :
    Run (pumpCircle (1 / 2 : ℝ)) pumpStart (List.replicate j ([], h)) h (j * h) := by
  refine ⟨hh, ?_, ?_, by simp⟩
  · intro c hc
    rw [List.eq_of_mem_replicate hc]
    exact ⟨hh, le_rfl⟩
  · intro l₁ c l₂ e
    have hc : c ∈ List.replicate j (([] : List ℝ), h) := by rw [e]; simp
    have hl : l₁ = List.replicate l₁.length ([], h) := by
      refine List.eq_replicate_iff.2 ⟨rfl, fun b hb => List.eq_of_mem_replicate (n := j) (a := ([], h)) ?_⟩
      rw [e]
      exact List.mem_append_left _ hb
    rw [List.eq_of_mem_replicate hc, hl]
    obtain ⟨u, v, w, h1, _⟩ := pumpCircle_run h l₁.length
    refine pumpCircle_stable h ?_
    have := congrArg List.length h1.parts
    simpa using this

/-- **C129** (second order) is false of the code with a pump: no constant times the square of the step length bounds
the error. -/
theorem C129_fails_second_order : ¬ ∃ Δ₀ > 0, ∃ C, ∀ (l : List (List ℝ × ℝ)) (Δ t : ℝ),
    Run (pumpCircle (1 / 2 : ℝ)) pumpStart l Δ t → Δ ≤ Δ₀ → t ≤ 1 →
    ∃ x, (simulate (pumpCircle (1 / 2 : ℝ)) pumpStart l).parts.map PState.prev = List.ofFn x ∧
      ‖x - circleSolution t‖ ≤ C * Δ ^ 2 := by
  rintro ⟨Δ₀, hΔ₀, C, hC⟩
  obtain ⟨j, hj⟩ := exists_nat_gt (max (max (1 / Δ₀) (2 * |C|)) 2)
  rw [max_lt_iff, max_lt_iff] at hj
  obtain ⟨⟨j1, j2⟩, j3⟩ := hj
  set h : ℝ := 1 / (j + 1) with hh
  have hj0 : (0 : ℝ) < j + 1 := by positivity
  have hpos : 0 < h := by positivity
  have hjh : (j + 1) * h = 1 := by rw [hh, mul_one_div_cancel hj0.ne']
  have hΔ : h ≤ Δ₀ := by
    rw [hh, div_le_iff₀ hj0]
    rw [div_lt_iff₀ hΔ₀] at j1
    nlinarith
  have hCh : |C| * h < 1 / 2 := by nlinarith
  have hh3 : h < 1 / 3 := by nlinarith
  obtain ⟨u, v, w, a1, a2, u', v', w', b1, b2, b3⟩ := pumpCircle_run h j
  obtain ⟨x, x1, x2⟩ := hC _ _ _ (pumpCircle_isRun hpos.le j) hΔ (by nlinarith)
  obtain ⟨z, z1, z2⟩ := hC _ _ _ (pumpCircle_isRun hpos.le (j + 1)) hΔ (by push_cast; linarith)
  have ex : x = ![u, v] := List.ofFn_injective (x1.symm.trans a1.parts)
  have ez : z = ![u', v'] := List.ofFn_injective (z1.symm.trans b1.parts)
  subst ex ez
  have c0 := (norm_le_pi_norm (![u, v] - circleSolution (j * h)) 0).trans x2
  have c1 := (norm_le_pi_norm (![u, v] - circleSolution (j * h)) 1).trans x2
  have d0 := (norm_le_pi_norm (![u', v'] - circleSolution (↑(j + 1) * h)) 0).trans z2
  have d1 := (norm_le_pi_norm (![u', v'] - circleSolution (↑(j + 1) * h)) 1).trans z2
  simp only [Pi.sub_apply, circleSolution, Matrix.cons_val_zero, Matrix.cons_val_one, Real.norm_eq_abs, abs_le] at c0 c1 d0 d1
  have hC2 : C * h ^ 2 ≤ 1 / 2 * h := by
    have : C * h ≤ 1 / 2 := (mul_le_mul_of_nonneg_right (le_abs_self C) hpos.le).trans hCh.le
    calc C * h ^ 2 = C * h * h := by ring
      _ ≤ _ := mul_le_mul_of_nonneg_right this hpos.le
  -- the sum at the end
  have s1 : h / 4 * (w' - 20) ≤ h := by linarith [d0.1, d1.1]
  have s2 : w' - 20 ≤ 4 := by
    by_contra hcon
    push Not at hcon
    nlinarith
  -- what the pump hands on in the end
  have he : Real.exp (-(j * h)) ≤ 3 / 4 := by
    have h1 : (j : ℝ) * h = 1 - h := by linarith
    have h2 : -(j * h : ℝ) ≤ -(2 / 3) := by linarith
    refine (Real.exp_le_exp.2 h2).trans ?_
    rw [Real.exp_neg, inv_le_comm₀ (Real.exp_pos _) (by norm_num)]
    have := Real.add_one_le_exp (2 / 3 : ℝ)
    linarith
  have he0 := Real.exp_pos (-(j * h))
  have s3 : 20 + 15 / 2 - 1 / 2 * h ≤ v := by linarith [c1.1]
  have s4 : -h ≤ u - v := by linarith [c0.1, c1.2]
  have s5 : h * (1 / 2 * (u - v)) ≥ h * (1 / 2 * (-h)) := mul_le_mul_of_nonneg_left (by linarith) hpos.le
  nlinarith

end Verif.Attempt
