import Verif.Props.Converge
import Verif.Props.Compare
import Mathlib.Topology.MetricSpace.Contracting

/-!
# C130: a plant with heat losses approaches one steady state
-/

set_option linter.unusedSectionVars false

namespace Verif.Attempt

open Set

variable {X H N P : Type*} [NormedAddCommGroup X] [NormedSpace ℝ X] [NormedAddCommGroup N]
variable {sys : System ℝ X H N P} {n m : ℕ} {f : Fin n → P → X → X} {g : Fin m → P → N}
  {π : (Fin n → X) → (Fin m → N) → P} {c : Fin m → ℝ} {q h : ℝ}

/-- Specification: two states of the plant are at most `D` apart (parts that hand on: `c j * D`). -/
def Near (c : Fin m → ℝ) (D : ℝ) (y y' : Fin n → X) (w w' : Fin m → N) : Prop :=
  (∀ k, ‖y k - y' k‖ ≤ D) ∧ ∀ j, ‖w j - w' j‖ ≤ c j * D

/-- Specification: with step length `h`, differences become smaller in an explicit Euler step of the parts and when
temperatures are handed on, at least by the factor `q`. -/
def Contracts (f : Fin n → P → X → X) (g : Fin m → P → N) (π : (Fin n → X) → (Fin m → N) → P) (c : Fin m → ℝ)
    (q h : ℝ) : Prop :=
  ∀ y y' w w' D, 0 ≤ D → Near c D y y' w w' →
    Near c (q * D) (fun k => y k + h • f k (π y w) (y k)) (fun k => y' k + h • f k (π y' w') (y' k))
      (fun j => g j (π y w)) (fun j => g j (π y' w'))

/-- Specification: nothing changes any more. -/
def Steady (f : Fin n → P → X → X) (g : Fin m → P → N) (π : (Fin n → X) → (Fin m → N) → P) (y : Fin n → X)
    (w : Fin m → N) : Prop := (∀ k, f k (π y w) (y k) = 0) ∧ ∀ j, g j (π y w) = w j

/-- One step from two states. -/
theorem step_near (hq0 : 0 ≤ q) (hq1 : q ≤ 1) (hc : ∀ j, 0 ≤ c j) (hk : Contracts f g π c q h) {D : ℝ} (hD : 0 ≤ D)
    {y y' : Fin n → X} {w w' : Fin m → N} (hn : Near c D y y' w w') :
    Near c ((1 + q ^ 2) / 2 * D)
      (y + (h / 2) • ((fun k => f k (π y w) (y k)) + fun k => f k (π (y + h • fun k => f k (π y w) (y k)) fun j =>
        g j (π y w)) ((y + h • fun k => f k (π y w) (y k)) k)))
      (y' + (h / 2) • ((fun k => f k (π y' w') (y' k)) + fun k => f k (π (y' + h • fun k => f k (π y' w') (y' k)) fun j =>
        g j (π y' w')) ((y' + h • fun k => f k (π y' w') (y' k)) k)))
      (fun j => g j (π (y + h • fun k => f k (π y w) (y k)) fun j => g j (π y w)))
      (fun j => g j (π (y' + h • fun k => f k (π y' w') (y' k)) fun j => g j (π y' w'))) := by
  have h1 := hk _ _ _ _ D hD hn
  have h2 := hk _ _ _ _ (q * D) (by positivity) h1
  constructor
  · intro k
    have a := hn.1 k
    have b := h2.1 k
    simp only at b
    set A := f k (π y w) (y k)
    set A' := f k (π y' w') (y' k)
    have e : ∀ (u : X) (a b : X), u + (h / 2) • (a + b) = (1 / 2 : ℝ) • (u + (u + h • a + h • b)) := by
      intro u a b; module
    simp only [Pi.add_apply, Pi.smul_apply]
    rw [e, e, ← smul_sub, norm_smul, Real.norm_eq_abs, abs_of_pos (by norm_num : (0 : ℝ) < 1 / 2), add_sub_add_comm]
    refine (mul_le_mul_of_nonneg_left ((norm_add_le _ _).trans (add_le_add a b)) (by norm_num)).trans (le_of_eq ?_)
    ring
  · intro j
    refine (h2.2 j).trans (mul_le_mul_of_nonneg_left ?_ (hc j))
    have : q ^ 2 ≤ 1 := pow_le_one₀ hq0 hq1
    nlinarith

theorem call_near (hs : Consists sys f g π) (hq0 : 0 ≤ q) (hq1 : q ≤ 1) (hc : ∀ j, 0 ≤ c j) {D : ℝ} (hD : 0 ≤ D)
    {s s' : State X H N P} {y y' : Fin n → X} {w w' : Fin m → N} (hk : Contracts f g π c q h) (ha : At π s y w)
    (ha' : At π s' y' w') (hn : Near c D y y' w w') {r r' : List ℝ} (hst : (call sys s r h).stable = true)
    (hst' : (call sys s' r' h).stable = true) : ∃ z z' v v', At π (advance (call sys s r h)) z v ∧
      At π (advance (call sys s' r' h)) z' v' ∧ Near c ((1 + q ^ 2) / 2 * D) z z' v v' :=
  ⟨_, _, _, _, call_at hs ha hst, call_at hs ha' hst', step_near hq0 hq1 hc hk hD hn⟩

/-- A steady state stays. -/
theorem steady_step {y : Fin n → X} {w : Fin m → N} (hst : Steady f g π y w) (h : ℝ) :
    (y + (h / 2) • ((fun k => f k (π y w) (y k)) + fun k => f k (π (y + h • fun k => f k (π y w) (y k)) fun j =>
        g j (π y w)) ((y + h • fun k => f k (π y w) (y k)) k))) = y ∧
      (fun j => g j (π (y + h • fun k => f k (π y w) (y k)) fun j => g j (π y w))) = w := by
  have e1 : (fun k => f k (π y w) (y k)) = 0 := funext hst.1
  have e2 : (fun j => g j (π y w)) = w := funext hst.2
  have e3 : y + h • (fun k => f k (π y w) (y k)) = y := by rw [e1]; simp
  rw [e3, e2, e1]
  exact ⟨by simp, e2⟩

/-- **C130**, partial: with constant conditions the differences between a simulation and the steady state become
smaller in every step by the factor `(1 + q ^ 2) / 2`, whatever steps are taken or rejected.  Missing: changing flows,
control and boundary values, coefficients that depend on temperature. -/
theorem C130_approaches_partial (hs : Consists sys f g π) (hq0 : 0 ≤ q) (hq1 : q ≤ 1) (hc : ∀ j, 0 ≤ c j)
    {ys : Fin n → X} {ws : Fin m → N} (hst : Steady f g π ys ws) (l : List (List ℝ × ℝ)) {s : State X H N P}
    {y : Fin n → X} {w : Fin m → N} {D : ℝ} (ha : At π s y w) (hD : 0 ≤ D) (hn : Near c D y ys w ws)
    (hk : ∀ r ∈ l, Contracts f g π c q r.2) (hstab : ∀ (l₁ : List (List ℝ × ℝ)) r l₂, l = l₁ ++ r :: l₂ →
      (call sys (simulate sys s l₁) r.1 r.2).stable = true) :
    ∃ z v, At π (simulate sys s l) z v ∧ Near c (((1 + q ^ 2) / 2) ^ l.length * D) z ys v ws := by
  induction l generalizing s y w D with
  | nil => exact ⟨y, w, ha, by simpa using hn⟩
  | cons r l ih =>
    have h1 := call_at hs ha (hstab [] r l rfl)
    have h2 := step_near hq0 hq1 hc (hk r List.mem_cons_self) hD hn
    rw [(steady_step hst r.2).1, (steady_step hst r.2).2] at h2
    obtain ⟨z, v, h3, h4⟩ := ih h1 (by positivity) h2 (fun r' hr' => hk r' (List.mem_cons_of_mem _ hr'))
      (fun l₁ r' l₂ e => hstab (r :: l₁) r' l₂ (by rw [e]; rfl))
    refine ⟨z, v, h3, ?_⟩
    rwa [List.length_cons, pow_succ, mul_assoc]

/-- **C130**, partial: the influence of the beginning fades: two simulations with the same steps approach each other
by the same factor. -/
theorem C130_forgets_partial (hs : Consists sys f g π) (hq0 : 0 ≤ q) (hq1 : q ≤ 1) (hc : ∀ j, 0 ≤ c j)
    (l : List ℝ) {s s' : State X H N P} {y y' : Fin n → X} {w w' : Fin m → N} {D : ℝ} (ha : At π s y w)
    (ha' : At π s' y' w') (hD : 0 ≤ D) (hn : Near c D y y' w w') (hk : ∀ h ∈ l, Contracts f g π c q h)
    (hstab : ∀ l₁ h l₂, l = l₁ ++ h :: l₂ → (call sys (simulate sys s (l₁.map fun h => ([], h))) [] h).stable = true ∧
      (call sys (simulate sys s' (l₁.map fun h => ([], h))) [] h).stable = true) :
    ∃ z z' v v', At π (simulate sys s (l.map fun h => ([], h))) z v ∧
      At π (simulate sys s' (l.map fun h => ([], h))) z' v' ∧
      Near c (((1 + q ^ 2) / 2) ^ l.length * D) z z' v v' := by
  induction l generalizing s s' y y' w w' D with
  | nil => exact ⟨y, y', w, w', ha, ha', by simpa using hn⟩
  | cons a l ih =>
    obtain ⟨t1, t2⟩ := hstab [] a l rfl
    obtain ⟨z, z', v, v', h1, h2, h3⟩ := call_near hs hq0 hq1 hc hD (hk a List.mem_cons_self) ha ha' hn t1 t2
    obtain ⟨x, x', u, u', h4, h5, h6⟩ := ih h1 h2 (by positivity) h3 (fun r' hr' => hk r' (List.mem_cons_of_mem _ hr'))
      (fun l₁ r' l₂ e => hstab (a :: l₁) r' l₂ (by rw [e]; rfl))
    refine ⟨x, x', u, u', h4, h5, ?_⟩
    rwa [List.length_cons, pow_succ, mul_assoc]

theorem near_zero {y y' : Fin n → X} {w w' : Fin m → N} (hn : Near c 0 y y' w w') : y = y' ∧ w = w' := by
  constructor
  · ext k
    have := hn.1 k
    exact sub_eq_zero.1 (norm_le_zero_iff.1 this)
  · ext j
    have := hn.2 j
    rw [mul_zero] at this
    exact sub_eq_zero.1 (norm_le_zero_iff.1 this)

theorem near_exists (hc : ∀ j, 0 < c j) (y y' : Fin n → X) (w w' : Fin m → N) : ∃ D, 0 ≤ D ∧ Near c D y y' w w' := by
  refine ⟨‖y - y'‖ + ∑ j, ‖w j - w' j‖ / c j, ?_, ?_, ?_⟩
  · exact add_nonneg (norm_nonneg _) (Finset.sum_nonneg fun j _ => div_nonneg (norm_nonneg _) (hc j).le)
  · intro k
    have h1 := norm_le_pi_norm (y - y') k
    have h2 : 0 ≤ ∑ j, ‖w j - w' j‖ / c j := Finset.sum_nonneg fun j _ => div_nonneg (norm_nonneg _) (hc j).le
    rw [Pi.sub_apply] at h1
    linarith
  · intro j
    have h1 : ‖w j - w' j‖ / c j ≤ ∑ j, ‖w j - w' j‖ / c j :=
      Finset.single_le_sum (f := fun j => ‖w j - w' j‖ / c j) (fun j _ => div_nonneg (norm_nonneg _) (hc j).le)
        (Finset.mem_univ j)
    rw [div_le_iff₀ (hc j)] at h1
    have h2 := mul_nonneg (hc j).le (norm_nonneg (y - y'))
    nlinarith

/-- **C130** (one steady state), partial: if differences become smaller with some step length, the plant has exactly one
steady state. -/
theorem C130_unique_partial [CompleteSpace X] [CompleteSpace N] [NormedSpace ℝ N] (hq0 : 0 ≤ q) (hq1 : q < 1)
    (hh : h ≠ 0) (hc : ∀ j, 0 < c j) (hk : Contracts f g π c q h) :
    ∃! z : (Fin n → X) × (Fin m → N), Steady f g π z.1 z.2 := by
  have uniq : ∀ z z' : (Fin n → X) × (Fin m → N), Steady f g π z.1 z.2 → Steady f g π z'.1 z'.2 → z = z' := by
    intro z z' hz hz'
    obtain ⟨D, hD, hn⟩ := near_exists hc z.1 z'.1 z.2 z'.2
    -- the distance is at most `q ^ i * D` for every `i`
    have all : ∀ i : ℕ, Near c (q ^ i * D) z.1 z'.1 z.2 z'.2 := by
      intro i
      induction i with
      | zero => simpa using hn
      | succ i ih =>
        have := hk _ _ _ _ _ (by positivity) ih
        have e1 : (fun k => z.1 k + h • f k (π z.1 z.2) (z.1 k)) = z.1 := funext fun k => by rw [hz.1]; simp
        have e2 : (fun k => z'.1 k + h • f k (π z'.1 z'.2) (z'.1 k)) = z'.1 := funext fun k => by rw [hz'.1]; simp
        rw [e1, e2, funext hz.2, funext hz'.2] at this
        rwa [pow_succ', mul_assoc]
    have lim : Filter.Tendsto (fun i : ℕ => q ^ i * D) Filter.atTop (nhds (0 * D)) :=
      (tendsto_pow_atTop_nhds_zero_of_lt_one hq0 hq1).mul_const D
    rw [zero_mul] at lim
    have h0 : Near c 0 z.1 z'.1 z.2 z'.2 := by
      constructor
      · intro k
        exact ge_of_tendsto' lim fun i => (all i).1 k
      · intro j
        exact ge_of_tendsto' (lim.const_mul (c j)) fun i => (all i).2 j
    obtain ⟨e1, e2⟩ := near_zero h0
    exact Prod.ext e1 e2
  -- the contraction, with the states of the parts that hand on scaled
  let Φ : (Fin n → X) × (Fin m → N) → (Fin n → X) × (Fin m → N) := fun z =>
    (fun k => z.1 k + h • f k (π z.1 fun j => c j • z.2 j) (z.1 k), fun j => (c j)⁻¹ • g j (π z.1 fun j => c j • z.2 j))
  have hΦ : ContractingWith ⟨q, hq0⟩ Φ := by
    refine ⟨by exact_mod_cast hq1, LipschitzWith.of_dist_le_mul ?_⟩
    intro z z'
    rw [dist_eq_norm, dist_eq_norm]
    have hn : Near c ‖z - z'‖ z.1 z'.1 (fun j => c j • z.2 j) (fun j => c j • z'.2 j) := by
      constructor
      · intro k
        exact (norm_le_pi_norm (z.1 - z'.1) k).trans (norm_fst_le (z - z'))
      · intro j
        rw [← smul_sub, norm_smul, Real.norm_eq_abs, abs_of_pos (hc j)]
        exact mul_le_mul_of_nonneg_left ((norm_le_pi_norm (z.2 - z'.2) j).trans (norm_snd_le (z - z'))) (hc j).le
    have := hk _ _ _ _ _ (norm_nonneg _) hn
    have hb : 0 ≤ q * ‖z - z'‖ := by positivity
    show ‖Φ z - Φ z'‖ ≤ q * ‖z - z'‖
    rw [Prod.norm_def, max_le_iff]
    constructor
    · exact (pi_norm_le_iff_of_nonneg hb).2 fun k => this.1 k
    · refine (pi_norm_le_iff_of_nonneg hb).2 fun j => ?_
      have h2 := this.2 j
      show ‖(c j)⁻¹ • g j _ - (c j)⁻¹ • g j _‖ ≤ _
      rw [← smul_sub, norm_smul, Real.norm_eq_abs, abs_of_pos (inv_pos.2 (hc j)), inv_mul_le_iff₀ (hc j)]
      exact h2
  have hfix := hΦ.fixedPoint_isFixedPt
  set z := ContractingWith.fixedPoint Φ hΦ with hz
  have hsteady : Steady f g π z.1 fun j => c j • z.2 j := by
    constructor
    · intro k
      have h1 := congrFun (congrArg Prod.fst hfix) k
      have h2 : h • f k (π z.1 fun j => c j • z.2 j) (z.1 k) = 0 := by simpa [Φ] using h1
      exact (smul_eq_zero.1 h2).resolve_left hh
    · intro j
      have h1 := congrFun (congrArg Prod.snd hfix) j
      show g j (π z.1 fun j => c j • z.2 j) = c j • z.2 j
      conv_rhs => rw [← h1]
      show _ = c j • ((c j)⁻¹ • g j _)
      rw [smul_smul, mul_inv_cancel₀ (hc j).ne', one_smul]
  exact ⟨(z.1, fun j => c j • z.2 j), hsteady, fun z' hz' => uniq _ _ hz' hsteady⟩

end Verif.Attempt

namespace Verif.Cells

variable {K : Type*} [Field K] [LinearOrder K] [IsStrictOrderedRing K] {c r l : K} {g : Geo K} {s s' : Inp K}

/-- The same part in warmer air. -/
def warmer (s : Inp K) (d : K) : Inp K := { s with Tamb := s.Tamb + d }

/-- Everything through which a cell loses heat to the ambient. -/
def lossConductance (g : Geo K) (s : Inp K) (k : ℕ) : K :=
  s.uaAmb k + (if k = 0 then s.lidTop else 0) + (if k + 1 = g.n then s.lidBot else 0)

theorem dTcond_warmer (mat : Mat K) (d : K) (ps : List (Port K)) {k : ℕ} :
    dTcond mat g (warmer s d) ps k = dTcond mat g s ps k + lossConductance g s k * d / mcp mat g s k := by
  have e : ∀ j, tExt g (warmer s d) j = tExt g s j := fun _ => rfl
  have e2 : ∀ j, uaTb mat g (warmer s d) j = uaTb mat g s j := fun _ => rfl
  have e3 : ∀ j, mcp mat g (warmer s d) j = mcp mat g s j := fun _ => rfl
  unfold dTcond
  rw [addAt_eq, addAt_eq]
  have e4 : (ps.map fun p => (p.idx, uaPort mat g (warmer s d) p * (p.T - (warmer s d).T p.idx) /
      mcp mat g (warmer s d) p.idx)) = ps.map fun p => (p.idx, uaPort mat g s p * (p.T - s.T p.idx) / mcp mat g s p.idx) :=
    rfl
  rw [e4]
  simp only [e, e2, e3]
  have a1 : (warmer s d).uaAmb = s.uaAmb := rfl
  have a2 : (warmer s d).lidTop = s.lidTop := rfl
  have a3 : (warmer s d).lidBot = s.lidBot := rfl
  have a4 : (warmer s d).Tamb = s.Tamb + d := rfl
  rw [a1, a2, a3, a4]
  unfold lossConductance
  by_cases h0 : k = 0
  · subst h0
    by_cases h1 : 0 + 1 = g.n
    · rw [← h1]
      simp
      ring
    · simp only [if_true, if_neg h1]
      ring
  · by_cases h1 : k + 1 = g.n
    · have : g.n - 1 = k := by omega
      simp only [if_neg h0, if_pos h1, this]
      ring
    · simp only [if_neg h0, if_neg h1]
      ring

theorem storageDT_warmer (mat : Mat K) (d : K) (ps : List (Port K)) {k : ℕ} :
    storageDT mat g (warmer s d) ps k = storageDT mat g s ps k + lossConductance g s k * d / mcp mat g s k := by
  unfold storageDT
  simp only [dTcond_warmer]
  have : ∀ top bot fl, dTadv mat g (warmer s d) top bot ps fl k = dTadv mat g s top bot ps fl k := fun _ _ _ => rfl
  rw [this]
  ring

theorem pipeDT_warmer (mat : Mat K) (d io : K) (pin pout : Port K) {k : ℕ} :
    pipeDT mat g (warmer s d) io pin pout k = pipeDT mat g s io pin pout k + lossConductance g s k * d / mcp mat g s k := by
  unfold pipeDT
  simp only [dTcond_warmer]
  have : ∀ top bot ps fl, dTadv mat g (warmer s d) top bot ps fl k = dTadv mat g s top bot ps fl k :=
    fun _ _ _ _ => rfl
  rw [this]
  ring

/-- **C130**, partial (storages and branched pipes): if the temperatures in the part and at its ports differ by at most
`D` in two cases, and every cell loses at least the fraction `μ` of its heat per second to the ambient, then the
temperatures after an explicit Euler step differ by at most `(1 - h μ) D`, under the conditions of C112. -/
theorem C130_storage_partial (hc : 0 ≤ c) {ps : List (Port K × Port K)} {D h μ : K} (hn : 2 ≤ g.n) (hD : 0 ≤ D)
    (hsame : SameInp s s') (hamb : s'.Tamb = s.Tamb) (hps : ∀ q ∈ ps, SamePort q.1 q.2)
    (hph : Physical (constMat c r l) g s (ps.map Prod.fst))
    (hcells : ∀ k < g.n, |s'.T k - s.T k| ≤ D) (hports : ∀ q ∈ ps, |q.2.T - q.1.T| ≤ D)
    (hsort : ((ps.map Prod.fst).map (·.idx)).Pairwise (· ≤ ·)) (hp : ∀ p ∈ ps.map Prod.fst, p.idx < g.n)
    (hb : ((ps.map Prod.fst).map (·.io)).sum = 0) (hh : 0 ≤ h)
    (hs : ∀ k < g.n,
      let f := Flows.processVar g.n ((ps.map Prod.fst).map (·.idx)) ((ps.map Prod.fst).map (·.io))
      h * (totalConductance (constMat c r l) g s (ps.map Prod.fst) k +
          c * (f.top k + f.bot k + inflowThroughPorts (ps.map Prod.fst) k)) ≤ heatCapacity (constMat c r l) g s k)
    (hμ : ∀ k < g.n, μ * heatCapacity (constMat c r l) g s k ≤ lossConductance g s k) :
    ∀ k < g.n, |(s'.T k + h * storageDT (constMat c r l) g s' (ps.map Prod.snd) k) -
      (s.T k + h * storageDT (constMat c r l) g s (ps.map Prod.fst) k)| ≤ (1 - h * μ) * D := by
  intro k hk
  have side : ∀ d, -D ≤ d → d ≤ D → _ := fun d hd1 hd2 =>
    C112_storage_partial (s := s) (s' := warmer s' d) (ps := ps) (a := -D) (b := D) (h := h) hc hn
      ⟨hsame.uaAmb, hsame.lidTop, hsame.lidBot, hsame.buoy⟩ hps hph
      ⟨fun k hk => abs_le.1 (hcells k hk), by
        show -D ≤ s'.Tamb + d - s.Tamb ∧ s'.Tamb + d - s.Tamb ≤ D
        rw [hamb, add_sub_cancel_left]
        exact ⟨hd1, hd2⟩, fun q hq => abs_le.1 (hports q hq)⟩ hsort hp hb hh hs k hk
  have h1 := side D (by linarith) le_rfl
  have h2 := side (-D) le_rfl (by linarith)
  rw [storageDT_warmer] at h1 h2
  have e1 : ∀ d, (warmer s' d).T k = s'.T k := fun _ => rfl
  have e2 : lossConductance g s' k = lossConductance g s k := by
    unfold lossConductance
    rw [hsame.uaAmb, hsame.lidTop, hsame.lidBot]
  rw [e1, e2, mcp_const s s'] at h1 h2
  have hcap : 0 < mcp (constMat c r l) g s k := by rw [mcp_eq]; exact hph.cap k hk
  have hu : μ ≤ lossConductance g s k / mcp (constMat c r l) g s k := (le_div_iff₀ hcap).2 (by rw [mcp_eq]; exact hμ k hk)
  have h3 : h * μ * D ≤ h * (lossConductance g s k * D / mcp (constMat c r l) g s k) := by
    rw [mul_assoc]
    refine mul_le_mul_of_nonneg_left ?_ hh
    rw [mul_div_right_comm]
    exact mul_le_mul_of_nonneg_right hu hD
  rw [mul_neg, neg_div] at h2
  rw [abs_le]
  constructor
  · linarith [h2.1]
  · linarith [h1.2]

/-- **C130**, partial (pipes): the same for a pipe. -/
theorem C130_pipe_partial (hc : 0 ≤ c) {pin pout pin' pout' : Port K} {io D h μ : K} (hn : 2 ≤ g.n) (hD : 0 ≤ D)
    (hsame : SameInp s s') (hamb : s'.Tamb = s.Tamb) (hp1 : SamePort pin pin') (hp2 : SamePort pout pout')
    (hph : Physical (constMat c r l) g s [pin, pout])
    (hcells : ∀ k < g.n, |s'.T k - s.T k| ≤ D) (hpin : |pin'.T - pin.T| ≤ D) (hpout : |pout'.T - pout.T| ≤ D)
    (h1 : pin.idx = 0) (h2 : pout.idx = g.n - 1) (h3 : pin.io = io) (h4 : pout.io = -io) (hh : 0 ≤ h)
    (hs : ∀ k < g.n, h * (totalConductance (constMat c r l) g s [pin, pout] k + c * |io|) ≤
      heatCapacity (constMat c r l) g s k)
    (hμ : ∀ k < g.n, μ * heatCapacity (constMat c r l) g s k ≤ lossConductance g s k) :
    ∀ k < g.n, |(s'.T k + h * pipeDT (constMat c r l) g s' io pin' pout' k) -
      (s.T k + h * pipeDT (constMat c r l) g s io pin pout k)| ≤ (1 - h * μ) * D := by
  intro k hk
  have side : ∀ d, -D ≤ d → d ≤ D → _ := fun d hd1 hd2 =>
    C112_pipe_partial (s := s) (s' := warmer s' d) (a := -D) (b := D) (h := h) (io := io) hc hn
      ⟨hsame.uaAmb, hsame.lidTop, hsame.lidBot, hsame.buoy⟩ hp1 hp2 hph
      ⟨fun k hk => abs_le.1 (hcells k hk), by
        show -D ≤ s'.Tamb + d - s.Tamb ∧ s'.Tamb + d - s.Tamb ≤ D
        rw [hamb, add_sub_cancel_left]
        exact ⟨hd1, hd2⟩, by simpa using ⟨by simpa using abs_le.1 hpin, by simpa using abs_le.1 hpout⟩⟩
      h1 h2 h3 h4 hh hs k hk
  have h1 := side D (by linarith) le_rfl
  have h2 := side (-D) le_rfl (by linarith)
  rw [pipeDT_warmer] at h1 h2
  have e1 : ∀ d, (warmer s' d).T k = s'.T k := fun _ => rfl
  have e2 : lossConductance g s' k = lossConductance g s k := by
    unfold lossConductance
    rw [hsame.uaAmb, hsame.lidTop, hsame.lidBot]
  rw [e1, e2, mcp_const s s'] at h1 h2
  have hcap : 0 < mcp (constMat c r l) g s k := by rw [mcp_eq]; exact hph.cap k hk
  have hu : μ ≤ lossConductance g s k / mcp (constMat c r l) g s k := (le_div_iff₀ hcap).2 (by rw [mcp_eq]; exact hμ k hk)
  have h3 : h * μ * D ≤ h * (lossConductance g s k * D / mcp (constMat c r l) g s k) := by
    rw [mul_assoc]
    refine mul_le_mul_of_nonneg_left ?_ hh
    rw [mul_div_right_comm]
    exact mul_le_mul_of_nonneg_right hu hD
  rw [mul_neg, neg_div] at h2
  rw [abs_le]
  constructor
  · linarith [h2.1]
  · linarith [h1.2]

/-- A pipe of three cells, each of which loses half of its heat per second to the ambient. -/
def coolingPipe (T : ℕ → ℚ) : Inp ℚ := ⟨T, 0, 0, 20, fun _ => 1 / 2, 0, 0, fun _ => 1⟩

/-- The pipe with inflow of 80 or 75 degrees meets the hypotheses: in a tenth of a second differences of up to 5 degrees
shrink to 4.75 degrees. -/
example (x x' : ℕ → ℚ) (hx : ∀ k < 3, |x' k - x k| ≤ 5) : ∀ k < 3,
    |(x' k + 1 / 10 * pipeDT (constMat 1 1 1) ⟨3, 1, 1, 1, 0, 0⟩ (coolingPipe x') 2 ⟨0, 80, 1, 1, 0, 2⟩ ⟨2, 0, 1, 1, 0, -2⟩ k) -
      (x k + 1 / 10 * pipeDT (constMat 1 1 1) ⟨3, 1, 1, 1, 0, 0⟩ (coolingPipe x) 2 ⟨0, 75, 1, 1, 0, 2⟩
        ⟨2, 0, 1, 1, 0, -2⟩ k)| ≤ 19 / 4 := by
  intro k hk
  refine (C130_pipe_partial (s := coolingPipe x) (s' := coolingPipe x') (c := 1) (r := 1) (l := 1)
    (g := ⟨3, 1, 1, 1, 0, 0⟩) (io := 2) (D := 5) (h := 1 / 10) (μ := 1 / 2) (by norm_num) (by norm_num) (by norm_num)
    ⟨rfl, rfl, rfl, rfl⟩ rfl (pin := ⟨0, 75, 1, 1, 0, 2⟩) (pin' := ⟨0, 80, 1, 1, 0, 2⟩) (pout := ⟨2, 0, 1, 1, 0, -2⟩)
    (pout' := ⟨2, 0, 1, 1, 0, -2⟩) ⟨rfl, rfl, rfl, rfl, rfl⟩ ⟨rfl, rfl, rfl, rfl, rfl⟩
    ⟨fun _ => by norm_num [constMat], by norm_num, by norm_num, by norm_num, fun _ => by norm_num [coolingPipe],
      fun _ => by norm_num [coolingPipe], by norm_num [coolingPipe], by norm_num [coolingPipe], by simp [constMat],
      fun _ _ => by norm_num [heatCapacity, constMat]⟩
    hx (by norm_num) (by norm_num) rfl rfl rfl rfl (by norm_num) ?_ ?_ k hk).trans (by norm_num)
  · intro k hk
    have e : totalConductance (constMat 1 1 1) ⟨3, 1, 1, 1, 0, 0⟩ (coolingPipe x)
        [⟨0, 75, 1, 1, 0, 2⟩, ⟨2, 0, 1, 1, 0, -2⟩] k = 5 / 2 := by
      have : k < 3 := hk
      interval_cases k <;>
        norm_num [totalConductance, coolingPipe, faceConductance, portConductance, constMat]
    rw [e]
    norm_num [heatCapacity, constMat]
  · intro k _
    norm_num [heatCapacity, constMat, lossConductance, coolingPipe]

/-- The same vessel as a storage that is charged in its first cell and discharged in its last one. -/
example (x x' : ℕ → ℚ) (hx : ∀ k < 3, |x' k - x k| ≤ 5) : ∀ k < 3,
    |(x' k + 1 / 10 * storageDT (constMat 1 1 1) ⟨3, 1, 1, 1, 0, 0⟩ (coolingPipe x')
        [⟨0, 80, 1, 1, 0, 2⟩, ⟨2, 0, 1, 1, 0, -2⟩] k) -
      (x k + 1 / 10 * storageDT (constMat 1 1 1) ⟨3, 1, 1, 1, 0, 0⟩ (coolingPipe x)
        [⟨0, 75, 1, 1, 0, 2⟩, ⟨2, 0, 1, 1, 0, -2⟩] k)| ≤ 19 / 4 := by
  intro k hk
  refine (C130_storage_partial (s := coolingPipe x) (s' := coolingPipe x') (c := 1) (r := 1) (l := 1)
    (g := ⟨3, 1, 1, 1, 0, 0⟩) (D := 5) (h := 1 / 10) (μ := 1 / 2) (by norm_num) (by norm_num) (by norm_num)
    (ps := [(⟨0, 75, 1, 1, 0, 2⟩, ⟨0, 80, 1, 1, 0, 2⟩), (⟨2, 0, 1, 1, 0, -2⟩, ⟨2, 0, 1, 1, 0, -2⟩)])
    ⟨rfl, rfl, rfl, rfl⟩ rfl (by simp; exact ⟨⟨rfl, rfl, rfl, rfl, rfl⟩, ⟨rfl, rfl, rfl, rfl, rfl⟩⟩)
    ⟨fun _ => by norm_num [constMat], by norm_num, by norm_num, by norm_num, fun _ => by norm_num [coolingPipe],
      fun _ => by norm_num [coolingPipe], by norm_num [coolingPipe], by norm_num [coolingPipe], by simp [constMat],
      fun _ _ => by norm_num [heatCapacity, constMat]⟩
    hx (by simp; norm_num) (by simp) (by simp) (by simp) (by norm_num) ?_ ?_ k hk).trans (by norm_num)
  · intro k hk
    have e : totalConductance (constMat 1 1 1) ⟨3, 1, 1, 1, 0, 0⟩ (coolingPipe x)
        [⟨0, 75, 1, 1, 0, 2⟩, ⟨2, 0, 1, 1, 0, -2⟩] k = 5 / 2 := by
      have : k < 3 := hk
      interval_cases k <;>
        norm_num [totalConductance, coolingPipe, faceConductance, portConductance, constMat]
    simp only [List.map_cons, List.map_nil]
    rw [e]
    have : k < 3 := hk
    have e' : heatCapacity (constMat 1 1 1) ⟨3, 1, 1, 1, 0, 0⟩ (coolingPipe x) k = (1 : ℚ) := by
      norm_num [heatCapacity, constMat]
    rw [e']
    interval_cases k <;> decide +kernel
  · intro k _
    norm_num [heatCapacity, constMat, lossConductance, coolingPipe]

end Verif.Cells

namespace Verif.Attempt

/-! ## Two pipes with losses in a circle, with a pump -/

/-- The circle with a pump, in air of 20 degrees. -/
noncomputable def coolingCircle : System ℝ ℝ Unit ℝ (ℝ × ℝ × ℝ) where
  diffs := [fun _ p x _ => ⟨1 / 2 * (p.2.2 - x) + 1 / 2 * (20 - x), (), true⟩,
    fun _ p x _ => ⟨1 / 2 * (p.1 - x) + 1 / 2 * (20 - x), (), true⟩]
  solves := [fun _ p _ => p.2.1]
  interm := fun ts ns _ => (ts.getD 0 0, ts.getD 1 0, ns.getD 0 0)
  result := fun ts ns _ => (ts.getD 0 0, ts.getD 1 0, ns.getD 0 0)

/-- Its differential equations. -/
noncomputable def coolingRhs (k : Fin 2) (p : ℝ × ℝ × ℝ) (x : ℝ) : ℝ :=
  if k = 0 then 1 / 2 * (p.2.2 - x) + 1 / 2 * (20 - x) else 1 / 2 * (p.1 - x) + 1 / 2 * (20 - x)

theorem coolingCircle_consists : Consists coolingCircle (n := 2) (m := 1) coolingRhs (fun _ p => p.2.1)
    (fun y w => (y 0, y 1, w 0)) := by
  refine ⟨?_, ?_, fun _ _ _ _ => rfl, fun _ _ _ _ => rfl⟩
  · intro k
    match k with
    | 0 => exact ⟨_, rfl, fun _ _ _ _ => rfl⟩
    | 1 => exact ⟨_, rfl, fun _ _ _ _ => rfl⟩
  · intro j
    match j with
    | 0 => exact ⟨_, rfl, fun _ _ _ => rfl⟩

theorem coolingCircle_contracts {h : ℝ} (h1 : 1 / 2 ≤ h) (h2 : h ≤ 1) :
    Contracts (n := 2) (m := 1) (N := ℝ) coolingRhs (fun _ p => p.2.1) (fun y w => (y 0, y 1, w 0))
      (fun _ => 3 / 2) (7 / 8) h := by
  intro y y' w w' D hD hn
  have a0 := abs_le.1 (hn.1 0)
  have a1 := abs_le.1 (hn.1 1)
  have b0 := abs_le.1 (hn.2 0)
  have key : ∀ a b : ℝ, |a| ≤ D → |b| ≤ 3 / 2 * D → |(1 - h) * a + h / 2 * b| ≤ 7 / 8 * D := by
    intro a b ha hb
    rw [abs_le] at ha hb ⊢
    constructor <;> nlinarith
  constructor
  · intro k
    match k with
    | 0 =>
      have := key (y 0 - y' 0) (w 0 - w' 0) (hn.1 0) (hn.2 0)
      rw [Real.norm_eq_abs]
      convert this using 2
      simp [coolingRhs]
      ring
    | 1 =>
      have := key (y 1 - y' 1) (y 0 - y' 0) (hn.1 1) ((hn.1 0).trans (by linarith))
      rw [Real.norm_eq_abs]
      convert this using 2
      simp [coolingRhs]
      ring
  · intro j
    have := hn.1 1
    simp only
    linarith

theorem coolingCircle_length (l : List (List ℝ × ℝ)) : ∀ s : State ℝ Unit ℝ (ℝ × ℝ × ℝ), s.parts.length = 2 →
    (simulate coolingCircle s l).parts.length = 2 := by
  induction l with
  | nil => intro s hs; exact hs
  | cons r l ih =>
    intro s hs
    refine ih _ ?_
    have := congrArg List.length (attempt_prev coolingCircle r.2
      (r.1.foldl (fun st h' => rejected coolingCircle s.ports h' st) s))
    have key : ∀ (l : List ℝ) (t : State ℝ Unit ℝ (ℝ × ℝ × ℝ)), t.parts.length = 2 →
        (l.foldl (fun st h' => rejected coolingCircle s.ports h' st) t).parts.length = 2 := by
      intro l
      induction l with
      | nil => intro t ht; exact ht
      | cons a l ih' =>
        intro t ht
        refine ih' _ ?_
        have := congrArg List.length (attempt_prev coolingCircle a t)
        simp only [List.length_map] at this
        show (attempt coolingCircle a t).parts.length = 2
        rw [this, ht]
    simp only [List.length_map] at this
    simp only [advance, List.length_map, call]
    rw [this, key _ _ hs]

theorem coolingCircle_stable (h : ℝ) {s : State ℝ Unit ℝ (ℝ × ℝ × ℝ)} (hs : s.parts.length = 2) :
    (call coolingCircle s [] h).stable = true := by
  obtain ⟨parts, nn, p, st⟩ := s
  match parts, hs with
  | [a, b], _ => rfl

/-- The hypotheses are met: the circle has exactly one steady state. -/
example : ∃! z : (Fin 2 → ℝ) × (Fin 1 → ℝ), Steady coolingRhs (fun _ p => p.2.1) (fun y w => (y 0, y 1, w 0)) z.1 z.2 :=
  C130_unique_partial (by norm_num) (by norm_num) (by norm_num) (fun _ => by norm_num)
    (coolingCircle_contracts (h := 1) (by norm_num) le_rfl)

/-- From 80 and 20 degrees it cools down to 20 degrees by at least the factor 113 / 128 in each step. -/
example (l : List ℝ) (hl : ∀ h ∈ l, 1 / 2 ≤ h ∧ h ≤ 1) : ∃ z v, At (fun (y : Fin 2 → ℝ) (w : Fin 1 → ℝ) =>
    (y 0, y 1, w 0)) (simulate coolingCircle pumpStart (l.map fun h => ([], h))) z v ∧
      Near (fun _ => 3 / 2) ((113 / 128) ^ l.length * 60) z (fun _ => 20) v (fun _ => 20) := by
  obtain ⟨z, v, h1, h2⟩ := C130_approaches_partial (q := 7 / 8) (c := fun _ => 3 / 2) (D := 60) (s := pumpStart)
    (y := ![80, 20]) (w := ![20]) (ys := fun _ => 20) (ws := fun _ => 20) coolingCircle_consists (by norm_num)
    (by norm_num) (fun _ => by norm_num) ⟨fun k => by simp [coolingRhs], fun _ => rfl⟩ (l.map fun h => ([], h))
    ⟨by simp [pumpStart], by simp [pumpStart], rfl⟩ (by norm_num)
    ⟨fun k => by fin_cases k <;> norm_num, fun j => by fin_cases j; norm_num⟩
    (fun r hr => by
      obtain ⟨h, hh, rfl⟩ := List.mem_map.mp hr
      exact coolingCircle_contracts (hl h hh).1 (hl h hh).2)
    (by
      intro l₁ r l₂ e
      have hr : r ∈ l.map fun h => (([] : List ℝ), h) := by rw [e]; simp
      obtain ⟨h, _, rfl⟩ := List.mem_map.mp hr
      exact coolingCircle_stable h (coolingCircle_length l₁ pumpStart rfl))
  refine ⟨z, v, h1, ?_⟩
  rw [List.length_map] at h2
  convert h2 using 3
  norm_num

/-- Whether it begins at 80 and 20 or at 50 and 50 degrees makes less and less difference. -/
example (l : List ℝ) (hl : ∀ h ∈ l, 1 / 2 ≤ h ∧ h ≤ 1) : ∃ z z' v v', At (fun (y : Fin 2 → ℝ) (w : Fin 1 → ℝ) =>
    (y 0, y 1, w 0)) (simulate coolingCircle pumpStart (l.map fun h => ([], h))) z v ∧
      At (fun y w => (y 0, y 1, w 0)) (simulate coolingCircle ⟨[⟨50, 0, 0, 0, 0, ()⟩, ⟨50, 0, 0, 0, 0, ()⟩], [50],
        (50, 50, 50), true⟩ (l.map fun h => ([], h))) z' v' ∧
      Near (fun _ => 3 / 2) ((113 / 128) ^ l.length * 30) z z' v v' := by
  obtain ⟨z, z', v, v', h1, h2, h3⟩ := C130_forgets_partial (q := 7 / 8) (c := fun _ => 3 / 2) (D := 30) (s := pumpStart)
    (s' := ⟨[⟨50, 0, 0, 0, 0, ()⟩, ⟨50, 0, 0, 0, 0, ()⟩], [50], (50, 50, 50), true⟩)
    (y := ![80, 20]) (w := ![20]) (y' := fun _ => 50) (w' := fun _ => 50) coolingCircle_consists (by norm_num)
    (by norm_num) (fun _ => by norm_num) l ⟨by simp [pumpStart], by simp [pumpStart], rfl⟩ ⟨by simp, rfl, rfl⟩ (by norm_num)
    ⟨fun k => by fin_cases k <;> norm_num, fun j => by fin_cases j; norm_num⟩
    (fun h hh => coolingCircle_contracts (hl h hh).1 (hl h hh).2)
    (fun l₁ h l₂ e => ⟨coolingCircle_stable h (coolingCircle_length _ _ rfl),
      coolingCircle_stable h (coolingCircle_length _ _ rfl)⟩)
  refine ⟨z, z', v, v', h1, h2, ?_⟩
  convert h3 using 3
  norm_num

end Verif.Attempt
