import Verif.Props.Converge
import Verif.Props.Cooling
import Mathlib.Analysis.ODE.ExistUnique

/-!
# C129 for a pipe of water

The polynomials of water have no Lipschitz constant for all temperatures, and its conductivity becomes negative; here the
theorem on convergence is applied to them.
-/

namespace Verif.Attempt

open Verif.Cells Set

/-- The temperatures of a pipe as the differentials see them. -/
def cellTemp {n : ℕ} (x : Fin n → ℝ) (k : ℕ) : ℝ := if h : k < n then x ⟨k, h⟩ else 0

/-- The differential of a pipe of water with constant flow and coefficients. -/
noncomputable def waterSlope (g : Geo ℝ) (base : Inp ℝ) (io : ℝ) (pin pout : Port ℝ) (x : Fin g.n → ℝ) : Fin g.n → ℝ :=
  fun k => pipeDT Water.water g { base with T := cellTemp x } io pin pout k

/-- A plant of this pipe with any stability check `ok`. -/
noncomputable def waterSystem (g : Geo ℝ) (base : Inp ℝ) (io : ℝ) (pin pout : Port ℝ) (ok : (Fin g.n → ℝ) → ℝ → Bool) :
    System ℝ (Fin g.n → ℝ) Unit ℝ Unit where
  diffs := [fun _ _ x h => ⟨waterSlope g base io pin pout x, (), ok x h⟩]
  solves := []
  interm _ _ _ := ()
  result _ _ _ := ()

theorem waterSystem_describes (g : Geo ℝ) (base : Inp ℝ) (io : ℝ) (pin pout : Port ℝ) (ok : (Fin g.n → ℝ) → ℝ → Bool) :
    Describes (waterSystem g base io pin pout ok) (n := 1) (fun _ _ x => waterSlope g base io pin pout x) (fun _ => ()) := by
  refine ⟨?_, fun _ _ => rfl, fun _ _ => rfl, rfl⟩
  intro k
  match k with
  | 0 => exact ⟨_, rfl, fun _ _ _ _ => rfl⟩

/-- Specification: all temperatures lie between 0 and 100 degC. -/
def Liquid {n : ℕ} (x : Fin n → ℝ) : Prop := ∀ k, 0 < x k ∧ x k < 100

theorem isOpen_liquid (n : ℕ) : IsOpen {y : Fin 1 → Fin n → ℝ | Liquid (y 0)} := by
  have : {y : Fin 1 → Fin n → ℝ | Liquid (y 0)} = ⋂ k, {y | 0 < y 0 k ∧ y 0 k < 100} := by
    ext y; simp [Liquid]
  rw [this]
  refine isOpen_iInter_of_finite fun k => IsOpen.and ?_ ?_
  · exact isOpen_lt continuous_const (by fun_prop)
  · exact isOpen_lt (by fun_prop) continuous_const

section Smooth

variable {n : ℕ}

theorem contDiff_cellTemp (k : ℕ) : ContDiff ℝ 2 fun y : Fin 1 → Fin n → ℝ => cellTemp (y 0) k := by
  unfold cellTemp
  split_ifs with h
  · fun_prop
  · exact contDiff_const

theorem cellTemp_liquid {y : Fin 1 → Fin n → ℝ} (hy : Liquid (y 0)) {k : ℕ} (hk : k < n) :
    0 ≤ cellTemp (y 0) k ∧ cellTemp (y 0) k ≤ 100 := by
  unfold cellTemp
  rw [dif_pos hk]
  exact ⟨(hy _).1.le, (hy _).2.le⟩

theorem contDiff_lam : ContDiff ℝ 2 (Water.lam : ℝ → ℝ) := by unfold Water.lam; fun_prop
theorem contDiff_cp : ContDiff ℝ 2 (Water.cp : ℝ → ℝ) := by unfold Water.cp; fun_prop
theorem contDiff_rho : ContDiff ℝ 2 (Water.rho : ℝ → ℝ) := by unfold Water.rho; fun_prop

theorem lam_pos {T : ℝ} (h : 0 ≤ T ∧ T ≤ 100) : 0 < Water.lam T :=
  lt_of_lt_of_le (by norm_num) (Water.lam_ge h.1 h.2)

variable {g : Geo ℝ} {base : Inp ℝ} {p : Port ℝ}

theorem smooth_port (hgs : 0 < g.gs) (hgsp : 0 ≤ p.gsp) (hp : 0 ≤ p.T ∧ p.T ≤ 100) (hi : p.idx < g.n) :
    ContDiffOn ℝ 2 (fun y : Fin 1 → Fin g.n → ℝ => uaPort Water.water g { base with T := cellTemp (y 0) } p)
      {y | Liquid (y 0)} := by
  unfold uaPort
  have h1 := lam_pos hp
  have hl := (contDiff_lam.comp (contDiff_cellTemp (n := g.n) p.idx)).contDiffOn (s := {y | Liquid (y 0)})
  refine ContDiffOn.add (ContDiffOn.div contDiffOn_const (ContDiffOn.add contDiffOn_const
    (ContDiffOn.div contDiffOn_const (contDiffOn_const.mul hl) ?_)) ?_) contDiffOn_const
  · intro y hy
    have := lam_pos (cellTemp_liquid hy hi)
    show _ ≠ _
    positivity
  · intro y hy
    have := lam_pos (cellTemp_liquid hy hi)
    have e1 : Water.water.lam p.T = Water.lam p.T := rfl
    simp only [e1]
    positivity

theorem smooth_face {j : ℕ} (hj : j ≤ g.n) :
    ContDiffOn ℝ 2 (fun y : Fin 1 → Fin g.n → ℝ => uaTb Water.water g { base with T := cellTemp (y 0) } j)
      {y | Liquid (y 0)} := by
  unfold uaTb
  split_ifs with h
  · exact contDiffOn_const
  · push Not at h
    have l1 := (contDiff_lam.comp (contDiff_cellTemp (n := g.n) (j - 1))).contDiffOn (s := {y | Liquid (y 0)})
    have l2 := (contDiff_lam.comp (contDiff_cellTemp (n := g.n) j)).contDiffOn (s := {y | Liquid (y 0)})
    refine ContDiffOn.add (contDiffOn_const.mul (contDiffOn_const.mul ?_)) contDiffOn_const
    unfold lamMean
    refine ContDiffOn.div ((contDiffOn_const.mul l1).mul l2) (l1.add l2) ?_
    intro y hy
    have a := lam_pos (cellTemp_liquid hy (show j - 1 < g.n by omega))
    have b := lam_pos (cellTemp_liquid hy (show j < g.n by omega))
    show _ ≠ _
    positivity

theorem smooth_enth (j : ℕ) : ContDiff ℝ 2 fun y : Fin 1 → Fin g.n → ℝ =>
    Water.water.cp (cellTemp (y 0) j) * cellTemp (y 0) j :=
  (contDiff_cp.comp (contDiff_cellTemp j)).mul (contDiff_cellTemp j)

theorem smooth_left {io : ℝ} (hgs : 0 < g.gs) (hgsp : 0 ≤ p.gsp) (hp : 0 ≤ p.T ∧ p.T ≤ 100) (hi : p.idx = 0) {k : ℕ}
    (hk : k < g.n) :
    ContDiffOn ℝ 2 (fun y : Fin 1 → Fin g.n → ℝ => leftSide Water.water g { base with T := cellTemp (y 0) } io p k)
      {y | Liquid (y 0)} := by
  have hT : ∀ j, ContDiffOn ℝ 2 (fun y : Fin 1 → Fin g.n → ℝ => cellTemp (y 0) j) {y | Liquid (y 0)} := fun j =>
    (contDiff_cellTemp j).contDiffOn
  have hE : ∀ j, ContDiffOn ℝ 2 (fun y : Fin 1 → Fin g.n → ℝ => Water.water.cp (cellTemp (y 0) j) * cellTemp (y 0) j)
      {y | Liquid (y 0)} := fun j => (smooth_enth j).contDiffOn
  have hP := smooth_port (base := base) hgs hgsp hp (by omega : p.idx < g.n)
  have hU := smooth_face (base := base) (by omega : k ≤ g.n)
  unfold leftSide
  split_ifs <;>
  first
  | exact (hP.mul (contDiffOn_const.sub (hT _))).add (contDiffOn_const.mul (contDiffOn_const.sub (hE _)))
  | exact (hU.mul ((hT _).sub (hT _))).add (contDiffOn_const.mul ((hE _).sub (hE _)))

theorem smooth_right {io : ℝ} (hgs : 0 < g.gs) (hgsp : 0 ≤ p.gsp) (hp : 0 ≤ p.T ∧ p.T ≤ 100) (hi : p.idx = g.n - 1)
    {k : ℕ} (hk : k < g.n) :
    ContDiffOn ℝ 2 (fun y : Fin 1 → Fin g.n → ℝ => rightSide Water.water g { base with T := cellTemp (y 0) } io p k)
      {y | Liquid (y 0)} := by
  have hT : ∀ j, ContDiffOn ℝ 2 (fun y : Fin 1 → Fin g.n → ℝ => cellTemp (y 0) j) {y | Liquid (y 0)} := fun j =>
    (contDiff_cellTemp j).contDiffOn
  have hE : ∀ j, ContDiffOn ℝ 2 (fun y : Fin 1 → Fin g.n → ℝ => Water.water.cp (cellTemp (y 0) j) * cellTemp (y 0) j)
      {y | Liquid (y 0)} := fun j => (smooth_enth j).contDiffOn
  have hP := smooth_port (base := base) hgs hgsp hp (by omega : p.idx < g.n)
  have hU := smooth_face (base := base) (by omega : k + 1 ≤ g.n)
  unfold rightSide
  split_ifs <;>
  first
  | exact (hP.mul (contDiffOn_const.sub (hT _))).add (contDiffOn_const.mul (contDiffOn_const.sub (hE _)))
  | exact (hU.mul ((hT _).sub (hT _))).add (contDiffOn_const.mul ((hE _).sub (hE _)))

theorem smooth_slope {io : ℝ} {pin pout : Port ℝ} (hgs : 0 < g.gs) (hV : 0 < g.vCell) (hW : 0 ≤ g.mcpWll)
    (h1 : pin.idx = 0) (h2 : pout.idx = g.n - 1) (hg1 : 0 ≤ pin.gsp) (hg2 : 0 ≤ pout.gsp)
    (ht1 : 0 ≤ pin.T ∧ pin.T ≤ 100) (ht2 : 0 ≤ pout.T ∧ pout.T ≤ 100) (hl : base.lidTop = 0) (hl' : base.lidBot = 0) :
    ContDiffOn ℝ 2 (fun y : Fin 1 → Fin g.n → ℝ => fun _ : Fin 1 => waterSlope g base io pin pout (y 0))
      {y | Liquid (y 0)} := by
  rw [contDiffOn_pi]
  intro _
  rw [contDiffOn_pi]
  intro k
  have e : ∀ y : Fin 1 → Fin g.n → ℝ, waterSlope g base io pin pout (y 0) k = _ := fun y =>
    pipeDT_sides (mat := Water.water) (g := g) (s := { base with T := cellTemp (y 0) }) (io := io) h1 h2 hl hl' k.2
  simp only [e]
  refine ContDiffOn.div (((smooth_left hgs hg1 ht1 h1 k.2).add (smooth_right hgs hg2 ht2 h2 k.2)).add
    (contDiffOn_const.mul (contDiffOn_const.sub (contDiff_cellTemp _).contDiffOn))) ?_ ?_
  · unfold mcp
    exact (contDiffOn_const.mul (((contDiff_rho.comp (contDiff_cellTemp _)).mul
      (contDiff_cp.comp (contDiff_cellTemp _))).contDiffOn)).add contDiffOn_const
  · intro y hy
    have hT := cellTemp_liquid hy k.2
    have c := Water.cp_ge hT.1 hT.2
    have r := Water.rho_ge hT.1 hT.2
    have : 0 < g.vCell * (Water.rho (cellTemp (y 0) k) * Water.cp (cellTemp (y 0) k)) :=
      mul_pos hV (mul_pos (by linarith) (by linarith))
    exact (add_pos_of_pos_of_nonneg this hW).ne'

end Smooth

/-- **C129** for water: take a pipe of water with constant flow, port temperatures between 0 and 100 degC and constant
heat transfer coefficients, and a solution of its equations that stays between 0 and 100 degC.  Runs of the simulation
that start at this solution differ from it by at most a constant times the square of their largest step, whichever steps
the checks reject, provided the largest step is small enough. -/
theorem C129_water_pipe_partial (g : Geo ℝ) (base : Inp ℝ) (io : ℝ) (pin pout : Port ℝ) (ok : (Fin g.n → ℝ) → ℝ → Bool)
    (hgs : 0 < g.gs) (hV : 0 < g.vCell) (hW : 0 ≤ g.mcpWll)
    (h1 : pin.idx = 0) (h2 : pout.idx = g.n - 1) (hg1 : 0 ≤ pin.gsp) (hg2 : 0 ≤ pout.gsp)
    (ht1 : 0 ≤ pin.T ∧ pin.T ≤ 100) (ht2 : 0 ≤ pout.T ∧ pout.T ≤ 100) (hl : base.lidTop = 0) (hl' : base.lidBot = 0)
    {T : ℝ} (hT : 0 ≤ T) {Y : ℝ → Fin g.n → ℝ}
    (hY : ∀ t ∈ Icc 0 T, HasDerivWithinAt Y (waterSlope g base io pin pout (Y t)) (Icc 0 T) t)
    (hL : ∀ t ∈ Icc 0 T, Liquid (Y t)) :
    ∃ Δ₀ > 0, ∃ C, ∀ (s : State (Fin g.n → ℝ) Unit ℝ Unit) (l : List (List ℝ × ℝ)) (Δ t : ℝ),
      s.parts.map PState.prev = [Y 0] → s.nonnum = [] →
      Run (waterSystem g base io pin pout ok) s l Δ t → Δ ≤ Δ₀ → t ≤ T →
      ∃ x, (simulate (waterSystem g base io pin pout ok) s l).parts.map PState.prev = [x] ∧ ‖x - Y t‖ ≤ C * Δ ^ 2 := by
  have hd := waterSystem_describes g base io pin pout ok
  have hF := smooth_slope (io := io) hgs hV hW h1 h2 hg1 hg2 ht1 ht2 hl hl'
  have e : rhs (n := 1) (fun _ _ x => waterSlope g base io pin pout x) (fun _ => ()) =
      fun y _ => waterSlope g base io pin pout (y 0) := by
    funext y k
    rw [Subsingleton.elim k 0]
    rfl
  rw [← e] at hF
  have hS : Solution (rhs (n := 1) (fun _ _ x => waterSlope g base io pin pout x) fun _ => ()) T fun t _ => Y t := by
    intro t ht
    rw [hasDerivWithinAt_pi]
    exact fun _ => hY t ht
  obtain ⟨Δ₀, hΔ, C, hC⟩ := C129_smooth_partial hd (isOpen_liquid g.n) hF hT hS hL
  refine ⟨Δ₀, hΔ, C, fun s l Δ t hs hn hr hD ht => ?_⟩
  obtain ⟨x, hx, hb⟩ := hC s l Δ t (by simpa using hs) rfl hn hr hD ht
  refine ⟨x 0, by simpa using hx, le_trans ?_ hb⟩
  exact norm_le_pi_norm (x - fun _ => Y t) 0

/-- From any temperatures between 0 and 100 degC the equations have a solution which stays there for some time. -/
theorem water_solution {g : Geo ℝ} {base : Inp ℝ} {io : ℝ} {pin pout : Port ℝ}
    (hgs : 0 < g.gs) (hV : 0 < g.vCell) (hW : 0 ≤ g.mcpWll)
    (h1 : pin.idx = 0) (h2 : pout.idx = g.n - 1) (hg1 : 0 ≤ pin.gsp) (hg2 : 0 ≤ pout.gsp)
    (ht1 : 0 ≤ pin.T ∧ pin.T ≤ 100) (ht2 : 0 ≤ pout.T ∧ pout.T ≤ 100) (hl : base.lidTop = 0) (hl' : base.lidBot = 0)
    {x₀ : Fin g.n → ℝ} (hx : Liquid x₀) :
    ∃ T > 0, ∃ Y : ℝ → Fin g.n → ℝ, Y 0 = x₀ ∧
      (∀ t ∈ Icc 0 T, HasDerivWithinAt Y (waterSlope g base io pin pout (Y t)) (Icc 0 T) t) ∧ ∀ t ∈ Icc 0 T, Liquid (Y t) := by
  have hF := smooth_slope (io := io) hgs hV hW h1 h2 hg1 hg2 ht1 ht2 hl hl'
  have hc : ContDiffAt ℝ 1 (fun y : Fin 1 → Fin g.n → ℝ => fun _ : Fin 1 => waterSlope g base io pin pout (y 0))
      (fun _ => x₀) :=
    (hF.contDiffAt ((isOpen_liquid g.n).mem_nhds hx)).of_le (by norm_num)
  obtain ⟨α, h0, ε, hε, hα⟩ := hc.exists_forall_mem_closedBall_exists_eq_forall_mem_Ioo_hasDerivAt₀ 0
  have hcont : ContinuousAt α 0 := (hα 0 ⟨by linarith, by linarith⟩).continuousAt
  have hev : ∀ᶠ t in nhds (0 : ℝ), Liquid (α t 0) :=
    hcont.eventually_mem ((isOpen_liquid g.n).mem_nhds (by rw [h0]; exact hx))
  obtain ⟨δ, hδ, hball⟩ := Metric.eventually_nhds_iff.1 hev
  refine ⟨min ε δ / 2, by positivity, fun t => α t 0, by simp only [h0], ?_, ?_⟩
  · intro t ht
    have : min ε δ ≤ ε := min_le_left _ _
    have hm : 0 < min ε δ := by positivity
    have := hα t ⟨by linarith [ht.1], by linarith [ht.2]⟩
    rw [hasDerivAt_pi] at this
    exact (this 0).hasDerivWithinAt
  · intro t ht
    have : min ε δ ≤ δ := min_le_right _ _
    have hm : 0 < min ε δ := by positivity
    refine hball ?_
    rw [Real.dist_eq, sub_zero, abs_of_nonneg ht.1]
    linarith [ht.2]

/-- Three cells of 60, 50 and 40 degC, entered by 80 degC water at 0.1 kg/s. -/
example : ∃ T > 0, ∃ Y : ℝ → Fin 3 → ℝ, Y 0 = ![60, 50, 40] ∧
    ∃ Δ₀ > 0, ∃ C, ∀ (s : State (Fin 3 → ℝ) Unit ℝ Unit) (l : List (List ℝ × ℝ)) (Δ t : ℝ),
      s.parts.map PState.prev = [Y 0] → s.nonnum = [] →
      Run (waterSystem ⟨3, 1 / 1000, 1 / 100, 1 / 10, 100, 1⟩ ⟨fun _ => 0, 0, 0, 20, fun _ => 1, 0, 0, fun _ => 1⟩ (1 / 10)
        ⟨0, 80, 1 / 100, 1 / 10, 1, 1 / 10⟩ ⟨2, 40, 1 / 100, 1 / 10, 1, -(1 / 10)⟩ fun _ h => decide (h ≤ 5)) s l Δ t → Δ ≤ Δ₀ → t ≤ T →
      ∃ x, (simulate (waterSystem ⟨3, 1 / 1000, 1 / 100, 1 / 10, 100, 1⟩
        ⟨fun _ => 0, 0, 0, 20, fun _ => 1, 0, 0, fun _ => 1⟩ (1 / 10)
        ⟨0, 80, 1 / 100, 1 / 10, 1, 1 / 10⟩ ⟨2, 40, 1 / 100, 1 / 10, 1, -(1 / 10)⟩ fun _ h => decide (h ≤ 5)) s l).parts.map PState.prev = [x] ∧
        ‖x - Y t‖ ≤ C * Δ ^ 2 := by
  obtain ⟨T, hT, Y, h0, hY, hL⟩ := water_solution (g := ⟨3, 1 / 1000, 1 / 100, 1 / 10, 100, 1⟩)
    (base := ⟨fun _ => 0, 0, 0, 20, fun _ => 1, 0, 0, fun _ => 1⟩) (io := 1 / 10)
    (pin := ⟨0, 80, 1 / 100, 1 / 10, 1, 1 / 10⟩) (pout := ⟨2, 40, 1 / 100, 1 / 10, 1, -(1 / 10)⟩)
    (by norm_num) (by norm_num) (by norm_num) rfl rfl (by norm_num) (by norm_num) (by norm_num) (by norm_num) rfl rfl
    (x₀ := ![60, 50, 40]) (by intro k; fin_cases k <;> norm_num)
  refine ⟨T, hT, Y, h0, ?_⟩
  exact C129_water_pipe_partial _ _ _ _ _ _ (by norm_num) (by norm_num) (by norm_num) rfl rfl (by norm_num) (by norm_num)
    (by norm_num) (by norm_num) rfl rfl hT.le hY hL

end Verif.Attempt
