import Verif.Props.Extremes
import Verif.Props.FlowAlpha
import Verif.Props.Mirror
import Verif.Model.PortCond

/-!
# C132: a pipe can be divided into two pipes
-/

set_option linter.unusedSectionVars false

namespace Verif.Cells

open Verif.Flows

variable {K : Type*} [Field K] [LinearOrder K] [IsStrictOrderedRing K]

variable {mat : Mat K} {g : Geo K} {s s₁ s₂ : Inp K}

/-- What enters cell `k` of a pipe from the side of cell 0. -/
def leftSide (mat : Mat K) (g : Geo K) (s : Inp K) (io : K) (pin : Port K) (k : ℕ) : K :=
  if k = 0 then uaPort mat g s pin * (pin.T - s.T k) +
    (if 0 ≤ io then io else 0) * (mat.cp pin.T * pin.T - mat.cp (s.T k) * s.T k)
  else uaTb mat g s k * (s.T (k - 1) - s.T k) +
    (if 0 ≤ io then io else 0) * (mat.cp (s.T (k - 1)) * s.T (k - 1) - mat.cp (s.T k) * s.T k)

/-- What enters cell `k` of a pipe from the other side. -/
def rightSide (mat : Mat K) (g : Geo K) (s : Inp K) (io : K) (pout : Port K) (k : ℕ) : K :=
  if k + 1 = g.n then uaPort mat g s pout * (pout.T - s.T k) +
    (if 0 ≤ io then 0 else -io) * (mat.cp pout.T * pout.T - mat.cp (s.T k) * s.T k)
  else uaTb mat g s (k + 1) * (s.T (k + 1) - s.T k) +
    (if 0 ≤ io then 0 else -io) * (mat.cp (s.T (k + 1)) * s.T (k + 1) - mat.cp (s.T k) * s.T k)

theorem pipeDT_sides {io : K} {pin pout : Port K} (h1 : pin.idx = 0) (h2 : pout.idx = g.n - 1) (hl : s.lidTop = 0)
    (hl' : s.lidBot = 0) {k : ℕ} (hk : k < g.n) : pipeDT mat g s io pin pout k =
      (leftSide mat g s io pin k + rightSide mat g s io pout k + s.uaAmb k * (s.Tamb - s.T k)) / mcp mat g s k := by
  have t1 : ∀ j, 0 < j → j ≤ g.n → tExt g s j = s.T (j - 1) := by
    intro j h0 h3
    unfold tExt
    rw [if_neg (by omega), if_neg (by omega)]
  have a1 : tExt g s (k + 1) = s.T k := t1 (k + 1) (by omega) (by omega)
  have a2 : tExt g s (0 + 1) = s.T 0 := t1 1 (by omega) (by omega)
  have a3 : tExt g s (g.n - 1 + 1) = s.T (g.n - 1) := by
    rw [t1 _ (by omega) (by omega)]; rfl
  unfold pipeDT dTcond dTadv
  simp only [addAt_eq, List.map_cons, List.map_nil, List.zip_cons_cons, List.zip_nil_right, List.filter_cons,
    List.filter_nil, processInvar, enth, h1, h2, a1, a2, a3, hl, hl', zero_mul, zero_div, ite_self, add_zero]
  by_cases k0 : k = 0
  · subst k0
    have u0 : uaTb mat g s 0 = 0 := by simp [uaTb]
    by_cases kn : 0 + 1 = g.n
    · have u1 : uaTb mat g s (0 + 1) = 0 := by rw [uaTb, if_pos (by omega)]
      have e : g.n - 1 = 0 := by omega
      rw [show leftSide mat g s io pin 0 = _ from if_pos rfl, show rightSide mat g s io pout 0 = _ from if_pos kn]
      simp only [u0, u1, e, eq_true kn, if_true, decide_true, List.map_cons, List.map_nil, List.sum_cons, List.sum_nil, zero_mul]
      ring
    · have e : ¬ g.n - 1 = 0 := by omega
      have a4 : tExt g s (0 + 2) = s.T (0 + 1) := t1 2 (by omega) (by omega)
      rw [show leftSide mat g s io pin 0 = _ from if_pos rfl, show rightSide mat g s io pout 0 = _ from if_neg kn]
      simp only [u0, e, kn, a4, if_true, if_false, decide_true, decide_false, Bool.false_eq_true, List.map_cons,
        List.map_nil, List.sum_cons, List.sum_nil, zero_mul]
      ring
  · have a5 : tExt g s k = s.T (k - 1) := t1 k (by omega) (by omega)
    have e0 : ¬ 0 = k := fun h => k0 h.symm
    by_cases kn : k + 1 = g.n
    · have u1 : uaTb mat g s (k + 1) = 0 := by rw [uaTb, if_pos (by omega)]
      have e : g.n - 1 = k := by omega
      rw [show leftSide mat g s io pin k = _ from if_neg k0, show rightSide mat g s io pout k = _ from if_pos kn]
      simp only [u1, e, e0, eq_true kn, k0, a5, if_true, if_false, decide_true, decide_false, Bool.false_eq_true, List.map_cons,
        List.map_nil, List.sum_cons, List.sum_nil, zero_mul]
      ring
    · have e : ¬ g.n - 1 = k := by omega
      have a4 : tExt g s (k + 2) = s.T (k + 1) := t1 (k + 2) (by omega) (by omega)
      rw [show leftSide mat g s io pin k = _ from if_neg k0, show rightSide mat g s io pout k = _ from if_neg kn]
      simp only [e, e0, k0, kn, a5, a4, if_false, decide_false, Bool.false_eq_true, List.map_nil, List.sum_nil]
      ring

/-- Specification: `s'` describes the `n` cells beginning at cell `o` of the pipe `s`. -/
structure Piece (o n : ℕ) (s s' : Inp K) : Prop where
  T : ∀ k < n, s'.T k = s.T (o + k)
  uaAmb : ∀ k < n, s'.uaAmb k = s.uaAmb (o + k)
  Tamb : s'.Tamb = s.Tamb
  lids : s'.lidTop = 0 ∧ s'.lidBot = 0

/-- Specification: the port that connects a pipe of the kind of `g` with another one of the same kind, as the code sets
it up (`Model/PortCond`), with the temperature of the cell behind it. -/
structure Joint (mat : Mat K) (g : Geo K) (own : PortCond.Spec K) (T : K) (p : Port K) : Prop where
  T : p.T = T
  area : p.area = PortCond.areaFld own own
  gsp : p.gsp = own.gsp
  uaWll : p.uaWll = PortCond.uaWll own own

/-- Specification: what the ports of a pipe know agrees with its cells (`pipe.py:399, 413`). -/
structure Uniform (g : Geo K) (own : PortCond.Spec K) : Prop where
  aFld : own.aFld = g.aCell
  gsp : own.gsp = g.gs
  uaWll : own.aWll / own.gsp * own.lam = g.uaTbWll
  pos : 0 < own.aFld ∧ 0 < own.aWll ∧ 0 < own.gsp ∧ 0 < own.lam

/-- The conductance of the joint is the conductance between two cells. -/
theorem joint_conductance {own : PortCond.Spec K} (hu : Uniform g own) {T : K} {p : Port K}
    (hj : Joint mat g own T p) {g' : Geo K} {s' : Inp K} (hg : g'.gs = g.gs) (l1 : 0 < mat.lam T)
    (l2 : 0 < mat.lam (s'.T p.idx)) :
    uaPort mat g' s' p = g.aCell / g.gs * lamMean (mat.lam T) (mat.lam (s'.T p.idx)) + g.uaTbWll := by
  obtain ⟨q1, q2, q3, q4⟩ := hu.pos
  have e1 : PortCond.areaFld own own = own.aFld := by
    unfold PortCond.areaFld; rw [if_neg q1.ne']; ring
  have e2 : PortCond.uaWll own own = own.aWll / own.gsp * own.lam := by
    unfold PortCond.uaWll PortCond.areaWll
    rw [if_neg q2.ne', if_neg q2.ne']
    field_simp
  unfold uaPort lamMean
  rw [hj.T, hj.area, hj.gsp, hj.uaWll, e1, e2, hu.uaWll, hg, ← hu.gsp, ← hu.aFld]
  generalize mat.lam T = a at l1
  generalize mat.lam (s'.T p.idx) = b at l2
  have h1 : a + b ≠ 0 := by positivity
  have h2 : b + a ≠ 0 := by positivity
  field_simp
  ring

/-- **C132**, partial: a pipe of `n₁ + n₂` cells and two pipes of `n₁` and `n₂` of these cells, connected with each
other, have the same differential in every cell, for every flow in either direction and any temperatures, if the
cells have the same conductance to the ambient.  Missing: with flow the conductance differs (`C132_fails_losses`). -/
theorem C132_pipe_partial {n₁ n₂ : ℕ} (hn : g.n = n₁ + n₂) (h₁ : 0 < n₁) (h₂ : 0 < n₂) {own : PortCond.Spec K}
    (hu : Uniform g own) (hlam : ∀ k < g.n, 0 < mat.lam (s.T k))
    (hbuoy : ∀ k, s.buoy k = 1 ∧ s₁.buoy k = 1 ∧ s₂.buoy k = 1)
    (hlid : s.lidTop = 0 ∧ s.lidBot = 0) (p₁ : Piece 0 n₁ s s₁) (p₂ : Piece n₁ n₂ s s₂) {io : K}
    {pin pout pout₁ pin₂ pout₂ : Port K} (hi : pin.idx = 0) (ho : pout.idx = g.n - 1) (ho₁ : pout₁.idx = n₁ - 1)
    (hi₂ : pin₂.idx = 0) (ho₂ : pout₂ = { pout with idx := n₂ - 1 }) (j₁ : Joint mat g own (s.T n₁) pout₁)
    (j₂ : Joint mat g own (s.T (n₁ - 1)) pin₂) :
    (∀ k < n₁, pipeDT mat { g with n := n₁ } s₁ io pin pout₁ k = pipeDT mat g s io pin pout k) ∧
      ∀ k < n₂, pipeDT mat { g with n := n₂ } s₂ io pin₂ pout₂ k = pipeDT mat g s io pin pout (n₁ + k) := by
  have tb : ∀ j, 0 < j → j < g.n →
      uaTb mat g s j = g.aCell / g.gs * lamMean (mat.lam (s.T (j - 1))) (mat.lam (s.T j)) + g.uaTbWll := by
    intro j a b
    unfold uaTb
    rw [if_neg (by omega), (hbuoy _).1, one_mul]
  have tb₁ : ∀ j, 0 < j → j < n₁ → uaTb mat { g with n := n₁ } s₁ j =
      g.aCell / g.gs * lamMean (mat.lam (s₁.T (j - 1))) (mat.lam (s₁.T j)) + g.uaTbWll := by
    intro j a b
    unfold uaTb
    rw [if_neg (by simp only; omega), (hbuoy _).2.1, one_mul]
  have tb₂ : ∀ j, 0 < j → j < n₂ → uaTb mat { g with n := n₂ } s₂ j =
      g.aCell / g.gs * lamMean (mat.lam (s₂.T (j - 1))) (mat.lam (s₂.T j)) + g.uaTbWll := by
    intro j a b
    unfold uaTb
    rw [if_neg (by simp only; omega), (hbuoy _).2.2, one_mul]
  have c₁ : ∀ k < n₁, s₁.T k = s.T k := fun k hk => by rw [p₁.T k hk, zero_add]
  have lc : ∀ a b : K, lamMean a b = lamMean b a := by
    intro a b; unfold lamMean; rw [add_comm a b]; ring
  constructor
  · intro k hk
    rw [pipeDT_sides hi ho hlid.1 hlid.2 (by omega), pipeDT_sides (g := { g with n := n₁ }) hi ho₁ p₁.lids.1 p₁.lids.2 hk]
    have m : mcp mat { g with n := n₁ } s₁ k = mcp mat g s k := by
      unfold mcp; rw [c₁ k hk]
    have l : leftSide mat { g with n := n₁ } s₁ io pin k = leftSide mat g s io pin k := by
      unfold leftSide
      by_cases k0 : k = 0
      · rw [if_pos k0, if_pos k0, c₁ k hk]
        unfold uaPort
        rw [hi, c₁ 0 h₁]
      · rw [if_neg k0, if_neg k0, c₁ k hk, c₁ (k - 1) (by omega), tb₁ k (by omega) hk, tb k (by omega) (by omega),
          c₁ k hk, c₁ (k - 1) (by omega)]
    have r : rightSide mat { g with n := n₁ } s₁ io pout₁ k = rightSide mat g s io pout k := by
      unfold rightSide
      by_cases kn : k + 1 = n₁
      · have ek : n₁ - 1 = k := by omega
        have kn' : ¬ k + 1 = g.n := by omega
        rw [if_pos kn, if_neg kn', c₁ k hk, joint_conductance (g := g) (g' := { g with n := n₁ }) hu j₁ rfl (hlam _ (by omega))
          (by rw [ho₁, c₁ _ (by omega)]; exact hlam _ (by omega)), ho₁, ek,
          tb (k + 1) (by omega) (by omega), j₁.T, kn, c₁ k hk, lc, ek]
      · have kn' : ¬ k + 1 = g.n := by omega
        rw [if_neg kn, if_neg kn', c₁ k hk, c₁ (k + 1) (by omega), tb₁ (k + 1) (by omega) (by omega),
          tb (k + 1) (by omega) (by omega), c₁ (k + 1) (by omega), show k + 1 - 1 = k from rfl, c₁ k hk]
    rw [m, l, r, p₁.uaAmb k hk, zero_add, p₁.Tamb, c₁ k hk]
  · intro k hk
    subst ho₂
    have io₂ : ({ pout with idx := n₂ - 1 } : Port K).idx = n₂ - 1 := rfl
    rw [pipeDT_sides hi ho hlid.1 hlid.2 (by omega), pipeDT_sides (g := { g with n := n₂ }) hi₂ io₂ p₂.lids.1 p₂.lids.2 hk]
    have m : mcp mat { g with n := n₂ } s₂ k = mcp mat g s (n₁ + k) := by
      unfold mcp; rw [p₂.T k hk]
    have l : leftSide mat { g with n := n₂ } s₂ io pin₂ k = leftSide mat g s io pin (n₁ + k) := by
      unfold leftSide
      rw [if_neg (show ¬ n₁ + k = 0 by omega)]
      by_cases k0 : k = 0
      · subst k0
        rw [if_pos rfl, p₂.T 0 hk, joint_conductance (g := g) (g' := { g with n := n₂ }) hu j₂ rfl
          (hlam _ (by omega)) (by rw [hi₂, p₂.T 0 hk]; exact hlam _ (by omega)), hi₂, p₂.T 0 hk, tb (n₁ + 0) (by omega)
          (by omega), j₂.T, add_zero]
      · rw [if_neg k0, p₂.T k hk, p₂.T (k - 1) (by omega), tb₂ k (by omega) hk, tb (n₁ + k) (by omega) (by omega),
          p₂.T k hk, p₂.T (k - 1) (by omega), show n₁ + (k - 1) = n₁ + k - 1 by omega]
    have r : rightSide mat { g with n := n₂ } s₂ io { pout with idx := n₂ - 1 } k =
        rightSide mat g s io pout (n₁ + k) := by
      unfold rightSide
      by_cases kn : k + 1 = n₂
      · have kn' : n₁ + k + 1 = g.n := by omega
        rw [if_pos kn, if_pos kn', p₂.T k hk]
        unfold uaPort
        simp only
        rw [p₂.T (n₂ - 1) (by omega), ho, show n₁ + (n₂ - 1) = g.n - 1 by omega]
      · have kn' : ¬ n₁ + k + 1 = g.n := by omega
        rw [if_neg kn, if_neg kn', p₂.T k hk, p₂.T (k + 1) (by omega), tb₂ (k + 1) (by omega) (by omega),
          tb (n₁ + k + 1) (by omega) (by omega), p₂.T (k + 1) (by omega), show k + 1 - 1 = k from rfl, p₂.T k hk]
        rfl
    rw [m, l, r, p₂.uaAmb k hk, p₂.Tamb, p₂.T k hk]

/-- The wall of a pipe. -/
def wallSpec : PortCond.Spec ℚ := ⟨2, 1, 1, 1⟩

/-- A port at a pipe of the same kind. -/
def jointPort (i : ℕ) (T io : ℚ) : Port ℚ := ⟨i, T, PortCond.areaFld wallSpec wallSpec, 1, PortCond.uaWll wallSpec wallSpec, io⟩

/-- Cells of a pipe with a slope of temperatures. -/
def slope (a b : ℚ) : Inp ℚ := ⟨fun k => a + k, 0, 0, 15, fun k => b + k, 0, 0, fun _ => 1⟩

/-- The hypotheses are met by a pipe of five cells with a slope of temperatures and water flowing backwards, divided
after the second cell. -/
example : pipeDT ⟨fun T => 1 + T, fun _ => 2, fun _ => 3⟩ ⟨3, 1, 1, 1, 0, 2⟩ (slope 22 2) (-3) (jointPort 0 21 (-3))
      ⟨2, 7, 1, 1, 0, 3⟩ 0 =
    pipeDT ⟨fun T => 1 + T, fun _ => 2, fun _ => 3⟩ ⟨5, 1, 1, 1, 0, 2⟩ (slope 20 0) (-3) ⟨0, 5, 1, 1, 0, -3⟩
      ⟨4, 7, 1, 1, 0, 3⟩ (2 + 0) := by
  refine (C132_pipe_partial (mat := ⟨fun T => 1 + T, fun _ => 2, fun _ => 3⟩) (g := ⟨5, 1, 1, 1, 0, 2⟩) (n₁ := 2) (n₂ := 3)
    (own := wallSpec) (s := slope 20 0) (s₁ := slope 20 0) (s₂ := slope 22 2) (io := -3) (pin := ⟨0, 5, 1, 1, 0, -3⟩)
    (pout := ⟨4, 7, 1, 1, 0, 3⟩) (pin₂ := jointPort 0 21 (-3)) (pout₂ := ⟨2, 7, 1, 1, 0, 3⟩) (pout₁ := jointPort 1 22 3) rfl (by decide) (by decide) ⟨rfl, rfl, by norm_num [wallSpec], by norm_num [wallSpec]⟩
    (fun _ => by norm_num) (fun _ => ⟨rfl, rfl, rfl⟩) ⟨rfl, rfl⟩ ⟨?_, ?_, rfl, rfl, rfl⟩ ⟨?_, ?_, rfl, rfl, rfl⟩ rfl rfl
    rfl rfl rfl ⟨?_, rfl, rfl, rfl⟩ ⟨?_, rfl, rfl, rfl⟩).2 0 (by decide)
  · intro k _; simp [slope]
  · intro k _; simp [slope]
  · intro k _; simp only [slope]; push_cast; ring
  · intro k _; simp [slope]
  · norm_num [jointPort, slope]
  · norm_num [jointPort, slope]

end Verif.Cells

namespace Verif.FlowAlpha

open Verif.Conductance

/-- **C132** (heat losses at rest): without flow the cells of the two pipes have the coefficients of the cells of the
long pipe, with their memory of the evaluation before. -/
theorem C132_losses_rest {g : Shell} {n n' o : ℕ} {c c' : ℕ → Coeffs} {Tamb : ℝ} {T T' : ℕ → ℝ} {k : ℕ}
    (hc : c' k = c (o + k)) (hT : T' k = T (o + k)) :
    pipeCoeffs g n' c' 0 T' Tamb k = pipeCoeffs g n c 0 T Tamb (o + k) := by
  unfold pipeCoeffs evaluate
  rw [hT, hc]
  simp only [pipeAlphaI_rest (T (o + k)) g.aCell (2 * g.rI) (flowDist n' g.gs 0 k) (flowDist n g.gs 0 (o + k))]

example : pipeCoeffs pipeShell 3 (fun _ => Coeffs.init) 0 (fun k => 62 + k) 20 1 =
    pipeCoeffs pipeShell 5 (fun _ => Coeffs.init) 0 (fun k => 60 + k) 20 (2 + 1) :=
  C132_losses_rest rfl (by push_cast; ring)

/-- **C132** is false of the heat losses with flow: the second pipe counts the distance from its own inlet, so *every*
cell of it conducts strictly more heat to the ambient than the same cell of the long pipe, in the first evaluation. -/
theorem C132_fails_losses {g : Shell} (v : g.Valid) {n₁ n₂ : ℕ} (h₁ : 0 < n₁) {dm Tamb : ℝ} (hd : 0 < dm)
    (a0 : -100 ≤ Tamb) (a1 : Tamb ≤ 200) {T T' : ℕ → ℝ} {k : ℕ} (hT : T' k = T (n₁ + k)) (t0 : 0 ≤ T (n₁ + k))
    (t1 : T (n₁ + k) ≤ 100) :
    (pipeCoeffs g (n₁ + n₂) (fun _ => Coeffs.init) dm T Tamb (n₁ + k)).ua
      < (pipeCoeffs g n₂ (fun _ => Coeffs.init) dm T' Tamb k).ua := by
  unfold pipeCoeffs evaluate
  simp only [hT]
  have e : flowDist n₂ g.gs dm k < flowDist (n₁ + n₂) g.gs dm (n₁ + k) := by
    unfold flowDist cellDist
    rw [if_neg (by linarith), if_neg (by linarith)]
    have h : (1 : ℝ) ≤ n₁ := by exact_mod_cast h₁
    push_cast
    nlinarith [v.gs]
  have e0 : 0 < flowDist n₂ g.gs dm k := by
    unfold flowDist cellDist
    rw [if_neg (by linarith)]
    have := v.gs
    positivity
  generalize flowDist n₂ g.gs dm k = x at *
  generalize flowDist (n₁ + n₂) g.gs dm (n₁ + k) = y at *
  have hd2 : 0 < 2 * g.rI := by linarith [v.rI]
  have hs : surfaceTemp (T (n₁ + k)) Tamb g.aShellIns Coeffs.init.alphaInf Coeffs.init.ua = Tamb := by
    simp [surfaceTemp, Coeffs.init]
  rw [hs]
  have hInf := cylinderAlphaInf_pos (L := g.flowLength) g.vertical a0 a1 a0 a1 v.flowLength v.rTotal_pos
  have hlt := ((C125_more_flow t0 t1 t0 t1 v.aCell_pos hd2 e0).2.2 dm y hd.ne' e).1
  have ha := pipeAlphaI_pos (dm := dm) t0 t1 v.aCell_pos hd2 (e0.trans e)
  generalize cylinderAlphaInf Tamb Tamb g.flowLength g.vertical g.rTotal = aInf at *
  have q1 := one_div_lt_one_div_of_lt ha hlt
  have q0 := one_div_pos.2 (ha.trans hlt)
  have q2 : 0 < g.rLnWll / g.lamWll := div_pos v.rLnWll_pos v.lamWll
  have q3 : 0 ≤ g.rLnIns / g.lamIns := div_nonneg v.rLnIns_nonneg v.lamIns.le
  have q4 : 0 < g.rRins / aInf := div_pos v.rRins_pos hInf
  unfold uaFldWllInsAmbCyl
  exact div_lt_div_of_pos_left v.aShellI_pos (by linarith) (by linarith)

example : (pipeCoeffs pipeShell (2 + 3) (fun _ => Coeffs.init) 0.1 (fun _ => 60) 20 (2 + 0)).ua
    < (pipeCoeffs pipeShell 3 (fun _ => Coeffs.init) 0.1 (fun _ => 60) 20 0).ua :=
  C132_fails_losses pipeShell_valid (by norm_num) (by norm_num) (by norm_num) (by norm_num) rfl (by norm_num) (by norm_num)

end Verif.FlowAlpha

namespace Verif.Attempt

open Verif.Cells

variable {K H N P P' : Type*} [Field K] [LinearOrder K] [IsStrictOrderedRing K]

/-- Specification: the temperatures of a pipe and of the two pipes it is divided into. -/
def CutT (n₁ n₂ : ℕ) (x x₁ x₂ : ℕ → K) : Prop := (∀ k < n₁, x₁ k = x k) ∧ ∀ k < n₂, x₂ k = x (n₁ + k)

/-- Specification: the lists consist of one pipe and of its two pieces. -/
def CutParts {α : Type*} (R : α → α → α → Prop) (b b' : List α) : Prop :=
  ∃ x x₁ x₂, b = [x] ∧ b' = [x₁, x₂] ∧ R x x₁ x₂

/-- **C132**, partial (plants): if one pipe of a plant is divided into two, the whole simulation is the same cell by
cell.  `Rp ys p p'` is the relation of the port arrays of both plants at temperatures `ys` of the plant with the
divided pipe: in particular the two new ports hold the temperatures of the cells behind them.  Missing: rejected steps,
and the different conductance to the ambient with flow (`C132_fails_losses`; the memory relation `Rm` cannot hold then);
nothing here bounds the temperatures, so the conductivity is asked to be positive at all of them (`hlam`), which the
polynomial of water is only up to about 360 degC.  `C132_pipe_partial` asks it of the temperatures of the pipe only. -/
theorem C132_simulation_partial {sys : System K (ℕ → K) H N P} {sys' : System K (ℕ → K) H N P'} {v : Vessel K H P}
    {v₁ v₂ : Vessel K H P'} {n₁ n₂ : ℕ} {io : P → K} {io₁ io₂ : P' → K} {pin pout : P → Port K}
    {pin₁ pout₁ pin₂ pout₂ : P' → Port K} {own : PortCond.Spec K}
    {Rm : H → H → H → Prop} {Rp : List (ℕ → K) → P → P' → Prop} {da dr : List (Diff K (ℕ → K) H P)}
    {da' dr' : List (Diff K (ℕ → K) H P')} (l : List K)
    (hd : sys.diffs = da ++ ([v.pipe io pin pout] ++ dr))
    (hd' : sys'.diffs = da' ++ ([v₁.pipe io₁ pin₁ pout₁, v₂.pipe io₂ pin₂ pout₂] ++ dr'))
    (ha : ∀ h ∈ l, List.Forall₂ (Same (Sometimes Rp) h) da da')
    (hr : ∀ h ∈ l, List.Forall₂ (Same (Sometimes Rp) h) dr dr')
    (hn : v.g.n = n₁ + n₂) (h₁ : 0 < n₁) (h₂ : 0 < n₂) (hu : Uniform v.g own) (hlam : ∀ T, 0 < v.mat.lam T)
    (hg₁ : v₁.g = { v.g with n := n₁ }) (hg₂ : v₂.g = { v.g with n := n₂ }) (hmat : v₁.mat = v.mat ∧ v₂.mat = v.mat)
    (hidx : ∀ p, (pin p).idx = 0 ∧ (pout p).idx = v.g.n - 1)
    (hpo : ∀ ya x₁ x₂ yr p p', ya.length = da.length → Rp (ya ++ ([x₁, x₂] ++ yr)) p p' →
      (io₁ p' = io p ∧ io₂ p' = io p ∧ pin₁ p' = pin p ∧ pout₂ p' = { pout p with idx := n₂ - 1 }) ∧
        ((pout₁ p').idx = n₁ - 1 ∧ Joint v.mat v.g own (x₂ 0) (pout₁ p')) ∧
        (pin₂ p').idx = 0 ∧ Joint v.mat v.g own (x₁ (n₁ - 1)) (pin₂ p'))
    (hT : ∀ m p x, (v.inp m p x).T = x)
    (hin : ∀ ys m m₁ m₂ p p' x x₁ x₂, Rm m m₁ m₂ → Rp ys p p' → CutT n₁ n₂ x x₁ x₂ →
      (Piece 0 n₁ (v.inp m p x) (v₁.inp m₁ p' x₁) ∧ Piece n₁ n₂ (v.inp m p x) (v₂.inp m₂ p' x₂)) ∧
      ((v.inp m p x).lidTop = 0 ∧ (v.inp m p x).lidBot = 0) ∧
      (∀ k, (v.inp m p x).buoy k = 1 ∧ (v₁.inp m₁ p' x₁).buoy k = 1 ∧ (v₂.inp m₂ p' x₂).buoy k = 1) ∧
      Rm (v.upd m p x) (v₁.upd m₁ p' x₁) (v₂.upd m₂ p' x₂))
    (hso : ∀ h ∈ l, List.Forall₂ (fun f f' => ∀ n p p', Sometimes Rp p p' → f n p h = f' n p' h) sys.solves sys'.solves)
    (hit : ∀ xs xs' ns ys p p', Around da.length 1 2 (CutParts (CutT n₁ n₂)) xs xs' → Rp ys p p' →
      Rp xs' (sys.interm xs ns p) (sys'.interm xs' ns p'))
    (hre : ∀ xs xs' ns ys p p', Around da.length 1 2 (CutParts (CutT n₁ n₂)) xs xs' → Rp ys p p' →
      Rp xs' (sys.result xs ns p) (sys'.result xs' ns p'))
    {s : State (ℕ → K) H N P} {s' : State (ℕ → K) H N P'}
    (hs : Corresponds sys sys' (Around da.length 1 2 (CutParts (CutT n₁ n₂))) (Around da.length 1 2 (CutParts Rm)) Eq Rp
      s s')
    (hst : ∀ l₁ h l₂, l = l₁ ++ h :: l₂ →
      (call sys (simulate sys s (l₁.map fun h => ([], h))) [] h).stable = true ∧
        (call sys' (simulate sys' s' (l₁.map fun h => ([], h))) [] h).stable = true) :
    Around da.length 1 2 (CutParts (CutT n₁ n₂)) ((simulate sys s (l.map fun h => ([], h))).parts.map PState.prev)
      ((simulate sys' s' (l.map fun h => ([], h))).parts.map PState.prev) := by
  refine (simulate_twins l hs (fun h hh => ?_) hst).temps
  refine replace_twins (db := [v.pipe io pin pout]) (db' := [v₁.pipe io₁ pin₁ pout₁, v₂.pipe io₂ pin₂ pout₂]) hd hd'
    (ha h hh) (hr h hh) ?_ ?_ (hso h hh) hit hre
  · rintro _ _ p p' _ _ ya yr ⟨m, m₁, m₂, rfl, rfl, hm⟩ hp hy ⟨x, x₁, x₂, rfl, rfl, hx⟩ _ _ _ _
    obtain ⟨⟨i1, i2⟩, i3, i4, i5⟩ := hin _ m m₁ m₂ p p' x x₁ x₂ hm hp hx
    obtain ⟨⟨p1, p2, p3, p4⟩, ⟨p5, p6⟩, p7, p8⟩ := hpo ya x₁ x₂ yr p p' hy hp
    refine ⟨⟨_, _, _, rfl, rfl, ?_⟩, ⟨_, _, _, rfl, rfl, i5⟩⟩
    have j1 : x₂ 0 = (v.inp m p x).T n₁ := by rw [hT, hx.2 0 h₂, add_zero]
    have j2 : x₁ (n₁ - 1) = (v.inp m p x).T (n₁ - 1) := by rw [hT, hx.1 _ (by omega)]
    rw [j1] at p6
    rw [j2] at p8
    obtain ⟨r1, r2⟩ := C132_pipe_partial (io := io p) hn h₁ h₂ hu (fun _ _ => hlam _) i4 i3 i1 i2 (hidx p).1 (hidx p).2 p5 p7 p4 p6 p8
    constructor
    · intro k hk
      simp only [Vessel.pipe, hg₁, hmat.1, p1, p3]
      rw [if_pos hk, if_pos (by omega)]
      exact r1 k hk
    · intro k hk
      simp only [Vessel.pipe, hg₂, hmat.2, p2]
      rw [if_pos hk, if_pos (by omega)]
      exact r2 k hk
  · rintro a _ _ _ _ ⟨x, x₁, x₂, rfl, rfl, hx⟩ ⟨y, y₁, y₂, rfl, rfl, hy⟩
    refine ⟨_, _, _, rfl, rfl, fun k hk => ?_, fun k hk => ?_⟩
    · simp only [Pi.add_apply, Pi.smul_apply, hx.1 k hk, hy.1 k hk]
    · simp only [Pi.add_apply, Pi.smul_apply, hx.2 k hk, hy.2 k hk]

/-- The wall of the pipe below. -/
def cutSpec : PortCond.Spec ℚ := ⟨1, 1, 1, 1⟩

/-- A pipe of three cells with a conducting wall. -/
def longPipe (n : ℕ) (P : Type) : Vessel ℚ Unit P where
  mat := ⟨fun _ => 1, fun _ => 1, fun _ => 1⟩
  g := ⟨n, 1, 1, 1, 0, 1⟩
  inp _ _ x := ⟨x, 0, 0, 0, fun _ => 1, 0, 0, fun _ => 1⟩
  ports _ := []
  upd _ _ _ := ()
  check _ _ _ _ := true

def longPlant : System ℚ (ℕ → ℚ) Unit Unit ℚ where
  diffs := [(longPipe 3 ℚ).pipe (fun _ => 2) (fun p => ⟨0, p, 1, 1, 0, 2⟩) (fun _ => ⟨2, 0, 1, 1, 0, -2⟩)]
  solves := []
  interm _ _ p := p
  result _ _ p := p

/-- The port array of the plant with the divided pipe holds the temperature of the inflow and of the cells on both sides
of the cut; `getPorts` reads them. -/
def getPorts (xs : List (ℕ → ℚ)) (p : ℚ × ℚ × ℚ) : ℚ × ℚ × ℚ :=
  match xs with
  | x₁ :: x₂ :: _ => (p.1, x₁ 0, x₂ 0)
  | _ => p

def cutPlant : System ℚ (ℕ → ℚ) Unit Unit (ℚ × ℚ × ℚ) where
  diffs := [(longPipe 1 _).pipe (fun _ => 2) (fun p => ⟨0, p.1, 1, 1, 0, 2⟩)
      (fun p => ⟨0, p.2.2, PortCond.areaFld cutSpec cutSpec, 1, PortCond.uaWll cutSpec cutSpec, -2⟩),
    (longPipe 2 _).pipe (fun _ => 2)
      (fun p => ⟨0, p.2.1, PortCond.areaFld cutSpec cutSpec, 1, PortCond.uaWll cutSpec cutSpec, 2⟩)
      (fun _ => ⟨1, 0, 1, 1, 0, -2⟩)]
  solves := []
  interm xs _ p := getPorts xs p
  result xs _ p := getPorts xs p

/-- The hypotheses are met by this plant, for any temperatures, temperature of the inflow, step length and number of
steps. -/
example (l : List ℚ) (x : ℕ → ℚ) (p : ℚ) : Around 0 1 2 (CutParts (CutT 1 2))
    ((simulate longPlant (pipeState x p) (l.map fun h => ([], h))).parts.map PState.prev)
    ((simulate cutPlant ⟨[⟨x, fun _ => 0, fun _ => 0, fun _ => 0, fun _ => 0, ()⟩,
      ⟨fun k => x (1 + k), fun _ => 0, fun _ => 0, fun _ => 0, fun _ => 0, ()⟩], [], (p, x 0, x 1), true⟩
      (l.map fun h => ([], h))).parts.map PState.prev) := by
  have stab : ∀ h (s : State (ℕ → ℚ) Unit Unit ℚ) (s' : State (ℕ → ℚ) Unit Unit (ℚ × ℚ × ℚ)),
      (call longPlant s [] h).stable = true ∧ (call cutPlant s' [] h).stable = true := by
    intro h s s'
    obtain ⟨parts, nn, p, st⟩ := s
    obtain ⟨parts', nn', p', st'⟩ := s'
    constructor
    · cases parts <;> rfl
    · rcases parts' with _ | ⟨a, _ | ⟨b, l⟩⟩ <;> rfl
  have ports : ∀ (xs xs' ys : List (ℕ → ℚ)) (p : ℚ) (p' : ℚ × ℚ × ℚ), Around 0 1 2 (CutParts (CutT 1 2)) xs xs' →
      (p'.1 = p ∧ ∀ x₁ x₂ r, ys = x₁ :: x₂ :: r → p'.2 = (x₁ 0, x₂ 0)) →
      (getPorts xs' p').1 = p ∧ ∀ x₁ x₂ r, xs' = x₁ :: x₂ :: r → (getPorts xs' p').2 = (x₁ 0, x₂ 0) := by
    rintro xs _ ys p p' ⟨a, b, b', r, rfl, rfl, h1, _, _, y, y₁, y₂, rfl, rfl, _⟩ ⟨rfl, _⟩
    obtain rfl : a = [] := List.length_eq_zero_iff.1 h1
    refine ⟨rfl, fun x₁ x₂ r' e => ?_⟩
    simp only [List.nil_append, List.cons_append, List.cons.injEq] at e
    obtain ⟨rfl, rfl, _⟩ := e
    rfl
  refine C132_simulation_partial (v := longPipe 3 ℚ) (v₁ := longPipe 1 _) (v₂ := longPipe 2 _) (own := cutSpec)
    (Rm := fun _ _ _ => True)
    (Rp := fun ys p p' => p'.1 = p ∧ ∀ x₁ x₂ r, ys = x₁ :: x₂ :: r → p'.2 = (x₁ 0, x₂ 0)) (da := []) (da' := [])
    (dr := []) (dr' := []) (io := fun _ => 2) l rfl rfl (fun _ _ => List.Forall₂.nil)
    (fun _ _ => List.Forall₂.nil) rfl (by decide) (by decide) ⟨rfl, rfl, by norm_num [cutSpec, longPipe], by norm_num [cutSpec]⟩
    (fun _ => by norm_num [longPipe]) rfl rfl ⟨rfl, rfl⟩ (fun _ => ⟨rfl, rfl⟩) ?_ (fun _ _ _ => rfl) ?_
    (fun _ _ => List.Forall₂.nil) ?_ ?_ ?_ (fun l₁ h l₂ _ => stab h _ _)
  · rintro ya x₁ x₂ yr p ⟨p', q⟩ hy ⟨rfl, h2⟩
    obtain rfl : ya = [] := List.length_eq_zero_iff.1 hy
    obtain rfl := h2 x₁ x₂ yr rfl
    exact ⟨⟨rfl, rfl, rfl, rfl⟩, ⟨rfl, rfl, rfl, rfl, rfl⟩, rfl, rfl, rfl, rfl, rfl⟩
  · rintro ys m m₁ m₂ p p' x x₁ x₂ _ _ hx
    refine ⟨⟨⟨fun k hk => ?_, fun _ _ => rfl, rfl, rfl, rfl⟩, ⟨hx.2, fun _ _ => rfl, rfl, rfl, rfl⟩⟩, ⟨rfl, rfl⟩,
      fun _ => ⟨rfl, rfl, rfl⟩, trivial⟩
    rw [zero_add]; exact hx.1 k hk
  · intro xs xs' ns ys p p' ha hp
    exact ports xs xs' ys p p' ha hp
  · intro xs xs' ns ys p p' ha hp
    exact ports xs xs' ys p p' ha hp
  · refine ⟨rfl, rfl, ⟨[], [x], [x, fun k => x (1 + k)], [], rfl, rfl, rfl, rfl, rfl, x, _, _, rfl, rfl, fun _ _ => rfl, fun _ _ => rfl⟩,
      ⟨[], [()], [(), ()], [], rfl, rfl, rfl, rfl, rfl, (), (), (), rfl, rfl, trivial⟩, rfl, rfl, ?_⟩
    intro x₁ x₂ r e
    simp only [List.map_cons, List.map_nil, List.cons.injEq] at e
    obtain ⟨rfl, rfl, _⟩ := e
    rfl

end Verif.Attempt
