import Verif.Model.FlowLength
import Verif.Props.HotSurface
import Verif.Props.Mirror
import Mathlib.Topology.Order.IntermediateValue
import Mathlib.Analysis.SpecialFunctions.Pow.Continuity

/-!
# Heat losses and the number of grid points (C149)
-/

namespace Verif.FlowLength

open Verif.Conductance Verif.Geometry Verif.HotSurface

/-! ### Spec -/

/-- The coefficients of one cell no longer change when the differential is evaluated again. -/
def Steady (g : Shell) (c : Coeffs) (e : Eval) : Prop := 0 < c.alphaInf ∧ evaluate g c e = c

/-! ### Pipes -/

/-- Coefficients of cells of two grids: the same, conductances in proportion to the lengths. -/
structure Alike (n n' : ℝ) (c c' : Coeffs) : Prop where
  alphaI : c.alphaI = c'.alphaI
  alphaInf : c.alphaInf = c'.alphaInf
  Ts : c.Ts = c'.Ts
  ua : n * c.ua = n' * c'.ua

theorem ua_scale {g g' : Shell} {n n' : ℝ} (hI : n * g.aShellI = n' * g'.aShellI) (h1 : g.rLnWll = g'.rLnWll)
    (h2 : g.lamWll = g'.lamWll) (h3 : g.rLnIns = g'.rLnIns) (h4 : g.lamIns = g'.lamIns) (h5 : g.rRins = g'.rRins)
    (a b : ℝ) : n * uaFldWllInsAmbCyl g a b = n' * uaFldWllInsAmbCyl g' a b := by
  unfold uaFldWllInsAmbCyl
  rw [h1, h2, h3, h4, h5, ← mul_div_assoc, ← mul_div_assoc, hI]

theorem pipe_evaluate {p : PipeArgs} {n' : ℤ} {g g' : Shell} (hn : 0 < p.n) (hn' : 0 < n') (hg : pipeShell p = some g)
    (hg' : pipeShell { p with n := n' } = some g') {c c' : Coeffs} (hc : Alike p.n n' c c') {e : Eval}
    (he : e.dm = 0) (y : ℝ) : Alike p.n n' (evaluate g c e) (evaluate g' c' { e with x := y }) := by
  simp only [pipeShell, calcFlowLength, Option.map_some, Option.some.injEq] at hg hg'
  have N : (p.n : ℝ) ≠ 0 := by exact_mod_cast hn.ne'
  have N' : (n' : ℝ) ≠ 0 := by exact_mod_cast hn'.ne'
  subst hg hg'
  have hTs : surfaceTemp e.T e.Tamb (Real.pi * (p.dO / 2 + p.sIns) * 2 * (p.length / p.n)) c.alphaInf c.ua =
      surfaceTemp e.T e.Tamb (Real.pi * (p.dO / 2 + p.sIns) * 2 * (p.length / n')) c'.alphaInf c'.ua := by
    unfold surfaceTemp
    have h : ∀ (a l m q u : ℝ), m ≠ 0 → q * u / (a * (l * (p.length / m))) = q * (m * u) / (a * (l * p.length)) := by
      intro a l m q u hm
      rw [← mul_div_assoc, ← mul_div_assoc, div_div_eq_mul_div]
      ring
    rw [h _ _ _ _ _ N, h _ _ _ _ _ N', hc.ua, hc.alphaInf]
  have hI : pipeAlphaI e.dm e.T (Shell.aCell
      ⟨p.dI / 2, p.dO / 2, p.dO / 2 + p.sIns, p.length / p.n, p.lamWll, p.lamIns, (p.dO / 2 + p.sIns) * 2 * Real.pi / 2, false⟩)
      (2 * (p.dI / 2)) e.x = pipeAlphaI e.dm e.T (Shell.aCell
      ⟨p.dI / 2, p.dO / 2, p.dO / 2 + p.sIns, p.length / n', p.lamWll, p.lamIns, (p.dO / 2 + p.sIns) * 2 * Real.pi / 2, false⟩)
      (2 * (p.dI / 2)) y := by
    rw [he]
    exact FlowAlpha.pipeAlphaI_rest _ _ _ _ _
  have hInf := congrArg (fun t => cylinderAlphaInf t e.Tamb ((p.dO / 2 + p.sIns) * 2 * Real.pi / 2) false
    (p.dO / 2 + p.sIns)) hTs
  refine ⟨hI, hInf, hTs, ?_⟩
  simp only [evaluate]
  rw [hI]
  refine (congrArg (fun b => (p.n : ℝ) * uaFldWllInsAmbCyl _ _ b) hInf).trans ?_
  refine ua_scale ?_ ?_ ?_ ?_ ?_ ?_ _ _ <;> try rfl
  simp only [Shell.aShellI]
  field_simp

/-- The temperatures of two histories of evaluations of cells of pipes at rest are the same. -/
def SameRest (es es' : List Eval) : Prop :=
  List.Forall₂ (fun e e' => e.dm = 0 ∧ e'.dm = 0 ∧ e.T = e'.T ∧ e.Tamb = e'.Tamb) es es'

/-- **C149** (pipes): a pipe at rest with water of one temperature loses the same heat for every number of grid
points, after any history of evaluations. -/
theorem C149_pipe_partial {p : PipeArgs} {n' : ℤ} {g g' : Shell} (hn : 0 < p.n) (hn' : 0 < n')
    (hg : pipeShell p = some g) (hg' : pipeShell { p with n := n' } = some g') {es es' : List Eval}
    (h : SameRest es es') : p.n * (history g es).ua = n' * (history g' es').ua := by
  suffices H : ∀ {es es' : List Eval}, SameRest es es' → ∀ c c', Alike p.n n' c c' →
      Alike p.n n' (es.foldl (evaluate g) c) (es'.foldl (evaluate g') c') from
    (H h Coeffs.init Coeffs.init ⟨rfl, rfl, rfl, by simp [Coeffs.init]⟩).ua
  clear h es es'
  intro es es' h
  induction h with
  | nil => exact fun c c' hc => hc
  | @cons e e' es es' he _ ih =>
    intro c c' hc
    rw [List.foldl_cons, List.foldl_cons]
    refine ih _ _ ?_
    obtain ⟨h1, h2, h3, h4⟩ := he
    have := pipe_evaluate hn hn' hg hg' hc h1 e'.x
    have e2 : ({ e with x := e'.x } : Eval) = e' := by
      cases e; cases e'; simp only at h1 h2 h3 h4; subst h1 h2 h3 h4; rfl
    rwa [e2] at this

/-- 50 m of pipe at rest with water at 60 degC, cold before, with 5 and with 40 cells. -/
example : (5 : ℤ) * (history ⟨0.01, 0.011, 0.031, 50 / (5 : ℤ), 400, 0.04, (0.022 / 2 + 0.02) * 2 * Real.pi / 2, false⟩
      [⟨0, 20, 20, 5⟩, ⟨0, 60, 20, 5⟩]).ua =
    (40 : ℤ) * (history ⟨0.01, 0.011, 0.031, 50 / (40 : ℤ), 400, 0.04, (0.022 / 2 + 0.02) * 2 * Real.pi / 2, false⟩
      [⟨0, 20, 20, 1⟩, ⟨0, 60, 20, 1⟩]).ua := by
  refine C149_pipe_partial (p := ⟨50, 5, 0.0003, 0.02, 0.022, 0.02, 0.04, 400, 380, 8900⟩) (by decide) (by decide) ?_ ?_ ?_
  · simp only [pipeShell, calcFlowLength, Option.map_some, Option.some.injEq, Shell.mk.injEq]
    norm_num
  · simp only [pipeShell, calcFlowLength, Option.map_some, Option.some.injEq, Shell.mk.injEq]
    norm_num
  · exact .cons ⟨rfl, rfl, rfl, rfl⟩ (.cons ⟨rfl, rfl, rfl, rfl⟩ .nil)

/-! ### Storages -/

/-- The outer heat transfer coefficient of a vertical cylinder, with the length of the flow taken out. -/
theorem cylinder_eq {Ts Tinf L r : ℝ} (hi : -100 ≤ Tinf) (hL : 0 < L) :
    cylinderAlphaInf Ts Tinf L true r = ((0.825 / Real.sqrt L + 0.387 *
      (rayleigh Ts Tinf (nyAir ((Tinf + Ts) / 2)) 1 * 0.3466023585520853) ^ ((1 : ℝ) / 6)) ^ 2 + 0.435 / (2 * r)) *
      lamAir ((Tinf + Ts) / 2) := by
  unfold cylinderAlphaInf
  rw [if_pos rfl]
  have hR : rayleigh Ts Tinf (nyAir ((Tinf + Ts) / 2)) L =
      rayleigh Ts Tinf (nyAir ((Tinf + Ts) / 2)) 1 * L ^ 3 := by
    unfold rayleigh; ring
  have h0 : 0 ≤ rayleigh Ts Tinf (nyAir ((Tinf + Ts) / 2)) 1 := rayleigh_nonneg (by linarith) one_pos
  rw [hR, show rayleigh Ts Tinf (nyAir ((Tinf + Ts) / 2)) 1 * L ^ 3 * 0.3466023585520853 =
    rayleigh Ts Tinf (nyAir ((Tinf + Ts) / 2)) 1 * 0.3466023585520853 * L ^ 3 by ring,
    Real.mul_rpow (by positivity) (by positivity)]
  have h6 : (L ^ 3) ^ ((1 : ℝ) / 6) = Real.sqrt L := by
    rw [Real.sqrt_eq_rpow, ← Real.rpow_natCast, ← Real.rpow_mul hL.le]
    norm_num
  rw [h6]
  have hs : Real.sqrt L ≠ 0 := (Real.sqrt_pos.2 hL).ne'
  have hsq : Real.sqrt L ^ 2 = L := Real.sq_sqrt hL.le
  generalize (rayleigh Ts Tinf (nyAir ((Tinf + Ts) / 2)) 1 * 0.3466023585520853) ^ ((1 : ℝ) / 6) = y
  generalize lamAir ((Tinf + Ts) / 2) = l
  generalize Real.sqrt L = s at *
  subst hsq
  field_simp

theorem cylinder_lt {Ts Tinf L L' r : ℝ} (hs : -100 ≤ Ts) (hs' : Ts ≤ 200) (hi : -100 ≤ Tinf) (hi' : Tinf ≤ 200)
    (hL' : 0 < L') (h : L' < L) : cylinderAlphaInf Ts Tinf L true r < cylinderAlphaInf Ts Tinf L' true r := by
  rw [cylinder_eq hi (hL'.trans h), cylinder_eq hi hL']
  have hl : 0 < lamAir ((Tinf + Ts) / 2) := lamAir_pos (by linarith) (by linarith)
  have h0 : 0 ≤ rayleigh Ts Tinf (nyAir ((Tinf + Ts) / 2)) 1 := rayleigh_nonneg (by linarith) one_pos
  have hy : 0 ≤ (rayleigh Ts Tinf (nyAir ((Tinf + Ts) / 2)) 1 * 0.3466023585520853) ^ ((1 : ℝ) / 6) := by positivity
  have h1 : Real.sqrt L' < Real.sqrt L := Real.sqrt_lt_sqrt hL'.le h
  have h2 : 0 < Real.sqrt L' := Real.sqrt_pos.2 hL'
  have h3 : 0 < Real.sqrt L := h2.trans h1
  refine mul_lt_mul_of_pos_right ?_ hl
  gcongr

/-- Storages for which the theorem below is stated. -/
structure Sound (p : TesArgs) : Prop where
  accepted : p.Accepted
  volume : 0 < p.volume
  wall : 2 * p.shell < p.dO
  lamIns : 0 < p.lamIns
  lamWll : 0 < p.lamWll

theorem Sound.height {p : TesArgs} (h : Sound p) : 0 < p.height := by
  have := h.wall
  have hd : 0 < p.dI := by unfold TesArgs.dI; linarith
  have := h.volume
  unfold TesArgs.height
  positivity

theorem tesShell_eq {p : TesArgs} {g : Shell} (hg : tesShell p = some g) :
    g = ⟨p.dI / 2, p.dO / 2, p.dO / 2 + p.sIns, p.height / p.n, p.lamWll, p.lamIns, p.height / p.n, true⟩ := by
  simp only [tesShell, calcFlowLength, Option.map_some, Option.some.injEq] at hg
  exact hg.symm

theorem tesShell_valid {p : TesArgs} (h : Sound p) (hn : 0 < p.n) {g : Shell} (hg : tesShell p = some g) : g.Valid := by
  rw [tesShell_eq hg]
  obtain ⟨a1, a2, a3, a4, a5⟩ := h.accepted
  have hH := h.height
  have hw := h.wall
  have N : (0 : ℝ) < p.n := by exact_mod_cast hn
  have hd : 0 < p.dI := by unfold TesArgs.dI; linarith
  exact ⟨by simp only; positivity, by simp only [TesArgs.dI]; linarith, by simp only; linarith,
    div_pos hH N, h.lamWll, h.lamIns, div_pos hH N⟩

/-- Resistance from the water to the surface, per inner area. -/
noncomputable def res (g : Shell) (aI : ℝ) : ℝ := 1 / aI + g.rLnWll / g.lamWll + g.rLnIns / g.lamIns

theorem res_pos {g : Shell} (v : g.Valid) {aI : ℝ} (hI : 0 < aI) : 0 < res g aI := by
  have h1 := v.rLnWll_pos
  have h2 := v.rLnIns_nonneg
  have h3 := v.lamWll
  have h4 := v.lamIns
  unfold res
  positivity

/-- The surface temperature belongs to the coefficients exactly if what comes through the wall leaves to the air. -/
theorem surface_iff {g : Shell} (v : g.Valid) {aI α T Tamb Ts : ℝ} (hI : 0 < aI) (hα : 0 < α) :
    surfaceTemp T Tamb g.aShellIns α (uaFldWllInsAmbCyl g aI α) = Ts ↔
      α * (Ts - Tamb) = (T - Ts) * (g.rRins / res g aI) := by
  have hR := res_pos v hI
  have hr := v.rRins_pos
  have hA := v.aShellIns_pos
  have hu : uaFldWllInsAmbCyl g aI α = g.rRins * g.aShellIns / (res g aI + g.rRins / α) := by
    rw [← v.area_ratio]; rfl
  rw [hu]
  unfold surfaceTemp
  generalize res g aI = R at *
  generalize g.rRins = ρ at *
  generalize g.aShellIns = A at *
  have e : (T - Tamb) * (ρ * A / (R + ρ / α)) / (α * A) = (T - Tamb) * ρ / (R * α + ρ) := by
    have : R + ρ / α ≠ 0 := by positivity
    field_simp
  rw [e, show (T - Ts) * (ρ / R) = (T - Ts) * ρ / R by ring, eq_div_iff hR.ne', ← eq_sub_iff_add_eq',
    div_eq_iff (by positivity)]
  constructor <;> intro h <;> linarith

/-- What a steady cell loses, by its surface temperature. -/
theorem steady_balance {g : Shell} (v : g.Valid) {c : Coeffs} {e : Eval} (he : e.Valid) (h : Steady g c e) :
    c.Ts = surfaceTemp e.T e.Tamb g.aShellIns c.alphaInf c.ua ∧
    c.alphaI = pipeAlphaI e.dm e.T g.aCell (2 * g.rI) e.x ∧
    c.alphaInf = cylinderAlphaInf c.Ts e.Tamb g.flowLength g.vertical g.rTotal ∧
    c.ua = uaFldWllInsAmbCyl g c.alphaI c.alphaInf ∧ 0 < c.alphaI := by
  obtain ⟨-, h⟩ := h
  have h1 := congrArg Coeffs.Ts h
  have h2 := congrArg Coeffs.alphaI h
  have h3 := congrArg Coeffs.alphaInf h
  have h4 := congrArg Coeffs.ua h
  simp only [evaluate] at h1 h2 h3 h4
  rw [h1] at h3 h4
  rw [h2, h3] at h4
  exact ⟨h1.symm, h2.symm, h3.symm, h4.symm,
    h2 ▸ pipeAlphaI_pos he.T0 he.T1 v.aCell_pos (by linarith [v.rI]) he.x⟩

/-- **C149** fails for storages: of two grids the finer one has the larger steady conductance to the ambient, for every
storage at rest which is warmer than the ambient: the length of the flow is the height of one cell. -/
theorem C149_fails_storage {p : TesArgs} {n' : ℤ} (hp : Sound p) (hn : 0 < p.n) (hn' : p.n < n') {g g' : Shell}
    (hg : tesShell p = some g) (hg' : tesShell { p with n := n' } = some g') {e e' : Eval} (he : e.Valid)
    (he' : e'.Valid) (h0 : e.dm = 0) (h0' : e'.dm = 0) (hT : e'.T = e.T) (ha : e'.Tamb = e.Tamb) (hw : e.Tamb < e.T)
    {c c' : Coeffs} (hc : Steady g c e) (hc' : Steady g' c' e') : p.n * c.ua < n' * c'.ua := by
  have v := tesShell_valid hp hn hg
  have v' := tesShell_valid (p := { p with n := n' }) ⟨hp.accepted, hp.volume, hp.wall, hp.lamIns, hp.lamWll⟩
    (hn.trans hn') hg'
  have N : (0 : ℝ) < p.n := by exact_mod_cast hn
  have NN : (p.n : ℝ) < n' := by exact_mod_cast hn'
  have N' : (0 : ℝ) < n' := N.trans NN
  have hH := hp.height
  obtain ⟨s1, s2, s3, s4, s5⟩ := steady_balance v he hc
  obtain ⟨t1, t2, t3, t4, t5⟩ := steady_balance v' he' hc'
  have eg := tesShell_eq hg
  have eg' := tesShell_eq hg'
  have hI : c'.alphaI = c.alphaI := by
    rw [s2, t2, h0, h0', hT, eg, eg']
    exact FlowAlpha.pipeAlphaI_rest _ _ _ _ _
  rw [s4] at s1
  rw [t4, hT, ha] at t1
  have b := (C52_surface_between v s5 hc.1 e.T e.Tamb).2.2.2.1 hw
  have b' := (C52_surface_between v' t5 hc'.1 e.T e.Tamb).2.2.2.1 hw
  have q := (C52_surface_between v s5 hc.1 e.T e.Tamb).2.2.2.2
  have q' := (C52_surface_between v' t5 hc'.1 e.T e.Tamb).2.2.2.2
  have x := (surface_iff v s5 hc.1).1 s1.symm
  have x' := (surface_iff v' t5 hc'.1).1 t1.symm
  rw [← s1, ← s4] at q
  rw [← t1, ← t4] at q'
  rw [← s1] at b
  rw [← t1] at b'
  have hres : res g' c'.alphaI = res g c.alphaI := by rw [hI, eg, eg']; rfl
  have hrho : g'.rRins = g.rRins := by rw [eg, eg']; rfl
  have hK : 0 < g.rRins / res g c.alphaI := div_pos v.rRins_pos (res_pos v s5)
  rw [hres, hrho] at x'
  have a0 := he.a0; have a1 := he.a1; have T1 := he.T1
  have hTs : c'.Ts < c.Ts := by
    by_contra hle
    push Not at hle
    have h1 : flux (cylinderAlphaInf c.Ts e.Tamb g'.flowLength true g'.rTotal) c.Ts e.Tamb ≤
        flux (cylinderAlphaInf c'.Ts e.Tamb g'.flowLength true g'.rTotal) c'.Ts e.Tamb := by
      rcases hle.eq_or_lt with h | h
      · rw [h]
      · exact (C128_cylinder true true v'.flowLength v'.rTotal_pos a0 a1 (by linarith) h (by linarith)).1.le
    have h2 : cylinderAlphaInf c.Ts e.Tamb g.flowLength true g.rTotal <
        cylinderAlphaInf c.Ts e.Tamb g'.flowLength true g'.rTotal := by
      have hr : g'.rTotal = g.rTotal := by rw [eg, eg']
      rw [hr]
      refine cylinder_lt (by linarith) (by linarith) a0 a1 v'.flowLength ?_
      rw [eg, eg']
      exact div_lt_div_of_pos_left hH N NN
    have e1 : g.vertical = true := by rw [eg]
    have e2 : g'.vertical = true := by rw [eg']
    rw [e1] at s3
    rw [e2, ha] at t3
    rw [← s3] at h2
    rw [← t3] at h1
    unfold flux at h1
    have h3 : 0 < c.Ts - e.Tamb := by linarith [b.1]
    have h4 := mul_lt_mul_of_pos_right h2 h3
    have h5 : (e.T - c'.Ts) * (g.rRins / res g c.alphaI) ≤ (e.T - c.Ts) * (g.rRins / res g c.alphaI) :=
      mul_le_mul_of_nonneg_right (by linarith) hK.le
    linarith
  have hA : n' * g'.aShellIns = p.n * g.aShellIns := by
    rw [eg, eg']
    simp only [Shell.aShellIns]
    field_simp
    rfl
  have hA0 : 0 < p.n * g.aShellIns := mul_pos N v.aShellIns_pos
  have h6 : (e.T - c.Ts) * (g.rRins / res g c.alphaI) < (e.T - c'.Ts) * (g.rRins / res g c.alphaI) :=
    mul_lt_mul_of_pos_right (by linarith) hK
  have hd : 0 < e.T - e.Tamb := by linarith
  refine lt_of_mul_lt_mul_right ?_ hd.le
  have y1 : p.n * c.ua * (e.T - e.Tamb) = p.n * g.aShellIns * ((e.T - c.Ts) * (g.rRins / res g c.alphaI)) := by
    rw [← x]; linear_combination (-(p.n : ℝ)) * q
  have y2 : n' * c'.ua * (e.T - e.Tamb) = p.n * g.aShellIns * ((e.T - c'.Ts) * (g.rRins / res g c.alphaI)) := by
    rw [← x', ← hA]; linear_combination (-(n' : ℝ)) * q'
  rw [y1, y2]
  exact mul_lt_mul_of_pos_left h6 hA0

theorem cylinder_continuous {Tinf L r : ℝ} (b : Bool) (hi : -100 ≤ Tinf) :
    ContinuousOn (fun Ts => cylinderAlphaInf Ts Tinf L b r) (Set.Ici Tinf) := by
  have hn : ContinuousOn (fun Ts => nyAir ((Tinf + Ts) / 2)) (Set.Ici Tinf) := by
    unfold nyAir; fun_prop
  have hl : ContinuousOn (fun Ts => lamAir ((Tinf + Ts) / 2)) (Set.Ici Tinf) := by
    unfold lamAir; fun_prop
  have hR : ContinuousOn (fun Ts => rayleigh Ts Tinf (nyAir ((Tinf + Ts) / 2)) L) (Set.Ici Tinf) := by
    unfold rayleigh
    refine ContinuousOn.div (by fun_prop) (by fun_prop) ?_
    intro t ht
    have ht : Tinf ≤ t := ht
    have := nyAir_pos (T := (Tinf + t) / 2) (by linarith)
    have : (0 : ℝ) < Tinf + 273.15 := by linarith
    positivity
  have hp : ∀ k : ℝ, ContinuousOn (fun Ts => (rayleigh Ts Tinf (nyAir ((Tinf + Ts) / 2)) L * k) ^ ((1 : ℝ) / 6))
      (Set.Ici Tinf) := fun k =>
    ContinuousOn.rpow_const (hR.mul continuousOn_const) (fun _ _ => Or.inr (by norm_num))
  unfold cylinderAlphaInf
  cases b
  · simp only [Bool.false_eq_true, if_false]
    exact (((continuousOn_const.add (continuousOn_const.mul (hp _))).pow 2).mul hl).div_const _
  · simp only [if_true]
    exact ((((continuousOn_const.add (continuousOn_const.mul (hp _))).pow 2).add continuousOn_const).mul hl).div_const _

/-- Every cell which is warmer than the ambient has a steady state. -/
theorem steady_exists {g : Shell} (v : g.Valid) {e : Eval} (he : e.Valid) (h : e.Tamb < e.T) :
    ∃ c, Steady g c e := by
  have a0 := he.a0; have a1 := he.a1; have T1 := he.T1
  have hI : 0 < pipeAlphaI e.dm e.T g.aCell (2 * g.rI) e.x :=
    pipeAlphaI_pos he.T0 he.T1 v.aCell_pos (by linarith [v.rI]) he.x
  obtain ⟨aI, haI⟩ : ∃ aI, aI = pipeAlphaI e.dm e.T g.aCell (2 * g.rI) e.x := ⟨_, rfl⟩
  rw [← haI] at hI
  have hK : 0 < g.rRins / res g aI := div_pos v.rRins_pos (res_pos v hI)
  have hc : ContinuousOn (fun t => cylinderAlphaInf t e.Tamb g.flowLength g.vertical g.rTotal * (t - e.Tamb) -
      (e.T - t) * (g.rRins / res g aI)) (Set.Icc e.Tamb e.T) := by
    refine ContinuousOn.sub (ContinuousOn.mul ((cylinder_continuous _ a0).mono fun t ht => ht.1) ?_) ?_ <;> fun_prop
  have hpos : ∀ t, e.Tamb ≤ t → t ≤ e.T → 0 < cylinderAlphaInf t e.Tamb g.flowLength g.vertical g.rTotal :=
    fun t h1 h2 => cylinderAlphaInf_pos _ (by linarith) (by linarith) a0 a1 v.flowLength v.rTotal_pos
  obtain ⟨t, ⟨ht0, ht1⟩, ht⟩ := intermediate_value_Icc h.le hc (show (0 : ℝ) ∈ Set.Icc _ _ from by
    constructor
    · simp only [sub_self, mul_zero, zero_sub]
      have := mul_pos (sub_pos.2 h) hK
      linarith
    · simp only [sub_self, zero_mul, sub_zero]
      exact (mul_pos (hpos _ h.le le_rfl) (sub_pos.2 h)).le)
  simp only at ht
  have hS := (surface_iff v hI (hpos t ht0 ht1) (T := e.T) (Tamb := e.Tamb) (Ts := t)).2 (by linarith)
  refine ⟨⟨aI, cylinderAlphaInf t e.Tamb g.flowLength g.vertical g.rTotal,
    uaFldWllInsAmbCyl g aI (cylinderAlphaInf t e.Tamb g.flowLength g.vertical g.rTotal), t⟩, hpos t ht0 ht1, ?_⟩
  simp only [evaluate]
  rw [hS, ← haI]

/-- A storage of 1000 l with a diameter of 80 cm. -/
noncomputable def tank (n : ℤ) : TesArgs := ⟨1, n, 0.8, 0.005, 0.1, 0.035, 50, 500, 7850⟩

theorem tank_sound (n : ℤ) : Sound (tank n) := by
  constructor <;> norm_num [tank, TesArgs.Accepted]

/-- With 100 cells it loses more heat at 60 degC than with 10. -/
example : ∃ g g' c c', tesShell (tank 10) = some g ∧ tesShell (tank 100) = some g' ∧
    Steady g c ⟨0, 60, 20, 1⟩ ∧ Steady g' c' ⟨0, 60, 20, 1⟩ ∧ (10 : ℤ) * c.ua < (100 : ℤ) * c'.ua := by
  have he : (⟨0, 60, 20, 1⟩ : Eval).Valid := by constructor <;> norm_num
  obtain ⟨g, hg⟩ : ∃ g, tesShell (tank 10) = some g := ⟨_, rfl⟩
  obtain ⟨g', hg'⟩ : ∃ g, tesShell (tank 100) = some g := ⟨_, rfl⟩
  obtain ⟨c, hc⟩ := steady_exists (tesShell_valid (tank_sound 10) (by decide) hg) he (by norm_num)
  obtain ⟨c', hc'⟩ := steady_exists (tesShell_valid (tank_sound 100) (by decide) hg') he (by norm_num)
  exact ⟨g, g', c, c', hg, hg', hc, hc', C149_fails_storage (p := tank 10) (n' := 100) (tank_sound 10) (by decide)
    (by decide) hg hg' he he rfl rfl rfl rfl (by norm_num) hc hc'⟩

/-- **C149** (lids): the length of the flow at the lids of a storage does not depend on the grid: it is the area of the disk over
its perimeter. -/
theorem C149_lid_partial {p : TesArgs} (h : 0 < p.dO) (hs : 0 ≤ p.sIns) (n' : ℤ) :
    tesLidLength { p with n := n' } = tesLidLength p ∧
    tesLidLength p = some (Real.pi * (p.dO / 2 + p.sIns) ^ 2 / (2 * Real.pi * (p.dO / 2 + p.sIns))) := by
  refine ⟨rfl, ?_⟩
  simp only [tesLidLength, calcFlowLength, Option.bind_some, Option.map_some, Option.some.injEq]
  have : 0 < p.dO / 2 + p.sIns := by linarith
  have := Real.pi_pos
  field_simp
  ring

example : tesLidLength (tank 10) = tesLidLength (tank 100) ∧ tesLidLength (tank 10) = some 0.25 := by
  obtain ⟨h1, h2⟩ := C149_lid_partial (p := tank 10) (by norm_num [tank]) (by norm_num [tank]) 100
  refine ⟨h1.symm, h2.trans ?_⟩
  have := Real.pi_pos
  simp only [tank, Option.some.injEq]
  field_simp
  norm_num

end Verif.FlowLength
