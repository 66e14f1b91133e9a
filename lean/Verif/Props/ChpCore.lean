import Verif.Model.ChpCore
import Verif.Props.StrongerHeater
import Verif.Props.Scale
import Verif.Props.Affine

/-!
# C199, C200, C205 for the water side of CHP plants
-/

set_option linter.unusedSectionVars false

namespace Verif.Cells

open Verif.Flows

variable {K : Type*} [Field K] [LinearOrder K] [IsStrictOrderedRing K] {g : Geo K}

/-- Below the shutdown temperature the water of a CHP plant and that of a heated pipe change their temperatures in the same way. -/
theorem chp_eq_heated (mat : Mat K) (g : Geo K) (s : Inp K) {limit : K} (hl : BelowLimit g s limit) (q : Heat K) (io : K)
    (pin pout : Port K) (k : ℕ) : chpCoreDT mat g s q io pin pout k = (heatedDT mat g s limit q io pin pout).1 k := by
  unfold heatedDT
  dsimp only
  rw [C46_no_false_shutdown _ _ limit _ hl.1 hl.2.1 hl.2.2]
  rfl

/-- **C199** (CHP plants): a plant of `r` times the size. -/
theorem C199_chp (mat : Mat K) (g : Geo K) (s : Inp K) {r : K} (hr : 0 < r) (q : Heat K) (io : K) (pin pout : Port K) (k : ℕ) :
    chpCoreDT mat (g.scale r) (s.scale r) (q.scale r) (r * io) (pin.scale r) (pout.scale r) k =
      chpCoreDT mat g s q io pin pout k := by
  unfold chpCoreDT
  rw [C199_pipe mat g s hr]
  congr 1
  unfold dTheat
  by_cases h : q.start ≤ k ∧ k < q.stop
  · rw [if_pos h, if_pos (show (q.scale r).start ≤ k ∧ k < (q.scale r).stop from h), mcp_scale]
    simp only [Heat.scale]
    rw [mul_assoc, cancel hr]
  · rw [if_neg h, if_neg (show ¬ ((q.scale r).start ≤ k ∧ k < (q.scale r).stop) from h)]

/-- **C200**, partial (CHP plants): constant material properties. -/
theorem C200_chp_partial (c d l : K) (g : Geo K) (s : Inp K) (a b : K) (q : Heat K) (io : K) (pin pout : Port K) (k : ℕ) :
    chpCoreDT (Mat.const c d l) g (s.affine a b) (q.scale a) io (pin.affine a b) (pout.affine a b) k =
      a * chpCoreDT (Mat.const c d l) g s q io pin pout k := by
  unfold chpCoreDT
  rw [C200_pipe_partial, mul_add]
  congr 1
  unfold dTheat
  by_cases hk : q.start ≤ k ∧ k < q.stop
  · rw [if_pos hk, if_pos (show (q.scale a).start ≤ k ∧ k < (q.scale a).stop from hk), mcp_affine]
    simp only [Heat.scale]
    ring
  · rw [if_neg hk, if_neg (show ¬ ((q.scale a).start ≤ k ∧ k < (q.scale a).stop) from hk), mul_zero]

section Run

variable {c r l : K}

/-- Specification: temperatures which the predictor proposes. -/
def HeatedPipe.chpPredict (mat : Mat K) (g : Geo K) (w : HeatedPipe K) (e : HeatStep K) (T : ℕ → K) : ℕ → K := fun k =>
  T k + e.h * chpCoreDT mat g (w.place.inp w.ins T) (w.heater.withPower e.power) e.io e.pin e.pout k

/-- Specification: temperatures of a CHP plant after a step of Heun's method (`limit` of the pipe has no effect). -/
def HeatedPipe.chpStep (mat : Mat K) (g : Geo K) (w : HeatedPipe K) (e : HeatStep K) (T : ℕ → K) : ℕ → K := fun k =>
  T k + e.h * (chpCoreDT mat g (w.place.inp w.ins T) (w.heater.withPower e.power) e.io e.pin e.pout k +
    chpCoreDT mat g (w.place.inp w.ins (w.chpPredict mat g e T)) (w.heater.withPower e.power) e.io e.pin2 e.pout2 k) / 2

/-- Specification: temperatures of a CHP plant after a run. -/
def HeatedPipe.chpRun (mat : Mat K) (g : Geo K) (w : HeatedPipe K) (T : ℕ → K) (es : List (HeatStep K)) : ℕ → K :=
  es.foldl (fun T e => w.chpStep mat g e T) T

theorem chp_euler_hotter (hc : 0 ≤ c) (hn : 2 ≤ g.n) {w : HeatedPipe K} {h io P P' : K} {pin pout pin' pout' : Port K}
    (hf : FitsPipe c r l g w h io pin pout) (h1 : HotterPort pin pin') (h2 : HotterPort pout pout') (hm : 0 ≤ w.heater.mult)
    (hP : P ≤ P') {T T' : ℕ → K} (hTT : ∀ k < g.n, T k ≤ T' k) :
    ∀ k < g.n, T k + h * chpCoreDT (constMat c r l) g (w.place.inp w.ins T) (w.heater.withPower P) io pin pout k ≤
      T' k + h * chpCoreDT (constMat c r l) g (w.place.inp w.ins T') (w.heater.withPower P') io pin' pout' k := by
  intro k hk
  obtain ⟨M, hM⟩ := exists_above T' g.n
  have hlim : ∀ k < g.n, T' k < max M 0 + 1 := fun k hk =>
    ((hM k hk).trans (le_max_left _ _)).trans_lt (lt_add_one _)
  have h0 : (0 : K) < max M 0 + 1 := (le_max_right M 0).trans_lt (lt_add_one _)
  have := heated_euler_hotter (w := { w with limit := max M 0 + 1 }) hc hn
    ⟨hf.first, hf.last, hf.inflow, hf.outflow, hf.physical, hf.forward, hf.short⟩ h1 h2 hm h0 hP hTT hlim k hk
  rw [chp_eq_heated (constMat c r l) g (w.place.inp w.ins T) (limit := max M 0 + 1)
      ⟨fun k hk => (hTT k hk).trans_lt (hlim k hk), h0, h0⟩,
    chp_eq_heated (constMat c r l) g (w.place.inp w.ins T') (limit := max M 0 + 1) ⟨hlim, h0, h0⟩]
  exact this

/-- **C205**, partial (CHP plants): the same for the water side of a CHP plant, in all runs, because nothing switches it off when
the water gets too hot.  Missing: as in `C112_pipe_partial` (constant material properties, steps short enough). -/
theorem C205_chp_partial (hc : 0 ≤ c) (hn : 2 ≤ g.n) {w : HeatedPipe K} (hm : 0 ≤ w.heater.mult)
    {es es' : List (HeatStep K)} (hee : List.Forall₂ StrongerStep es es')
    (hes : ∀ e ∈ es, FitsPipe c r l g w e.h e.io e.pin e.pout ∧ FitsPipe c r l g w e.h e.io e.pin2 e.pout2) :
    ∀ {T T' : ℕ → K}, (∀ k < g.n, T k ≤ T' k) → ∀ k < g.n,
      w.chpRun (constMat c r l) g T es k ≤ w.chpRun (constMat c r l) g T' es' k := by
  induction hee with
  | nil => intro T T' h; exact h
  | @cons e e' es es' he _ ih =>
    intro T T' h
    obtain ⟨f1, f2⟩ := hes e (by simp)
    have q1 : ∀ k < g.n, w.chpPredict (constMat c r l) g e T k ≤ w.chpPredict (constMat c r l) g e' T' k := by
      intro k hk
      unfold HeatedPipe.chpPredict
      rw [he.h, he.io]
      exact chp_euler_hotter hc hn f1 he.pin he.pout hm he.power h k hk
    refine ih (fun e he => hes e (by simp [he])) (T := w.chpStep (constMat c r l) g e T)
      (T' := w.chpStep (constMat c r l) g e' T') (fun k hk => ?_)
    have q2 := chp_euler_hotter hc hn f2 he.pin2 he.pout2 hm he.power q1 k hk
    have e1 : ∀ (e : HeatStep K) (T : ℕ → K), w.chpStep (constMat c r l) g e T k =
        (T k + (w.chpPredict (constMat c r l) g e T k + e.h * chpCoreDT (constMat c r l) g
          (w.place.inp w.ins (w.chpPredict (constMat c r l) g e T)) (w.heater.withPower e.power) e.io e.pin2 e.pout2 k)) / 2 := by
      intro e T
      unfold HeatedPipe.chpStep
      conv_rhs => rw [show w.chpPredict (constMat c r l) g e T k = T k + e.h * chpCoreDT (constMat c r l) g
        (w.place.inp w.ins T) (w.heater.withPower e.power) e.io e.pin e.pout k from rfl]
      ring
    rw [e1, e1, he.h, he.io]
    have := h k hk
    linarith

/-- The runs with which the claim fails for heated pipes: 110 instead of 108 degrees here. -/
example :
    exampleHeated.chpRun (constMat 1 1 1) ⟨2, 1, 1, 1, 0, 0⟩ (fun _ => 90) [exampleHeatStep 18, exampleHeatStep 18] 0 = 108 ∧
    exampleHeated.chpRun (constMat 1 1 1) ⟨2, 1, 1, 1, 0, 0⟩ (fun _ => 90) [exampleHeatStep 20, exampleHeatStep 20] 0 = 110 ∧
    ∀ k < 2, exampleHeated.chpRun (constMat 1 1 1) ⟨2, 1, 1, 1, 0, 0⟩ (fun _ => 90) [exampleHeatStep 18, exampleHeatStep 18] k ≤
      exampleHeated.chpRun (constMat 1 1 1) ⟨2, 1, 1, 1, 0, 0⟩ (fun _ => 90) [exampleHeatStep 20, exampleHeatStep 20] k := by
  have st : StrongerStep (exampleHeatStep 18) (exampleHeatStep 20) :=
    ⟨rfl, rfl, by decide +kernel, ⟨⟨rfl, rfl, rfl, rfl, rfl⟩, le_rfl⟩, ⟨⟨rfl, rfl, rfl, rfl, rfl⟩, le_rfl⟩,
      ⟨⟨rfl, rfl, rfl, rfl, rfl⟩, le_rfl⟩, ⟨⟨rfl, rfl, rfl, rfl, rfl⟩, le_rfl⟩⟩
  refine ⟨by decide +kernel, by decide +kernel, C205_chp_partial (g := ⟨2, 1, 1, 1, 0, 0⟩) (by norm_num) (by decide)
    (by decide +kernel) (.cons st (.cons st .nil)) ?_ (fun _ _ => le_rfl)⟩
  intro e he
  simp only [List.mem_cons, List.not_mem_nil, or_false, or_self] at he
  subst he
  exact ⟨exampleHeatStep_fits, exampleHeatStep_fits⟩

/-- A heated cell of the water of a CHP plant warms up; in a plant three times as large in the same way, with all
temperatures 10 degrees higher as well. -/
example : 0 < chpCoreDT (constMat (1 : ℚ) 1 1) ⟨2, 1, 1, 1, 0, 0⟩ (exampleHeated.place.inp exampleHeated.ins fun _ => 90)
      (Heat.all 2 18) 0 ⟨0, 20, 0, 1, 0, 0⟩ ⟨1, 20, 0, 1, 0, 0⟩ 0 := by
  decide +kernel

end Run

end Verif.Cells
