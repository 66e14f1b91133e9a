import Verif.Props.ChpCore

/-!
# C202 for pipes and CHP plants
-/

set_option linter.unusedSectionVars false

namespace Verif.Cells

open Verif.Flows

variable {K : Type*} [Field K] [LinearOrder K] [IsStrictOrderedRing K] {c r l : K} {g : Geo K}

/-- Without power the water side of a CHP plant is a pipe. -/
theorem chp_no_power (mat : Mat K) (g : Geo K) (s : Inp K) (q : Heat K) (io : K) (pin pout : Port K) (k : ℕ) :
    chpCoreDT mat g s (q.withPower 0) io pin pout k = pipeDT mat g s io pin pout k := by
  unfold chpCoreDT dTheat Heat.withPower
  dsimp only
  split_ifs <;> simp

theorem FitsPipe.better {w : HeatedPipe K} {u' : Insulation K} {h io : K} {pin pout : Port K}
    (hf : FitsPipe c r l g w h io pin pout) (hu : u'.Better w.ins) : FitsPipe c r l g { w with ins := u' } h io pin pout := by
  refine ⟨hf.first, hf.last, hf.inflow, hf.outflow, ?_, hf.forward, fun k hk => ?_⟩
  · have p := hf.physical
    exact ⟨p.lam, p.gs, p.aCell, p.uaTbWll, p.buoy, fun k => (hu.shell k).1, hu.top.1, hu.bot.1, p.ports, p.cap⟩
  · refine le_trans (mul_le_mul_of_nonneg_left ?_ hf.forward) (hf.short k hk)
    have e : ∀ v : Insulation K, totalConductance (constMat c r l) g (w.place.inp v fun _ => 0) [pin, pout] k =
        (if 0 < k then faceConductance (constMat c r l) g (w.place.inp w.ins fun _ => 0) (k - 1) else 0) +
        (if k + 1 < g.n then faceConductance (constMat c r l) g (w.place.inp w.ins fun _ => 0) k else 0) +
        v.at g.n k +
        (([pin, pout].filter (·.idx = k)).map (portConductance (constMat c r l) g (w.place.inp w.ins fun _ => 0))).sum := by
      intro v
      unfold totalConductance Insulation.at
      simp only [← add_assoc]
      rfl
    have := e w.ins
    have h' := e u'
    have hle := hu.at_le g.n k
    show totalConductance (constMat c r l) g (w.place.inp u' fun _ => 0) [pin, pout] k + c * |io| ≤
      totalConductance (constMat c r l) g (w.place.inp w.ins fun _ => 0) [pin, pout] k + c * |io|
    linarith

theorem chp_euler_warm (hc : 0 ≤ c) (hn : 2 ≤ g.n) {w : HeatedPipe K} {h io P : K} {pin pout : Port K}
    (hf : FitsPipe c r l g w h io pin pout) (hm : 0 ≤ w.heater.mult) (hP : 0 ≤ P) (h1 : w.place.Tamb ≤ pin.T)
    (h2 : w.place.Tamb ≤ pout.T) {T : ℕ → K} (hT : ∀ k < g.n, w.place.Tamb ≤ T k) : ∀ k < g.n,
      w.place.Tamb ≤ T k + h * chpCoreDT (constMat c r l) g (w.place.inp w.ins T) (w.heater.withPower P) io pin pout k := by
  intro k hk
  obtain ⟨M, hM⟩ := exists_above T g.n
  have p := hf.physical
  have hph : Physical (constMat c r l) g (w.place.inp w.ins T) [pin, pout] :=
    ⟨p.lam, p.gs, p.aCell, p.uaTbWll, p.buoy, p.uaAmb, p.lidTop, p.lidBot, p.ports, p.cap⟩
  have hw : Within g (w.place.inp w.ins T) [pin, pout] w.place.Tamb (max M (max pin.T pout.T)) :=
    ⟨fun k hk => ⟨hT k hk, (hM k hk).trans (le_max_left _ _)⟩,
      ⟨le_rfl, h1.trans ((le_max_left _ _).trans (le_max_right _ _))⟩, by
        intro q hq
        rcases List.mem_cons.1 hq with rfl | hq
        · exact ⟨h1, (le_max_left _ _).trans (le_max_right _ _)⟩
        · rcases List.mem_cons.1 hq with rfl | hq
          · exact ⟨h2, (le_max_right _ _).trans (le_max_right _ _)⟩
          · simp at hq⟩
  have := (C24_pipe_no_new_extreme_partial hn hph hw (slope_const hc _ _) hc hf.first hf.last hf.inflow hf.outflow hf.forward
    hf.short k hk).1
  have hq : 0 ≤ dTheat (constMat c r l) g (w.place.inp w.ins T) (w.heater.withPower P) k := by
    unfold dTheat
    split_ifs
    · rw [mcp_eq (constMat c r l) g _ k]
      exact div_nonneg (mul_nonneg hP hm) (hph.cap k hk).le
    · exact le_rfl
  have hq' := mul_nonneg hf.forward hq
  unfold chpCoreDT
  rw [mul_add]
  change w.place.Tamb ≤ T k + _ at this
  linarith

theorem chp_euler_better (hc : 0 ≤ c) (hn : 2 ≤ g.n) {w : HeatedPipe K} {u' : Insulation K} (hu : u'.Better w.ins) {h io P : K}
    {pin pout : Port K} (hf : FitsPipe c r l g w h io pin pout) (hm : 0 ≤ w.heater.mult) {T T' : ℕ → K}
    (hT : ∀ k < g.n, w.place.Tamb ≤ T k) (hTT : ∀ k < g.n, T k ≤ T' k) : ∀ k < g.n,
      T k + h * chpCoreDT (constMat c r l) g (w.place.inp w.ins T) (w.heater.withPower P) io pin pout k ≤
      T' k + h * chpCoreDT (constMat c r l) g (w.place.inp u' T') (w.heater.withPower P) io pin pout k := by
  intro k hk
  have hs : ∀ p : Port K, HotterPort p p := fun p => ⟨⟨rfl, rfl, rfl, rfl, rfl⟩, le_rfl⟩
  have h2 := chp_euler_hotter hc hn (hf.better hu) (hs pin) (hs pout) hm (le_refl P) hTT k hk
  refine le_trans ?_ h2
  have e := C202_rate_pipe (constMat c r l) g (w.place.inp w.ins T) w.ins u' io pin pout hk
  have e1 : (w.place.inp w.ins T).insulate w.ins = w.place.inp w.ins T := rfl
  have e2 : (w.place.inp w.ins T).insulate u' = w.place.inp u' T := rfl
  rw [e1, e2] at e
  have hcap : 0 < heatCapacity (constMat c r l) g (w.place.inp w.ins T) k := hf.physical.cap k hk
  have hloss : 0 ≤ (w.ins.at g.n k - u'.at g.n k) * ((w.place.inp w.ins T).T k - (w.place.inp w.ins T).Tamb) /
      heatCapacity (constMat c r l) g (w.place.inp w.ins T) k :=
    div_nonneg (mul_nonneg (sub_nonneg.2 (hu.at_le g.n k)) (sub_nonneg.2 (hT k hk))) hcap.le
  have hq : dTheat (constMat c r l) g (w.place.inp w.ins T) (w.heater.withPower P) k =
      dTheat (constMat c r l) g (w.place.inp u' T) (w.heater.withPower P) k := rfl
  have := mul_nonneg hf.forward hloss
  unfold chpCoreDT
  dsimp only
  rw [e, hq]
  have e3 : ∀ a b d : K, h * (a - b + d) = h * (a + d) - h * b := by intros; ring
  rw [e3]
  linarith

/-- **C202**, partial (pipes, with or without a heat source that is not switched off): of two equal pipes in the same place with
the same power and the same water flowing in, the better insulated one is in every cell at least as hot, after any number of
steps of Heun's method, if it was at the beginning and nothing is colder than the ambient.  Without power these are pipes
(`chp_no_power`).  Missing: as in `C202_hotter_partial`. -/
theorem C202_pipe_partial (hc : 0 ≤ c) (hn : 2 ≤ g.n) {w : HeatedPipe K} {u' : Insulation K} (hu : u'.Better w.ins)
    (hm : 0 ≤ w.heater.mult) (es : List (HeatStep K))
    (hes : ∀ e ∈ es, FitsPipe c r l g w e.h e.io e.pin e.pout ∧ FitsPipe c r l g w e.h e.io e.pin2 e.pout2 ∧ 0 ≤ e.power ∧
      w.place.Tamb ≤ e.pin.T ∧ w.place.Tamb ≤ e.pout.T ∧ w.place.Tamb ≤ e.pin2.T ∧ w.place.Tamb ≤ e.pout2.T) :
    ∀ {T T' : ℕ → K}, (∀ k < g.n, w.place.Tamb ≤ T k ∧ T k ≤ T' k) → ∀ k < g.n,
      w.place.Tamb ≤ w.chpRun (constMat c r l) g T es k ∧
        w.chpRun (constMat c r l) g T es k ≤ ({ w with ins := u' } : HeatedPipe K).chpRun (constMat c r l) g T' es k := by
  have e1 : ∀ (w : HeatedPipe K) (e : HeatStep K) (T : ℕ → K) (k : ℕ), w.chpStep (constMat c r l) g e T k =
      (T k + (w.chpPredict (constMat c r l) g e T k + e.h * chpCoreDT (constMat c r l) g
        (w.place.inp w.ins (w.chpPredict (constMat c r l) g e T)) (w.heater.withPower e.power) e.io e.pin2 e.pout2 k)) / 2 := by
    intro w e T k
    unfold HeatedPipe.chpStep
    conv_rhs => rw [show w.chpPredict (constMat c r l) g e T k = T k + e.h * chpCoreDT (constMat c r l) g
      (w.place.inp w.ins T) (w.heater.withPower e.power) e.io e.pin e.pout k from rfl]
    ring
  induction es with
  | nil => intro T T' h; exact h
  | cons e es ih =>
    intro T T' h
    obtain ⟨f1, f2, hP, t1, t2, t3, t4⟩ := hes e (by simp)
    have w0 : ∀ k < g.n, w.place.Tamb ≤ T k := fun k hk => (h k hk).1
    have w1 : ∀ k < g.n, w.place.Tamb ≤ w.chpPredict (constMat c r l) g e T k := chp_euler_warm hc hn f1 hm hP t1 t2 w0
    have w2 := chp_euler_warm hc hn f2 hm hP t3 t4 w1
    have o1 : ∀ k < g.n, w.chpPredict (constMat c r l) g e T k ≤
        ({ w with ins := u' } : HeatedPipe K).chpPredict (constMat c r l) g e T' k :=
      chp_euler_better hc hn hu f1 hm w0 fun k hk => (h k hk).2
    have o2 := chp_euler_better (P := e.power) hc hn hu f2 hm w1 o1
    refine ih (fun e he => hes e (by simp [he])) (T := w.chpStep (constMat c r l) g e T)
      (T' := ({ w with ins := u' } : HeatedPipe K).chpStep (constMat c r l) g e T') (fun k hk => ?_)
    rw [e1, e1]
    have := w0 k hk
    have := w2 k hk
    have := o2 k hk
    have := (h k hk).2
    dsimp only at *
    constructor <;> linarith

/-- A pipe with losses in a place of 20 degrees, and a step without power with water of 60 degrees flowing in. -/
def exampleLossy : HeatedPipe ℚ := ⟨⟨20, fun _ => 1⟩, ⟨fun _ => 1, 0, 0⟩, 100, Heat.all 2 0⟩

def exampleLossyStep : HeatStep ℚ := ⟨1, 0, 1, ⟨0, 60, 0, 1, 0, 1⟩, ⟨1, 20, 0, 1, 0, -1⟩, ⟨0, 60, 0, 1, 0, 1⟩, ⟨1, 20, 0, 1, 0, -1⟩⟩

theorem exampleLossy_fits :
    FitsPipe 1 1 1 exampleStorage exampleLossy 1 1 ⟨0, 60, 0, 1, 0, 1⟩ ⟨1, 20, 0, 1, 0, -1⟩ := by
  refine ⟨rfl, rfl, rfl, by decide +kernel, ⟨fun _ _ => ?_, ?_, ?_, ?_, fun _ => ?_,
    fun _ => ?_, ?_, ?_, ?_, ?_⟩, by decide +kernel, by decide +kernel⟩
  · show (0 : ℚ) < 1; norm_num
  · show (0 : ℚ) < 1; norm_num
  · show (0 : ℚ) ≤ 1; norm_num
  · show (0 : ℚ) ≤ 0; norm_num
  · show (0 : ℚ) ≤ 1; norm_num
  · show (0 : ℚ) ≤ 1; norm_num
  · show (0 : ℚ) ≤ 0; norm_num
  · show (0 : ℚ) ≤ 0; norm_num
  · decide +kernel
  · decide +kernel

/-- After two steps the pipe with half the losses is strictly hotter; after 50 steps at least as hot. -/
example : exampleLossy.chpRun (constMat 1 1 1) exampleStorage (fun _ => 20) [exampleLossyStep, exampleLossyStep] 0 <
      ({ exampleLossy with ins := ⟨fun _ => 1 / 2, 0, 0⟩ } : HeatedPipe ℚ).chpRun (constMat 1 1 1) exampleStorage (fun _ => 20)
        [exampleLossyStep, exampleLossyStep] 0 ∧
    ∀ k < 2, 20 ≤ exampleLossy.chpRun (constMat 1 1 1) exampleStorage (fun _ => 20) (List.replicate 50 exampleLossyStep) k ∧
      exampleLossy.chpRun (constMat 1 1 1) exampleStorage (fun _ => 20) (List.replicate 50 exampleLossyStep) k ≤
      ({ exampleLossy with ins := ⟨fun _ => 1 / 2, 0, 0⟩ } : HeatedPipe ℚ).chpRun (constMat 1 1 1) exampleStorage (fun _ => 20)
        (List.replicate 50 exampleLossyStep) k := by
  refine ⟨by decide +kernel, C202_pipe_partial (c := 1) (r := 1) (l := 1) (g := exampleStorage) (w := exampleLossy) (by norm_num)
    (by decide) ⟨fun _ => ?_, ?_, ?_⟩ (by decide +kernel) _ (fun e he => ?_) fun _ _ => ?_⟩
  · show (0 : ℚ) ≤ 1 / 2 ∧ (1 / 2 : ℚ) ≤ 1; norm_num
  · show (0 : ℚ) ≤ 0 ∧ (0 : ℚ) ≤ 0; norm_num
  · show (0 : ℚ) ≤ 0 ∧ (0 : ℚ) ≤ 0; norm_num
  · rw [List.eq_of_mem_replicate he]
    refine ⟨exampleLossy_fits, exampleLossy_fits, ?_, ?_, ?_, ?_, ?_⟩ <;> decide +kernel
  · exact ⟨le_refl (20 : ℚ), le_refl (20 : ℚ)⟩

end Verif.Cells
