import Verif.Props.Insulated
import Verif.Props.Cells

/-!
# C205: a stronger heater heats more
-/

set_option linter.unusedSectionVars false

namespace Verif.Cells

open Verif.Flows

variable {K : Type*} [Field K] [LinearOrder K] [IsStrictOrderedRing K]

/-- Specification: the same heater with another power. -/
def Heat.withPower (q : Heat K) (P : K) : Heat K := { q with dQ := P }

/-- Specification: no cell (and no end of the array of temperatures) has reached the shutdown temperature. -/
def BelowLimit (g : Geo K) (s : Inp K) (limit : K) : Prop :=
  (∀ k < g.n, s.T k < limit) ∧ s.edgeTop < limit ∧ s.edgeBot < limit

/-- **C205**: while no cell has reached the shutdown temperature, the additional power of a stronger heater changes the
temperatures of the heated cells by the part of this power which they get, divided by their heat capacity, and those of all
others not at all; for all materials. -/
theorem C205_rate (mat : Mat K) (g : Geo K) (s : Inp K) {limit : K} (hl : BelowLimit g s limit) (q : Heat K) (P P' io : K)
    (pin pout : Port K) (k : ℕ) :
    (heatedDT mat g s limit (q.withPower P') io pin pout).1 k = (heatedDT mat g s limit (q.withPower P) io pin pout).1 k +
      (if q.start ≤ k ∧ k < q.stop then (P' - P) * q.mult / heatCapacity mat g s k else 0) := by
  unfold heatedDT
  dsimp only
  rw [C46_no_false_shutdown _ _ limit _ hl.1 hl.2.1 hl.2.2, C46_no_false_shutdown _ _ limit _ hl.1 hl.2.1 hl.2.2]
  unfold dTheat Heat.withPower
  dsimp only
  rw [← mcp_eq mat g s k]
  split_ifs <;> ring

section Run

variable {c r l : K} {g : Geo K}

/-- Specification: a step of the solver: its length, the power which the controller has set, the flow through the pipe and what is
at the ports in the predictor and in the corrector. -/
structure HeatStep (K : Type*) where
  h : K
  power : K
  io : K
  pin : Port K
  pout : Port K
  pin2 : Port K
  pout2 : Port K

/-- Specification: a heated pipe: where it is, its insulation, its shutdown temperature and its heater. -/
structure HeatedPipe (K : Type*) where
  place : Place K
  ins : Insulation K
  limit : K
  heater : Heat K

/-- Specification: temperatures which the predictor proposes. -/
def HeatedPipe.predict (mat : Mat K) (g : Geo K) (w : HeatedPipe K) (e : HeatStep K) (T : ℕ → K) : ℕ → K := fun k =>
  T k + e.h * (heatedDT mat g (w.place.inp w.ins T) w.limit (w.heater.withPower e.power) e.io e.pin e.pout).1 k

/-- Specification: temperatures after a step of Heun's method; the corrector gets the power that the predictor has left. -/
def HeatedPipe.step (mat : Mat K) (g : Geo K) (w : HeatedPipe K) (e : HeatStep K) (T : ℕ → K) : ℕ → K := fun k =>
  let d := heatedDT mat g (w.place.inp w.ins T) w.limit (w.heater.withPower e.power) e.io e.pin e.pout
  T k + e.h * (d.1 k + (heatedDT mat g (w.place.inp w.ins (w.predict mat g e T)) w.limit (w.heater.withPower d.2) e.io
    e.pin2 e.pout2).1 k) / 2

/-- Specification: temperatures after a run. -/
def HeatedPipe.run (mat : Mat K) (g : Geo K) (w : HeatedPipe K) (T : ℕ → K) (es : List (HeatStep K)) : ℕ → K :=
  es.foldl (fun T e => w.step mat g e T) T

/-- Specification: the heater is never switched off in a run. -/
def HeatedPipe.On (mat : Mat K) (g : Geo K) (w : HeatedPipe K) : (ℕ → K) → List (HeatStep K) → Prop
  | _, [] => True
  | T, e :: es => (∀ k < g.n, T k < w.limit) ∧ (∀ k < g.n, w.predict mat g e T k < w.limit) ∧ w.On mat g (w.step mat g e T) es

/-- Specification: conditions on a step: ports at the ends of the pipe with the flow of the pipe, physically meaningful, and a step
short enough. -/
structure FitsPipe (c r l : K) (g : Geo K) (w : HeatedPipe K) (h io : K) (pin pout : Port K) : Prop where
  first : pin.idx = 0
  last : pout.idx = g.n - 1
  inflow : pin.io = io
  outflow : pout.io = -io
  physical : Physical (constMat c r l) g (w.place.inp w.ins fun _ => 0) [pin, pout]
  forward : 0 ≤ h
  short : ∀ k < g.n, h * (totalConductance (constMat c r l) g (w.place.inp w.ins fun _ => 0) [pin, pout] k + c * |io|) ≤
    heatCapacity (constMat c r l) g (w.place.inp w.ins fun _ => 0) k

/-- Specification: a port that has another temperature only, and is at least as hot. -/
structure HotterPort (p p' : Port K) : Prop where
  same : SamePort p p'
  hot : p.T ≤ p'.T

/-- Specification: the second step differs in a power that may be higher and in water at the ports that may be hotter. -/
structure StrongerStep (e e' : HeatStep K) : Prop where
  h : e'.h = e.h
  io : e'.io = e.io
  power : e.power ≤ e'.power
  pin : HotterPort e.pin e'.pin
  pout : HotterPort e.pout e'.pout
  pin2 : HotterPort e.pin2 e'.pin2
  pout2 : HotterPort e.pout2 e'.pout2

theorem heated_euler_hotter (hc : 0 ≤ c) (hn : 2 ≤ g.n) {w : HeatedPipe K} {h io P P' : K} {pin pout pin' pout' : Port K}
    (hf : FitsPipe c r l g w h io pin pout) (h1 : HotterPort pin pin') (h2 : HotterPort pout pout') (hm : 0 ≤ w.heater.mult)
    (hl0 : 0 < w.limit) (hP : P ≤ P') {T T' : ℕ → K} (hTT : ∀ k < g.n, T k ≤ T' k) (hT' : ∀ k < g.n, T' k < w.limit) :
    ∀ k < g.n, T k + h * (heatedDT (constMat c r l) g (w.place.inp w.ins T) w.limit (w.heater.withPower P) io pin pout).1 k ≤
      T' k + h * (heatedDT (constMat c r l) g (w.place.inp w.ins T') w.limit (w.heater.withPower P') io pin' pout').1 k := by
  intro k hk
  have hT : ∀ k < g.n, T k < w.limit := fun k hk => (hTT k hk).trans_lt (hT' k hk)
  have p := hf.physical
  have hph : Physical (constMat c r l) g (w.place.inp w.ins T) [pin, pout] :=
    ⟨p.lam, p.gs, p.aCell, p.uaTbWll, p.buoy, p.uaAmb, p.lidTop, p.lidBot, p.ports, p.cap⟩
  obtain ⟨M, hM⟩ := exists_above (fun k => T' k - T k) g.n
  have hb1 : pin'.T - pin.T ≤ max (max M 0) (max (pin'.T - pin.T) (pout'.T - pout.T)) :=
    (le_max_left _ _).trans (le_max_right _ _)
  have hb2 : pout'.T - pout.T ≤ max (max M 0) (max (pin'.T - pin.T) (pout'.T - pout.T)) :=
    (le_max_right _ _).trans (le_max_right _ _)
  have key := C112_pipe_partial (s := w.place.inp w.ins T) (s' := w.place.inp w.ins T') (c := c) (r := r) (l := l) (g := g) hc
    (pin := pin) (pout := pout) (pin' := pin') (pout' := pout') (io := io) (a := 0)
    (b := max (max M 0) (max (pin'.T - pin.T) (pout'.T - pout.T))) (h := h) hn ⟨rfl, rfl, rfl, rfl⟩ h1.same h2.same hph
    ⟨fun k hk => ⟨sub_nonneg.2 (hTT k hk), (hM k hk).trans ((le_max_left _ _).trans (le_max_left _ _))⟩,
      by
        show 0 ≤ w.place.Tamb - w.place.Tamb ∧ w.place.Tamb - w.place.Tamb ≤ _
        rw [sub_self]
        exact ⟨le_rfl, (le_max_right _ _).trans (le_max_left _ _)⟩,
      by
        intro q hq
        rcases List.mem_cons.1 hq with rfl | hq
        · exact ⟨sub_nonneg.2 h1.hot, hb1⟩
        · rcases List.mem_cons.1 hq with rfl | hq
          · exact ⟨sub_nonneg.2 h2.hot, hb2⟩
          · simp at hq⟩
    hf.first hf.last hf.inflow hf.outflow hf.forward hf.short k hk
  have hcap : 0 < heatCapacity (constMat c r l) g (w.place.inp w.ins T) k := p.cap k hk
  have hL : BelowLimit g (w.place.inp w.ins T) w.limit := ⟨hT, hl0, hl0⟩
  have hL' : BelowLimit g (w.place.inp w.ins T') w.limit := ⟨hT', hl0, hl0⟩
  have e0 : ∀ (T : ℕ → K) (Q : K) (a b : Port K), BelowLimit g (w.place.inp w.ins T) w.limit →
      (heatedDT (constMat c r l) g (w.place.inp w.ins T) w.limit (w.heater.withPower Q) io a b).1 k =
        pipeDT (constMat c r l) g (w.place.inp w.ins T) io a b k +
          (if w.heater.start ≤ k ∧ k < w.heater.stop then
            Q * w.heater.mult / heatCapacity (constMat c r l) g (w.place.inp w.ins (fun _ => 0)) k else 0) := by
    intro T Q a b hb
    unfold heatedDT
    dsimp only
    rw [C46_no_false_shutdown _ _ w.limit _ hb.1 hb.2.1 hb.2.2]
    unfold dTheat Heat.withPower
    dsimp only
    rw [mcp_eq (constMat c r l) g _ k]
    rfl
  rw [e0 T P pin pout hL, e0 T' P' pin' pout' hL']
  have hq : (if w.heater.start ≤ k ∧ k < w.heater.stop then
        P * w.heater.mult / heatCapacity (constMat c r l) g (w.place.inp w.ins (fun _ => 0)) k else 0) ≤
      (if w.heater.start ≤ k ∧ k < w.heater.stop then
        P' * w.heater.mult / heatCapacity (constMat c r l) g (w.place.inp w.ins (fun _ => 0)) k else 0) := by
    split_ifs
    · exact div_le_div_of_nonneg_right (mul_le_mul_of_nonneg_right hP hm) (p.cap k hk).le
    · exact le_rfl
  have := mul_le_mul_of_nonneg_left hq hf.forward
  have k1 := key.1
  change 0 ≤ T' k + _ - (T k + _) at k1
  rw [mul_add, mul_add]
  linarith

theorem heated_step_eq (mat : Mat K) (w : HeatedPipe K) (hl0 : 0 < w.limit) (e : HeatStep K) (T : ℕ → K)
    (hT : ∀ k < g.n, T k < w.limit) (k : ℕ) :
    w.step mat g e T k = (T k + (w.predict mat g e T k + e.h * (heatedDT mat g (w.place.inp w.ins (w.predict mat g e T)) w.limit
      (w.heater.withPower e.power) e.io e.pin2 e.pout2).1 k)) / 2 := by
  have : (heatedDT mat g (w.place.inp w.ins T) w.limit (w.heater.withPower e.power) e.io e.pin e.pout).2 = e.power :=
    C46_no_false_shutdown g (w.place.inp w.ins T) w.limit _ hT hl0 hl0
  unfold HeatedPipe.step
  dsimp only
  rw [this]
  conv_rhs => rw [show w.predict mat g e T k = T k + e.h * (heatedDT mat g (w.place.inp w.ins T) w.limit
    (w.heater.withPower e.power) e.io e.pin e.pout).1 k from rfl]
  ring

/-- **C205**, partial: of two equal heated pipes with the same flows, the one whose heater is at every step set to at least the
power of the other one, with water at the ports at least as hot, is in every cell at least as hot after any number of
steps of Heun's method, if it was at the beginning.  Missing: as in `C112_pipe_partial` (constant material properties, steps short
enough); and runs in which the stronger heater is switched off because it gets too hot (`C205_fails_shutdown`). -/
theorem C205_hotter_partial (hc : 0 ≤ c) (hn : 2 ≤ g.n) {w : HeatedPipe K} (hm : 0 ≤ w.heater.mult) (hl0 : 0 < w.limit)
    {es es' : List (HeatStep K)} (hee : List.Forall₂ StrongerStep es es')
    (hes : ∀ e ∈ es, FitsPipe c r l g w e.h e.io e.pin e.pout ∧ FitsPipe c r l g w e.h e.io e.pin2 e.pout2) :
    ∀ {T T' : ℕ → K}, (∀ k < g.n, T k ≤ T' k) → w.On (constMat c r l) g T' es' → ∀ k < g.n,
      w.run (constMat c r l) g T es k ≤ w.run (constMat c r l) g T' es' k := by
  induction hee with
  | nil => intro T T' h _; exact h
  | @cons e e' es es' he _ ih =>
    intro T T' h hon
    obtain ⟨f1, f2⟩ := hes e (by simp)
    obtain ⟨o1, o2, o3⟩ := hon
    have q1 : ∀ k < g.n, w.predict (constMat c r l) g e T k ≤ w.predict (constMat c r l) g e' T' k := by
      intro k hk
      unfold HeatedPipe.predict
      rw [he.h, he.io]
      exact heated_euler_hotter hc hn f1 he.pin he.pout hm hl0 he.power h o1 k hk
    refine ih (fun e he => hes e (by simp [he])) (T := w.step (constMat c r l) g e T)
      (T' := w.step (constMat c r l) g e' T') (fun k hk => ?_) o3
    rw [heated_step_eq _ w hl0 e T (fun k hk => (h k hk).trans_lt (o1 k hk)), heated_step_eq _ w hl0 e' T' o1]
    have := heated_euler_hotter hc hn f2 he.pin2 he.pout2 hm hl0 he.power q1 o2 k hk
    rw [he.h, he.io]
    have := h k hk
    linarith

/-- Two cells at rest without losses; both are heated, the heater is switched off at 100 degrees. -/
def exampleHeated : HeatedPipe ℚ := ⟨⟨20, fun _ => 1⟩, ⟨fun _ => 0, 0, 0⟩, 100, Heat.all 2 0⟩

/-- A step of 1 s with a given power. -/
def exampleHeatStep (P : ℚ) : HeatStep ℚ := ⟨1, P, 0, ⟨0, 20, 0, 1, 0, 0⟩, ⟨1, 20, 0, 1, 0, 0⟩, ⟨0, 20, 0, 1, 0, 0⟩, ⟨1, 20, 0, 1, 0, 0⟩⟩

theorem exampleHeatStep_fits : FitsPipe 1 1 1 ⟨2, 1, 1, 1, 0, 0⟩ exampleHeated 1 0 ⟨0, 20, 0, 1, 0, 0⟩ ⟨1, 20, 0, 1, 0, 0⟩ := by
  refine ⟨rfl, rfl, rfl, by decide +kernel, ⟨fun _ _ => ?_, ?_, ?_, ?_, fun _ => ?_,
    fun _ => ?_, ?_, ?_, ?_, ?_⟩, by decide +kernel, by decide +kernel⟩
  · show (0 : ℚ) < 1; norm_num
  · show (0 : ℚ) < 1; norm_num
  · show (0 : ℚ) ≤ 1; norm_num
  · show (0 : ℚ) ≤ 0; norm_num
  · show (0 : ℚ) ≤ 1; norm_num
  · show (0 : ℚ) ≤ 0; norm_num
  · show (0 : ℚ) ≤ 0; norm_num
  · show (0 : ℚ) ≤ 0; norm_num
  · decide +kernel
  · decide +kernel

/-- 90 degrees heated with 4 instead of 2 units of power, twice: 94 instead of 92 degrees. -/
example : exampleHeated.run (constMat 1 1 1) ⟨2, 1, 1, 1, 0, 0⟩ (fun _ => 90) [exampleHeatStep 2, exampleHeatStep 2] 0 = 92 ∧
    exampleHeated.run (constMat 1 1 1) ⟨2, 1, 1, 1, 0, 0⟩ (fun _ => 90) [exampleHeatStep 4, exampleHeatStep 4] 0 = 94 ∧
    ∀ k < 2, exampleHeated.run (constMat 1 1 1) ⟨2, 1, 1, 1, 0, 0⟩ (fun _ => 90) [exampleHeatStep 2, exampleHeatStep 2] k ≤
      exampleHeated.run (constMat 1 1 1) ⟨2, 1, 1, 1, 0, 0⟩ (fun _ => 90) [exampleHeatStep 4, exampleHeatStep 4] k := by
  have st : StrongerStep (exampleHeatStep 2) (exampleHeatStep 4) :=
    ⟨rfl, rfl, by decide +kernel, ⟨⟨rfl, rfl, rfl, rfl, rfl⟩, le_rfl⟩, ⟨⟨rfl, rfl, rfl, rfl, rfl⟩, le_rfl⟩,
      ⟨⟨rfl, rfl, rfl, rfl, rfl⟩, le_rfl⟩, ⟨⟨rfl, rfl, rfl, rfl, rfl⟩, le_rfl⟩⟩
  refine ⟨by decide +kernel, by decide +kernel, C205_hotter_partial (g := ⟨2, 1, 1, 1, 0, 0⟩) (by norm_num) (by decide)
    (by decide +kernel) (by decide +kernel) (.cons st (.cons st .nil)) ?_ (fun _ _ => le_rfl) ?_⟩
  · intro e he
    simp only [List.mem_cons, List.not_mem_nil, or_false, or_self] at he
    subst he
    exact ⟨exampleHeatStep_fits, exampleHeatStep_fits⟩
  · refine ⟨?_, ?_, ?_, ?_, trivial⟩ <;> decide +kernel

/-- **C205** fails when heaters are switched off: 90 degrees heated twice by 9 K end at 103.5, heated twice by 10 K at 100 degrees,
because the stronger heater is switched off in both steps and the weaker one in the second step only. -/
theorem C205_fails_shutdown :
    exampleHeated.run (constMat 1 1 1) ⟨2, 1, 1, 1, 0, 0⟩ (fun _ => 90) [exampleHeatStep 18, exampleHeatStep 18] 0 = 207 / 2 ∧
    exampleHeated.run (constMat 1 1 1) ⟨2, 1, 1, 1, 0, 0⟩ (fun _ => 90) [exampleHeatStep 20, exampleHeatStep 20] 0 = 100 := by
  decide +kernel

end Run

end Verif.Cells
