import Verif.Props.Cooling

/-!
# C193: how much a heater heats the water up
-/

set_option linter.unusedSectionVars false

namespace Verif.Cells

open Finset Verif.Flows Verif.Water

section Balance

variable {K : Type*} [Field K] [LinearOrder K] [IsStrictOrderedRing K] {mat : Mat K} {g : Geo K} {s : Inp K}

/-- Specification: one of the ways of spreading the heat `dQ` that are accepted. -/
def Spreads (n : ℕ) (q : Heat K) (dQ : K) : Prop :=
  q = Heat.all n dQ ∨ (∃ i < n, q = Heat.single i dQ) ∨ ∃ a b, a < b ∧ b < n ∧ q = Heat.range a b dQ

/-- Specification: nothing changes in a heated pipe. -/
def SteadyHeated (mat : Mat K) (g : Geo K) (s : Inp K) (limit : K) (q : Heat K) (io : K) (pin pout : Port K) : Prop :=
  ∀ k < g.n, (heatedDT mat g s limit q io pin pout).1 k = 0

/-- **C193** (balance): when nothing changes any more in a heated pipe that is below its shutdown temperature, the water takes up
on its way exactly the power of the heater, what comes from the ambient and what is conducted through the ports, whichever way
it flows and however the heat is spread. -/
theorem C193_balance (hn : 2 ≤ g.n) {limit dQ io : K} {q : Heat K} {pin pout : Port K}
    (hc : ∀ k < g.n, heatCapacity mat g s k ≠ 0) (h1 : pin.idx = 0) (h2 : pout.idx = g.n - 1) (h3 : pin.io = io)
    (h4 : pout.io = -io) (hq : Spreads g.n q dQ) (hT : ∀ k < g.n, s.T k < limit) (he : s.edgeTop < limit ∧ s.edgeBot < limit)
    (hst : SteadyHeated mat g s limit q io pin pout) :
    (0 < io → io * (enthalpy mat (s.T (g.n - 1)) - enthalpy mat pin.T) =
      dQ + fromAmbient g s + throughPorts mat g s [pin, pout]) ∧
    (io < 0 → -io * (enthalpy mat (s.T 0) - enthalpy mat pout.T) =
      dQ + fromAmbient g s + throughPorts mat g s [pin, pout]) := by
  have hb := C23_pipe_energy_balance mat g s hn io pin pout hc h1 h2 h3 h4
  have hh := C68_heat_arrives mat g s (by omega) hc dQ
  have hQ : heatRate mat g s (dTheat mat g s q) = dQ := by
    rcases hq with rfl | ⟨i, hi, rfl⟩ | ⟨a, b, ha, hab, rfl⟩
    · exact hh.1
    · exact hh.2.1 i hi
    · exact hh.2.2 a b ha hab
  have hs : shutdown g s limit q.dQ = q.dQ := C46_no_false_shutdown g s limit q.dQ hT he.1 he.2
  have hz : heatRate mat g s (pipeDT mat g s io pin pout) + heatRate mat g s (dTheat mat g s q) = 0 := by
    unfold heatRate
    rw [← sum_add_distrib]
    refine sum_eq_zero fun k hk => ?_
    have := hst k (mem_range.1 hk)
    unfold heatedDT at this
    simp only [hs] at this
    rw [← mul_add, this, mul_zero]
  rw [hb, hQ] at hz
  have eth : enthalpyThroughPorts mat s [pin, pout] =
      (if 0 ≤ io then io * enthalpy mat pin.T else io * enthalpy mat (s.T 0)) +
        if 0 ≤ -io then -io * enthalpy mat pout.T else -io * enthalpy mat (s.T (g.n - 1)) := by
    simp [enthalpyThroughPorts, h1, h2, h3, h4]
  rw [eth] at hz
  constructor
  · intro hio
    rw [if_pos hio.le, if_neg (by linarith)] at hz
    linear_combination -hz
  · intro hio
    rw [if_neg (by linarith), if_pos (by linarith)] at hz
    linear_combination -hz

/-- Specification: a pipe that exchanges no heat with the ambient and conducts none through its ports. -/
def Insulated (mat : Mat K) (g : Geo K) (s : Inp K) (pin pout : Port K) : Prop :=
  (∀ k < g.n, s.uaAmb k = 0) ∧ s.lidTop = 0 ∧ s.lidBot = 0 ∧ portConductance mat g s pin = 0 ∧ portConductance mat g s pout = 0

/-- The power of the heater is what an insulated pipe adds to the enthalpy flow. -/
theorem insulated_balance (hn : 2 ≤ g.n) {limit dQ io : K} {q : Heat K} {pin pout : Port K}
    (hc : ∀ k < g.n, heatCapacity mat g s k ≠ 0) (h1 : pin.idx = 0) (h2 : pout.idx = g.n - 1) (h3 : pin.io = io)
    (h4 : pout.io = -io) (hq : Spreads g.n q dQ) (hT : ∀ k < g.n, s.T k < limit) (he : s.edgeTop < limit ∧ s.edgeBot < limit)
    (hst : SteadyHeated mat g s limit q io pin pout) (hi : Insulated mat g s pin pout) (hio : io ≠ 0) :
    |io| * (enthalpy mat (s.T (if 0 < io then g.n - 1 else 0)) - enthalpy mat (if 0 < io then pin.T else pout.T)) = dQ := by
  obtain ⟨b1, b2⟩ := C193_balance hn hc h1 h2 h3 h4 hq hT he hst
  obtain ⟨i1, i2, i3, i4, i5⟩ := hi
  have z1 : fromAmbient g s = 0 := by
    unfold fromAmbient
    rw [i2, i3, sum_eq_zero fun k hk => by rw [i1 k (mem_range.1 hk), zero_mul]]
    ring
  have z2 : throughPorts mat g s [pin, pout] = 0 := by simp [throughPorts, i4, i5]
  rw [z1, z2, add_zero, add_zero] at b1 b2
  rcases lt_or_gt_of_ne hio with h | h
  · rw [if_neg (not_lt.2 h.le), if_neg (not_lt.2 h.le), abs_of_neg h]
    exact b2 h
  · rw [if_pos h, if_pos h, abs_of_pos h]
    exact b1 h

/-- **C193** (constant heat capacity): an insulated heater heats the water up by its power divided by the heat capacity flow. -/
theorem C193_rise_partial {c r l : K} (hc0 : 0 < c) (hn : 2 ≤ g.n) {limit dQ io : K} {q : Heat K} {pin pout : Port K}
    (hc : ∀ k < g.n, heatCapacity (constMat c r l) g s k ≠ 0) (h1 : pin.idx = 0) (h2 : pout.idx = g.n - 1) (h3 : pin.io = io)
    (h4 : pout.io = -io) (hq : Spreads g.n q dQ) (hT : ∀ k < g.n, s.T k < limit) (he : s.edgeTop < limit ∧ s.edgeBot < limit)
    (hst : SteadyHeated (constMat c r l) g s limit q io pin pout) (hi : Insulated (constMat c r l) g s pin pout)
    (hio : io ≠ 0) :
    s.T (if 0 < io then g.n - 1 else 0) = (if 0 < io then pin.T else pout.T) + dQ / (|io| * c) := by
  have hb := insulated_balance hn hc h1 h2 h3 h4 hq hT he hst hi hio
  have ha : 0 < |io| * c := mul_pos (abs_pos.2 hio) hc0
  simp only [enthalpy, constMat] at hb
  rw [← sub_eq_iff_eq_add', eq_div_iff ha.ne', ← hb]
  ring

end Balance

/-- **C193**, partial (water): between 0 and 100 degrees an insulated heater heats the water up by at least its power divided by
4379 times the flow, and by at most its power divided by 4167 times the flow.  Missing: the balance does not use the
specific heat but the product of specific heat and temperature, so the rise is not the power divided by the mean heat
capacity flow (`C193_fails_water`). -/
theorem C193_water_partial {g : Geo ℝ} {s : Inp ℝ} (hn : 2 ≤ g.n) {limit dQ io : ℝ} {q : Heat ℝ} {pin pout : Port ℝ}
    (hc : ∀ k < g.n, heatCapacity water g s k ≠ 0) (h1 : pin.idx = 0) (h2 : pout.idx = g.n - 1) (h3 : pin.io = io)
    (h4 : pout.io = -io) (hq : Spreads g.n q dQ) (hT : ∀ k < g.n, s.T k < limit) (he : s.edgeTop < limit ∧ s.edgeBot < limit)
    (hst : SteadyHeated water g s limit q io pin pout) (hi : Insulated water g s pin pout) (hio : io ≠ 0)
    (hr : ∀ k < g.n, 0 ≤ s.T k ∧ s.T k ≤ 100) (hp : (0 ≤ pin.T ∧ pin.T ≤ 100) ∧ (0 ≤ pout.T ∧ pout.T ≤ 100)) (hQ : 0 ≤ dQ) :
    let rise := s.T (if 0 < io then g.n - 1 else 0) - if 0 < io then pin.T else pout.T
    dQ / (|io| * 4379) ≤ rise ∧ rise ≤ dQ / (|io| * 4167) := by
  intro rise
  have hb := insulated_balance hn hc h1 h2 h3 h4 hq hT he hst hi hio
  have ha : 0 < |io| := abs_pos.2 hio
  have tb : 0 ≤ s.T (if 0 < io then g.n - 1 else 0) ∧ s.T (if 0 < io then g.n - 1 else 0) ≤ 100 := by
    split_ifs
    · exact hr _ (by omega)
    · exact hr _ (by omega)
  have ta : 0 ≤ (if 0 < io then pin.T else pout.T) ∧ (if 0 < io then pin.T else pout.T) ≤ 100 := by
    split_ifs
    · exact hp.1
    · exact hp.2
  obtain ⟨A, hA⟩ : ∃ A, A = if 0 < io then pin.T else pout.T := ⟨_, rfl⟩
  obtain ⟨B, hB⟩ : ∃ B, B = s.T (if 0 < io then g.n - 1 else 0) := ⟨_, rfl⟩
  have hrise : rise = B - A := by rw [hA, hB]
  rw [← hA] at ta hb
  rw [← hB] at tb hb
  have hE : enthalpy water B - enthalpy water A = dQ / |io| := by rw [eq_div_iff ha.ne', ← hb]; ring
  change cp B * B - cp A * A = dQ / |io| at hE
  have hle : A ≤ B := by
    by_contra hlt
    have h := enth_strictMono (not_le.1 hlt)
    change cp B * B < cp A * A at h
    have := div_nonneg hQ ha.le
    linarith
  have hsl := C50_enthalpy_slope ta.1 hle tb.2
  rw [hE] at hsl
  rw [hrise]
  constructor
  · rw [div_mul_eq_div_div, div_le_iff₀ (by norm_num)]
    linarith [hsl.2]
  · rw [div_mul_eq_div_div, le_div_iff₀ (by norm_num)]
    linarith [hsl.1]

/-- **C193** is false with the specific heat of the water: every insulated heater that heats water from 90 to 100 degrees has to
give more than 1.02 times the flow times the specific heat at 95 degrees times 10 degrees. -/
theorem C193_fails_water {g : Geo ℝ} {s : Inp ℝ} (hn : 2 ≤ g.n) {limit dQ io : ℝ} {q : Heat ℝ} {pin pout : Port ℝ}
    (hc : ∀ k < g.n, heatCapacity water g s k ≠ 0) (h1 : pin.idx = 0) (h2 : pout.idx = g.n - 1) (h3 : pin.io = io)
    (h4 : pout.io = -io) (hq : Spreads g.n q dQ) (hT : ∀ k < g.n, s.T k < limit) (he : s.edgeTop < limit ∧ s.edgeBot < limit)
    (hst : SteadyHeated water g s limit q io pin pout) (hi : Insulated water g s pin pout) (hio : 0 < io)
    (hin : pin.T = 90) (hout : s.T (g.n - 1) = 100) : 1.02 * (io * cp (95 : ℝ) * (100 - 90)) < dQ := by
  have hb := insulated_balance hn hc h1 h2 h3 h4 hq hT he hst hi hio.ne'
  rw [if_pos hio, if_pos hio, hin, hout, abs_of_pos hio] at hb
  rw [← hb, show 1.02 * (io * cp (95 : ℝ) * (100 - 90)) = io * (1.02 * cp (95 : ℝ) * (100 - 90)) by ring]
  refine mul_lt_mul_of_pos_left ?_ hio
  norm_num [enthalpy, water, cp]

/-- A heater of 20 W in a flow of 1 kg/s of a fluid with a heat capacity of 2 J/(kg K), from 10 to 20 degrees. -/
def heaterInp : Inp ℚ :=
  { T := fun k => if k = 0 then 15 else 20, edgeTop := 0, edgeBot := 0, Tamb := 0, buoy := fun _ => 0, uaAmb := fun _ => 0,
    lidTop := 0, lidBot := 0 }

example : SteadyHeated (constMat 2 1 1) ⟨2, 1, 1, 1, 0, 0⟩ heaterInp 100 (Heat.all 2 20) 1 ⟨0, 10, 0, 1, 0, 1⟩ ⟨1, 0, 0, 1, 0, -1⟩ ∧
    Insulated (constMat 2 1 1) ⟨2, 1, 1, 1, 0, 0⟩ heaterInp ⟨0, 10, 0, 1, 0, 1⟩ ⟨1, 0, 0, 1, 0, -1⟩ ∧
    Spreads 2 (Heat.all 2 (20 : ℚ)) 20 := by
  refine ⟨?_, ?_, Or.inl rfl⟩
  · unfold SteadyHeated; decide +kernel
  · unfold Insulated; decide +kernel

/-- A heater in the last of two cells, which heats 1 kg/s of water from 90 to 100 degrees. -/
noncomputable def hotInp : Inp ℝ :=
  { T := fun k => if k = 0 then 90 else 100, edgeTop := 0, edgeBot := 0, Tamb := 0, buoy := fun _ => 0, uaAmb := fun _ => 0,
    lidTop := 0, lidBot := 0 }

example : let q := Heat.single 1 (cp (100 : ℝ) * 100 - cp 90 * 90)
    SteadyHeated water ⟨2, 1, 1, 1, 1, 0⟩ hotInp 110 q 1 ⟨0, 90, 0, 1, 0, 1⟩ ⟨1, 0, 0, 1, 0, -1⟩ ∧
    Insulated water ⟨2, 1, 1, 1, 1, 0⟩ hotInp ⟨0, 90, 0, 1, 0, 1⟩ ⟨1, 0, 0, 1, 0, -1⟩ ∧ hotInp.T (2 - 1) = 100 := by
  intro q
  refine ⟨fun k hk => ?_, by simp [Insulated, hotInp, portConductance], by simp [hotInp]⟩
  have hs : shutdown ⟨2, 1, 1, 1, 1, 0⟩ hotInp 110 q.dQ = q.dQ := by
    refine C46_no_false_shutdown _ _ 110 q.dQ (fun j _ => ?_) ?_ ?_
    · simp only [hotInp]
      split_ifs <;> norm_num
    · norm_num [hotInp]
    · norm_num [hotInp]
  unfold heatedDT
  simp only [hs]
  rw [pipeDT_sides rfl rfl rfl rfl hk]
  have : k = 0 ∨ k = 1 := by simp only at hk; omega
  rcases this with rfl | rfl
  · simp [leftSide, rightSide, uaTb, uaPort, dTheat, hotInp, q, Heat.single]
  · simp [leftSide, rightSide, uaTb, uaPort, dTheat, hotInp, q, Heat.single, water]
    ring

end Verif.Cells
