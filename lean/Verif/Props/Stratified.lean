import Verif.Props.MaxPrinciple
import Verif.Spec.Stratified

/-!
# C146: a stratified storage stays stratified
-/

namespace Verif.Cells

open Verif.Flows

variable {K : Type*} [Field K] [LinearOrder K] [IsStrictOrderedRing K]
variable {mat : Mat K} {g : Geo K} {s : Inp K}

/-- The part with a perfect insulation. -/
def insulated (s : Inp K) (T : K) : Inp K := { s with uaAmb := fun _ => 0, lidTop := 0, lidBot := 0, Tamb := T }

theorem dTcond_insulated (ports : List (Port K)) (T : K) {k : ℕ} (hk : k < g.n) :
    dTcond mat g s ports k =
      dTcond mat g (insulated s T) ports k + lossRate mat g s k * (s.Tamb - s.T k) := by
  have hT : tExt g s (k + 1) = s.T k := tExt_cell g s hk
  have e3 : (if k = 0 then s.lidTop * (s.Tamb - tExt g s 1) / mcp mat g s 0 else 0) =
      (if k = 0 then s.lidTop else 0) * (s.Tamb - s.T k) / mcp mat g s k := by
    split_ifs with h
    · subst h; rw [hT]
    · simp
  have e4 : (if k + 1 = g.n then s.lidBot * (s.Tamb - tExt g s g.n) / mcp mat g s (g.n - 1) else 0) =
      (if k + 1 = g.n then s.lidBot else 0) * (s.Tamb - s.T k) / mcp mat g s k := by
    split_ifs with h
    · rw [← h, hT, Nat.add_sub_cancel]
    · simp
  have a : ∀ j, tExt g (insulated s T) j = tExt g s j := fun _ => rfl
  have b : ∀ j, uaTb mat g (insulated s T) j = uaTb mat g s j := fun _ => rfl
  have c : ∀ j, mcp mat g (insulated s T) j = mcp mat g s j := fun _ => rfl
  have d : ∀ p, uaPort mat g (insulated s T) p = uaPort mat g s p := fun _ => rfl
  have i1 : (insulated s T).uaAmb k = 0 := rfl
  have i2 : (insulated s T).lidTop = 0 := rfl
  have i3 : (insulated s T).lidBot = 0 := rfl
  have i4 : ∀ j, (insulated s T).T j = s.T j := fun _ => rfl
  unfold dTcond lossRate
  rw [addAt_eq, addAt_eq, e3, e4, hT, ← mcp_eq]
  simp only [a, b, c, d, i1, i2, i3, i4, hT]
  simp only [zero_mul, zero_div, ite_self, add_zero]
  ring

omit [LinearOrder K] [IsStrictOrderedRing K] in
theorem totalConductance_insulated (ports : List (Port K)) (T : K) (k : ℕ) :
    totalConductance mat g s ports k = totalConductance mat g (insulated s T) ports k +
      (s.uaAmb k + (if k = 0 then s.lidTop else 0) + (if k + 1 = g.n then s.lidBot else 0)) := by
  have a : ∀ j, faceConductance mat g (insulated s T) j = faceConductance mat g s j := fun _ => rfl
  have d : ∀ p, portConductance mat g (insulated s T) p = portConductance mat g s p := fun _ => rfl
  have i1 : (insulated s T).uaAmb k = 0 := rfl
  have i2 : (insulated s T).lidTop = 0 := rfl
  have i3 : (insulated s T).lidBot = 0 := rfl
  have e : (portConductance mat g (insulated s T)) = portConductance mat g s := funext d
  unfold totalConductance
  rw [e]
  simp only [a, i1, i2, i3, ite_self, add_zero]
  ring

/-- One cell: within the temperatures around it, losses apart. -/
theorem cell_step {top bot : ℕ → K} {ports : List (Port K)} {m M L h : K} {k : ℕ} (hk : k < g.n)
    (hph : Physical mat g s ports) (hL : EnthalpySlope mat m M L) (hL0 : 0 ≤ L)
    (hc : m ≤ s.T k ∧ s.T k ≤ M) (ha : 0 < k → m ≤ s.T (k - 1) ∧ s.T (k - 1) ≤ M)
    (hb : k + 1 < g.n → m ≤ s.T (k + 1) ∧ s.T (k + 1) ≤ M)
    (hpo : ∀ p ∈ ports, p.idx = k → m ≤ p.T ∧ p.T ≤ M)
    (h0 : top 0 = 0) (hn : ∀ k, k + 1 = g.n → bot k = 0) (hpos : ∀ k, 0 ≤ top k ∧ 0 ≤ bot k)
    (hh : 0 ≤ h) (hs : 2 * (h * (totalConductance mat g s ports k +
      L * (top k + bot k + inflowThroughPorts ports k))) ≤ heatCapacity mat g s k) :
    ∃ θ e, 0 ≤ θ ∧ θ + h * lossRate mat g s k ≤ 1 / 2 ∧ -(θ * (s.T k - m)) ≤ e ∧ e ≤ θ * (M - s.T k) ∧
      h * (dTcond mat g s ports k + dTadv mat g s top bot ports (ports.map fun p => max p.io 0) k) =
        e + h * lossRate mat g s k * (s.Tamb - s.T k) := by
  have hph' : Physical mat g (insulated s (s.T k)) ports :=
    ⟨hph.lam, hph.gs, hph.aCell, hph.uaTbWll, hph.buoy, fun _ => le_rfl, le_rfl, le_rfl, hph.ports, hph.cap⟩
  have hw : WithinAt g (insulated s (s.T k)) ports k m M := ⟨hc, ha, hb, hc, hpo⟩
  obtain ⟨d1, p1, e1⟩ := pull_cond hph' hw hk
  obtain ⟨d2, p2, e2⟩ := pull_adv (mat := mat) hw hL hL0 hk h0 hn hpos
  have e2' : dTadv mat g s top bot ports (ports.map fun p => max p.io 0) k =
      d2 / heatCapacity mat g s k := e2
  have e1' : dTcond mat g (insulated s (s.T k)) ports k = d1 / heatCapacity mat g s k := e1
  have hC := hph.cap k hk
  have p := p1.add p2
  set c := totalConductance mat g (insulated s (s.T k)) ports k +
    L * (top k + bot k + inflowThroughPorts ports k) with hcdef
  have q : (insulated s (s.T k)).T k = s.T k := rfl
  rw [q] at p
  refine ⟨h * c / heatCapacity mat g s k, h * (d1 + d2) / heatCapacity mat g s k, ?_, ?_, ?_, ?_, ?_⟩
  · exact div_nonneg (mul_nonneg hh p.1) hC.le
  · rw [totalConductance_insulated ports (s.T k)] at hs
    unfold lossRate
    rw [← mul_div_assoc, ← add_div, div_le_iff₀ hC]
    linarith
  · rw [le_div_iff₀ hC, neg_mul, div_mul_eq_mul_div, div_mul_cancel₀ _ hC.ne']
    have := mul_le_mul_of_nonneg_left p.2.1 hh
    linarith
  · rw [div_le_iff₀ hC, div_mul_eq_mul_div, div_mul_cancel₀ _ hC.ne']
    have := mul_le_mul_of_nonneg_left p.2.2 hh
    linarith
  · rw [dTcond_insulated ports (s.T k) hk, e1', e2']
    ring

omit [IsStrictOrderedRing K] in
theorem EnthalpySlope.mono {m M m' M' L : K} (h : EnthalpySlope mat m M L) (h1 : m ≤ m') (h2 : M' ≤ M) :
    EnthalpySlope mat m' M' L := fun a b ha hab hb => h a b (h1.trans ha) hab (hb.trans h2)

theorem lossRate_nonneg {ports : List (Port K)} (hph : Physical mat g s ports) {k : ℕ} (hk : k < g.n) :
    0 ≤ lossRate mat g s k := by
  have h1 := hph.uaAmb k
  have h2 := hph.lidTop
  have h3 := hph.lidBot
  have h4 := hph.cap k hk
  unfold lossRate
  refine div_nonneg (add_nonneg (add_nonneg h1 ?_) ?_) h4.le <;> split_ifs <;> first | assumption | exact le_rfl

/-- **C146**, partial: a storage that is stratified is stratified after a step, for any material and any flows
through its ports, if the step is at most half of the one that creates no new extremes (C24), what comes in
fits into the layers and the losses do not disturb them.  Missing: the lids (`C146_fails_lid`). -/
theorem C146_stays_partial {ports : List (Port K)} {m M L h : K}
    (hn : 2 ≤ g.n) (hph : Physical mat g s ports)
    (hcells : ∀ k < g.n, m ≤ s.T k ∧ s.T k ≤ M) (hports : ∀ p ∈ ports, m ≤ p.T ∧ p.T ≤ M)
    (hL : EnthalpySlope mat m M L) (hL0 : 0 ≤ L)
    (hsort : (ports.map (·.idx)).Pairwise (· ≤ ·)) (hp : ∀ p ∈ ports, p.idx < g.n)
    (hb : (ports.map (·.io)).sum = 0) (hh : 0 ≤ h)
    (hst : Stratified g s.T) (hfit : PortsFit g s ports) (hloss : LossesFit mat g s)
    (hs : ∀ k < g.n,
      let f := processVar g.n (ports.map (·.idx)) (ports.map (·.io))
      2 * (h * (totalConductance mat g s ports k +
        L * (f.top k + f.bot k + inflowThroughPorts ports k))) ≤ heatCapacity mat g s k) :
    Stratified g fun k => s.T k + h * storageDT mat g s ports k := by
  intro k hk
  obtain ⟨f1, f2, f3, -, f5⟩ := storage_flow g hn ports hsort hp hb
  have hk0 : k < g.n := by omega
  have hD := hst k hk
  obtain ⟨θ, e, t1, t2, t3, -, t5⟩ := cell_step (m := s.T (k + 1)) (M := M) hk0 hph
    (hL.mono (hcells _ hk).1 le_rfl) hL0 ⟨hD, (hcells k hk0).2⟩
    (fun h => ⟨hD.trans (by have := hst (k - 1) (by omega); rwa [show k - 1 + 1 = k by omega] at this),
      (hcells _ (by omega)).2⟩)
    (fun h => ⟨le_rfl, (hcells _ h).2⟩)
    (fun p hp' hi => by subst hi; exact ⟨(hfit p hp').1 hk, (hports p hp').2⟩)
    f1 f2 f3 hh (hs k hk0)
  obtain ⟨θ', e', u1, u2, -, u4, u5⟩ := cell_step (m := m) (M := s.T k) hk hph
    (hL.mono le_rfl (hcells _ hk0).2) hL0 ⟨(hcells _ hk).1, hD⟩
    (fun _ => by rw [Nat.add_sub_cancel]; exact ⟨(hcells _ hk0).1, le_rfl⟩)
    (fun h => ⟨(hcells _ h).1, (hst (k + 1) h).trans hD⟩)
    (fun p hp' hi => ⟨(hports p hp').1, by
      have := (hfit p hp').2 (by omega)
      rwa [hi, Nat.add_sub_cancel] at this⟩)
    f1 f2 f3 hh (hs (k + 1) hk)
  rw [← f5] at t5 u5
  show s.T (k + 1) + h * storageDT mat g s ports (k + 1) ≤ s.T k + h * storageDT mat g s ports k
  have t5' : h * storageDT mat g s ports k = e + h * lossRate mat g s k * (s.Tamb - s.T k) := t5
  have u5' : h * storageDT mat g s ports (k + 1) =
      e' + h * lossRate mat g s (k + 1) * (s.Tamb - s.T (k + 1)) := u5
  rw [t5', u5']
  have r := mul_nonneg hh (lossRate_nonneg hph hk0)
  have r' := mul_nonneg hh (lossRate_nonneg hph hk)
  set a := h * lossRate mat g s k with ha
  set a' := h * lossRate mat g s (k + 1) with ha'
  have hD' : 0 ≤ s.T k - s.T (k + 1) := sub_nonneg.2 hD
  have k1 := mul_le_mul_of_nonneg_right t2 hD'
  have k2 := mul_le_mul_of_nonneg_right u2 hD'
  have k3 := mul_nonneg r hD'
  have k4 := mul_nonneg r' hD'
  rcases hloss k hk with h1 | ⟨h1, h2⟩ | ⟨h1, h2⟩
  · have : a' = a := by rw [ha, ha', h1]
    rw [this] at k2 k4 ⊢
    linarith
  · have : a ≤ a' := mul_le_mul_of_nonneg_left h1 hh
    have := mul_nonneg (sub_nonneg.2 this) (sub_nonneg.2 h2)
    linarith
  · have : a' ≤ a := mul_le_mul_of_nonneg_left h1 hh
    have := mul_nonneg (sub_nonneg.2 this) (sub_nonneg.2 h2)
    linarith

/-- **C146** is false of storages with a lid: a storage without any flow, charged evenly to a temperature above
that of the ambient and insulated at its shell, is warmer below the top than at the top after any step that
loses heat through the lid. -/
theorem C146_fails_lid {h T : K} (hn : 3 ≤ g.n) (hph : Physical mat g s []) (hT : ∀ k < g.n, s.T k = T)
    (hamb : s.Tamb < T) (hshell : ∀ k, s.uaAmb k = 0) (hlid : 0 < s.lidTop) (hh : 0 < h) :
    s.T 0 + h * storageDT mat g s [] 0 < s.T 1 + h * storageDT mat g s [] 1 := by
  obtain ⟨f1, f2, f3, -, f5⟩ := storage_flow g (by omega) [] (by simp) (by simp) (by simp)
  have key : ∀ k < g.n, storageDT mat g s [] k = lossRate mat g s k * (s.Tamb - T) := by
    intro k hk
    unfold storageDT
    rw [f5, dTcond_insulated [] T hk, hT k hk]
    have hph' : Physical mat g (insulated s T) [] :=
      ⟨hph.lam, hph.gs, hph.aCell, hph.uaTbWll, hph.buoy, fun _ => le_rfl, le_rfl, le_rfl, hph.ports, hph.cap⟩
    have hc : T ≤ (insulated s T).T k ∧ (insulated s T).T k ≤ T := by
      have : (insulated s T).T k = T := hT k hk
      rw [this]; exact ⟨le_rfl, le_rfl⟩
    have hw : WithinAt g (insulated s T) [] k T T :=
      ⟨hc, fun _ => by
        have : (insulated s T).T (k - 1) = T := hT _ (by omega)
        rw [this]; exact ⟨le_rfl, le_rfl⟩, fun h => by
        have : (insulated s T).T (k + 1) = T := hT _ h
        rw [this]; exact ⟨le_rfl, le_rfl⟩, ⟨le_rfl, le_rfl⟩, by simp⟩
    obtain ⟨d1, p1, e1⟩ := pull_cond hph' hw hk
    have hTk : (insulated s T).T k = T := hT k hk
    have z1 : d1 = 0 := by
      have a := p1.2.1; have b := p1.2.2
      rw [hTk, sub_self, mul_zero] at a b
      linarith
    have hL : EnthalpySlope mat T T 0 := by
      intro a b ha hab hb
      have : a = T := le_antisymm (hab.trans hb) ha
      have hb' : b = T := le_antisymm hb (ha.trans hab)
      rw [this, hb']; simp
    obtain ⟨d2, p2, e2⟩ := pull_adv (mat := mat) hw hL le_rfl hk f1 f2 f3
    have z2 : d2 = 0 := by
      have a := p2.2.1; have b := p2.2.2
      rw [zero_mul, zero_mul] at a b
      linarith
    have e2' : dTadv mat g s (processVar g.n (([] : List (Port K)).map (·.idx)) (([] : List (Port K)).map (·.io))).top
      (processVar g.n (([] : List (Port K)).map (·.idx)) (([] : List (Port K)).map (·.io))).bot []
      (([] : List (Port K)).map fun p => max p.io 0) k = d2 / heatCapacity mat g s k := e2
    rw [e1, e2', z1, z2]
    simp
  rw [key 0 (by omega), key 1 (by omega), hT 0 (by omega), hT 1 (by omega)]
  have c0 := hph.cap 0 (by omega)
  have r0 : 0 < lossRate mat g s 0 := by
    unfold lossRate
    rw [hshell, if_pos rfl, if_neg (by omega)]
    simpa using div_pos hlid c0
  have r1 : lossRate mat g s 1 = 0 := by
    unfold lossRate
    rw [hshell, if_neg (by omega), if_neg (by omega)]
    simp
  rw [r1]
  have := mul_pos hh (mul_pos r0 (sub_pos.2 hamb))
  linarith

/-! ## Witness: a storage of four layers that is charged at the top and discharged at the bottom -/

def strInp : Inp ℚ := ⟨fun k => 80 - 15 * k, 0, 0, 20, fun _ => 1, 0, 0, fun _ => 1⟩
def strGeo : Geo ℚ := ⟨4, 1 / 10, 1 / 2, 1 / 5, 0, 1 / 10⟩
def strPorts : List (Port ℚ) := [⟨0, 85, 1 / 100, 1 / 10, 0, 1 / 10⟩, ⟨1, 70, 1 / 100, 1 / 10, 0, 1 / 20⟩,
  ⟨3, 20, 1 / 100, 1 / 10, 0, -3 / 20⟩]

example : Physical exMat strGeo strInp strPorts ∧ Stratified strGeo strInp.T ∧
    PortsFit strGeo strInp strPorts ∧ LossesFit exMat strGeo strInp ∧ EnthalpySlope exMat 10 90 4200 ∧
    (strPorts.map (·.idx)).Pairwise (· ≤ ·) ∧ (strPorts.map (·.io)).sum = 0 ∧
    (∀ k < strGeo.n,
      let f := processVar strGeo.n (strPorts.map (·.idx)) (strPorts.map (·.io))
      2 * ((10 : ℚ) * (totalConductance exMat strGeo strInp strPorts k +
        4200 * (f.top k + f.bot k + inflowThroughPorts strPorts k))) ≤ heatCapacity exMat strGeo strInp k) := by
  refine ⟨⟨?_, ?_, ?_, ?_, ?_, ?_, ?_, ?_, ?_, ?_⟩, ?_, ?_, ?_, ?_, ?_, ?_, ?_⟩
  · intro k _; norm_num [exMat]
  · norm_num [strGeo]
  · norm_num [strGeo]
  · norm_num [strGeo]
  · intro k; norm_num [strInp]
  · intro k; norm_num [strInp]
  · norm_num [strInp]
  · norm_num [strInp]
  · decide +kernel
  · intro k _; norm_num [heatCapacity, exMat, strGeo]
  · intro k _; simp only [strInp]; push_cast; linarith
  · unfold PortsFit; decide +kernel
  · intro k _
    left
    simp [lossRate, strInp, heatCapacity, exMat]
  · intro a b _ h _
    simp only [enthalpy, exMat]
    constructor <;> linarith
  · decide
  · decide +kernel
  · decide +kernel

/-- The flows and the losses really move the layers of the example. -/
example : storageDT exMat strGeo strInp strPorts 0 ≠ 0 ∧ storageDT exMat strGeo strInp strPorts 2 ≠ 0 := by
  decide +kernel

/-- The storage of `C146_fails_lid`. -/
example : Physical exMat strGeo ⟨fun _ => (60 : ℚ), 0, 0, 20, fun _ => 0, 1, 1, fun _ => 1⟩ [] := by
  refine ⟨?_, ?_, ?_, ?_, ?_, ?_, ?_, ?_, ?_, ?_⟩
  · intro k _; norm_num [exMat]
  · norm_num [strGeo]
  · norm_num [strGeo]
  · norm_num [strGeo]
  · intro k; norm_num
  · intro k; norm_num
  · norm_num
  · norm_num
  · simp
  · intro k _; norm_num [heatCapacity, exMat, strGeo]

end Verif.Cells
