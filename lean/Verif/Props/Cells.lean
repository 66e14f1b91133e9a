import Verif.Lemmas.Cells
import Mathlib.Tactic.NormNum

/-!
# C22, C23, C46, C68: energy balance of pipes and storages
-/

set_option linter.unusedSectionVars false

namespace Verif.Cells

open Verif.Flows Finset

variable {K : Type*} [Field K] [LinearOrder K] [IsStrictOrderedRing K]
variable (mat : Mat K) (g : Geo K) (s : Inp K)

theorem mcp_eq (k : ℕ) : mcp mat g s k = heatCapacity mat g s k := by
  unfold mcp heatCapacity; ring

theorem uaPort_eq (p : Port K) : uaPort mat g s p = portConductance mat g s p := by
  unfold uaPort portConductance
  rw [div_div, div_div, add_comm]

theorem tExt_cell {k : ℕ} (h : k < g.n) : tExt g s (k + 1) = s.T k := by
  unfold tExt
  rw [if_neg (by omega), if_neg (by omega), Nat.add_sub_cancel]

/-! ## Witness -/

/-- Water with constant properties. -/
def exMat : Mat ℚ := ⟨fun _ => 4200, fun _ => 1000, fun _ => 1 / 2⟩
/-- A column of three cells of one litre with some wall. -/
def exGeo : Geo ℚ := ⟨3, 1 / 1000, 1 / 100, 1 / 10, 50, 1⟩
/-- Hot above cold. -/
def exInp : Inp ℚ := ⟨fun k => 80 - 20 * k, 0, 0, 20, fun _ => 1, 1 / 2, 1 / 2, fun _ => 1⟩
/-- Two inflows, the second at the bottom, one outflow in the middle. -/
def exPorts : List (Port ℚ) :=
  [⟨0, 90, 1 / 1000, 1 / 10, 0, 1⟩, ⟨1, 50, 1 / 1000, 1 / 10, 0, -3⟩, ⟨2, 10, 1 / 1000, 1 / 10, 0, 2⟩]

theorem ex_heatCapacity : ∀ k < exGeo.n, heatCapacity exMat exGeo exInp k ≠ 0 := by
  intro k _
  norm_num [heatCapacity, exMat, exGeo]

example : (exPorts.map (·.idx)).Pairwise (· ≤ ·) ∧ (∀ p ∈ exPorts, p.idx < exGeo.n) ∧
    (exPorts.map (·.io)).sum = 0 ∧ 2 ≤ exGeo.n := by
  refine ⟨by decide, by decide, by decide +kernel, by decide⟩

/-! ## C22 -/

/-- Conduction between cells adds up to zero. -/
theorem conduction_telescopes (U Te : ℕ → K) (n : ℕ) (h0 : U 0 = 0) (hn : U n = 0) :
    ∑ k ∈ range n, (U k * (Te k - Te (k + 1)) + U (k + 1) * (Te (k + 2) - Te (k + 1))) = 0 := by
  have : ∀ k ∈ range n, U k * (Te k - Te (k + 1)) + U (k + 1) * (Te (k + 2) - Te (k + 1)) =
      U k * (Te k - Te (k + 1)) - U (k + 1) * (Te (k + 1) - Te (k + 1 + 1)) := by
    intro k _; ring
  rw [sum_congr rfl this, sum_range_sub' (fun k => U k * (Te k - Te (k + 1))), h0, hn]
  ring

/-- **C22**: the heat content changes by conduction exactly by what comes from the ambient and through the
ports.  This holds for pipes, heated pipes, CHP plants, branched pipes and storages, for every temperature
profile and every material. -/
theorem C22_conduction_conserves (hn : 0 < g.n) (hc : ∀ k < g.n, heatCapacity mat g s k ≠ 0)
    (ports : List (Port K)) (hp : ∀ p ∈ ports, p.idx < g.n) :
    heatRate mat g s (dTcond mat g s ports) = fromAmbient g s + throughPorts mat g s ports := by
  unfold heatRate dTcond
  have hm : ∀ k < g.n, mcp mat g s k ≠ 0 := fun k hk => mcp_eq mat g s k ▸ hc k hk
  rw [sum_congr rfl fun k _ => by rw [← mcp_eq mat g s k]]
  rw [sum_addAt g.n _ _ _ (by simpa using hp)]
  have h1 : ∀ k ∈ range g.n, mcp mat g s k *
      ((uaTb mat g s k * (tExt g s k - tExt g s (k + 1))
        + uaTb mat g s (k + 1) * (tExt g s (k + 2) - tExt g s (k + 1))
        + s.uaAmb k * (s.Tamb - tExt g s (k + 1))) / mcp mat g s k
      + (if k = 0 then s.lidTop * (s.Tamb - tExt g s 1) / mcp mat g s 0 else 0)
      + (if k + 1 = g.n then s.lidBot * (s.Tamb - tExt g s g.n) / mcp mat g s (g.n - 1) else 0)) =
      (uaTb mat g s k * (tExt g s k - tExt g s (k + 1))
        + uaTb mat g s (k + 1) * (tExt g s (k + 2) - tExt g s (k + 1)))
      + s.uaAmb k * (s.Tamb - s.T k)
      + (if k = 0 then s.lidTop * (s.Tamb - s.T 0) else 0)
      + (if k = g.n - 1 then s.lidBot * (s.Tamb - s.T (g.n - 1)) else 0) := by
    intro k hk
    have hk' := mem_range.1 hk
    have hmk := hm k hk'
    have e1 : mcp mat g s k * (if k = 0 then s.lidTop * (s.Tamb - tExt g s 1) / mcp mat g s 0 else 0) =
        (if k = 0 then s.lidTop * (s.Tamb - s.T 0) else 0) := by
      split_ifs with h
      · subst h
        rw [tExt_cell g s hn, mul_div_cancel₀ _ hmk]
      · exact mul_zero _
    have e2 : mcp mat g s k *
        (if k + 1 = g.n then s.lidBot * (s.Tamb - tExt g s g.n) / mcp mat g s (g.n - 1) else 0) =
        (if k = g.n - 1 then s.lidBot * (s.Tamb - s.T (g.n - 1)) else 0) := by
      by_cases h : k + 1 = g.n
      · have h' : k = g.n - 1 := by omega
        rw [if_pos h, if_pos h', ← h', ← h, tExt_cell g s hk', mul_div_cancel₀ _ hmk]
      · rw [if_neg h, if_neg (by omega), mul_zero]
    rw [mul_add, mul_add, e1, e2, mul_div_cancel₀ _ hmk, tExt_cell g s hk']
  rw [sum_congr rfl h1, sum_add_distrib, sum_add_distrib, sum_add_distrib,
    conduction_telescopes (uaTb mat g s) (tExt g s) g.n (by simp [uaTb]) (by simp [uaTb]),
    sum_ite_eq' (range g.n) 0, sum_ite_eq' (range g.n) (g.n - 1), if_pos (mem_range.2 hn),
    if_pos (mem_range.2 (by omega)), List.map_map]
  have h2 : (ports.map ((fun p : ℕ × K => mcp mat g s p.1 * p.2) ∘
      fun p => (p.idx, uaPort mat g s p * (p.T - s.T p.idx) / mcp mat g s p.idx))).sum =
      throughPorts mat g s ports := by
    unfold throughPorts
    congr 1
    refine List.map_congr_left fun p hp' => ?_
    rw [Function.comp_apply, mul_div_cancel₀ _ (hm _ (hp p hp')), uaPort_eq]
  rw [h2]
  unfold fromAmbient
  ring

/-! ## C23 -/

theorem advection_balance (top bot : ℕ → K) (ports : List (Port K))
    (hc : ∀ k < g.n, heatCapacity mat g s k ≠ 0) (hp : ∀ p ∈ ports, p.idx < g.n)
    (h0 : top 0 = 0) (hn : ∀ k, k + 1 = g.n → bot k = 0)
    (hb : ∀ k < g.n, CellBalance g.n top bot (ports.map fun p => (p.idx, p.io)) k) :
    heatRate mat g s (dTadv mat g s top bot ports (ports.map fun p => max p.io 0)) =
      enthalpyThroughPorts mat s ports := by
  unfold heatRate dTadv
  have hm : ∀ k < g.n, mcp mat g s k ≠ 0 := fun k hk => mcp_eq mat g s k ▸ hc k hk
  rw [sum_congr rfl fun k _ => by rw [← mcp_eq mat g s k]]
  have hz : ports.zip (ports.map fun p => max p.io 0) = ports.map fun p => (p, max p.io 0) := by
    clear hp hb
    induction ports with
    | nil => rfl
    | cons p l ih => simp [ih]
  rw [hz, List.map_map, sum_addAt g.n _ _ _ (by simpa using hp)]
  have hH : ∀ k < g.n, enth mat g s (k + 1) = enthalpy mat (s.T k) := by
    intro k hk
    unfold enth enthalpy
    rw [tExt_cell g s hk]
  set H : ℕ → K := fun k => enthalpy mat (s.T k) with hHdef
  set e : ℕ → K := enth mat g s with he
  have h1 : ∀ k ∈ range g.n, mcp mat g s k *
      ((top k * (e k - e (k + 1)) + bot k * (e (k + 2) - e (k + 1))) / mcp mat g s k) =
      (top k * e k) + (bot k * e (k + 2)) - (top k + bot k) * H k := by
    intro k hk
    rw [mul_div_cancel₀ _ (hm k (mem_range.1 hk)), hH k (mem_range.1 hk)]
    ring
  rw [sum_congr rfl h1, sum_sub_distrib, sum_add_distrib]
  have h2 : ∑ k ∈ range g.n, top k * e k =
      ∑ k ∈ range g.n, (if k + 1 < g.n then top (k + 1) else 0) * H k := by
    rw [← sum_shift g.n (fun k => top k * e k) (by rw [h0, zero_mul])]
    refine sum_congr rfl fun k hk => ?_
    split_ifs
    · rw [hH k (mem_range.1 hk)]
    · rw [zero_mul]
  have h3 : ∑ k ∈ range g.n, bot k * e (k + 2) =
      ∑ k ∈ range g.n, (if 0 < k then bot (k - 1) else 0) * H k := by
    rw [← sum_shift' g.n (fun k => bot k * e (k + 2)) (fun k hk => by rw [hn k hk, zero_mul])]
    refine sum_congr rfl fun k hk => ?_
    split_ifs with h
    · rw [show k - 1 + 2 = k + 1 by omega, hH k (mem_range.1 hk)]
    · rw [zero_mul]
  have h4 : (ports.map ((fun p : ℕ × K => mcp mat g s p.1 * p.2) ∘
      ((fun q : Port K × K => (q.1.idx, q.2 * (mat.cp q.1.T * q.1.T - e (q.1.idx + 1)) /
        mcp mat g s q.1.idx)) ∘ fun p => (p, max p.io 0)))).sum =
      (ports.map fun p => max p.io 0 * enthalpy mat p.T).sum -
        (ports.map fun p => max p.io 0 * H p.idx).sum := by
    clear hz hb
    induction ports with
    | nil => simp
    | cons p l ih =>
      rw [List.map_cons, List.sum_cons, ih fun q hq => hp q (List.mem_cons_of_mem _ hq)]
      simp only [List.map_cons, List.sum_cons, Function.comp_apply]
      have hpi := hp p List.mem_cons_self
      rw [mul_div_cancel₀ _ (hm _ hpi), hH _ hpi]
      simp only [hHdef, enthalpy]
      ring
  have hin : (ports.map fun p => max p.io 0 * H p.idx).sum =
      ∑ k ∈ range g.n, portInflow (ports.map fun p => (p.idx, p.io)) k * H k := by
    have := sum_by_cell g.n (ports.map fun p => (p.idx, max p.io 0)) (by simpa using hp) H
    rw [List.map_map] at this
    refine this.trans (sum_congr rfl fun k _ => ?_)
    unfold portInflow
    rw [List.filter_map, List.filter_map, List.map_map, List.map_map]
    rfl
  have hout : (ports.map fun p => max (-p.io) 0 * H p.idx).sum =
      ∑ k ∈ range g.n, portOutflow (ports.map fun p => (p.idx, p.io)) k * H k := by
    have := sum_by_cell g.n (ports.map fun p => (p.idx, max (-p.io) 0)) (by simpa using hp) H
    rw [List.map_map] at this
    refine this.trans (sum_congr rfl fun k _ => ?_)
    unfold portOutflow
    rw [List.filter_map, List.filter_map, List.map_map, List.map_map]
    rfl
  have hE : enthalpyThroughPorts mat s ports =
      (ports.map fun p => max p.io 0 * enthalpy mat p.T).sum -
        (ports.map fun p => max (-p.io) 0 * H p.idx).sum := by
    unfold enthalpyThroughPorts
    clear hz hb h4 hin hout hp
    induction ports with
    | nil => simp
    | cons p l ih =>
      simp only [List.map_cons, List.sum_cons]
      rw [ih]
      split_ifs with h
      · rw [max_eq_left h, max_eq_right (by linarith)]; ring
      · rw [max_eq_right (not_le.1 h).le, max_eq_left (by linarith [not_le.1 h])]; ring
  rw [h2, h3, List.map_map, h4, hE, hin, hout, ← sum_add_distrib, ← sum_sub_distrib]
  have h5 : ∑ k ∈ range g.n, ((if k + 1 < g.n then top (k + 1) else 0) * H k +
      (if 0 < k then bot (k - 1) else 0) * H k - (top k + bot k) * H k) =
      (∑ k ∈ range g.n, portInflow (ports.map fun p => (p.idx, p.io)) k * H k) -
      ∑ k ∈ range g.n, portOutflow (ports.map fun p => (p.idx, p.io)) k * H k := by
    rw [← sum_sub_distrib]
    refine sum_congr rfl fun k hk => ?_
    have := hb k (mem_range.1 hk)
    unfold CellBalance at this
    linear_combination -(H k) * this
  rw [h5]
  ring

/-- The flow fields of the code. -/
theorem storage_flow (hn : 2 ≤ g.n) (ports : List (Port K))
    (hs : (ports.map (·.idx)).Pairwise (· ≤ ·)) (hp : ∀ p ∈ ports, p.idx < g.n)
    (hb : (ports.map (·.io)).sum = 0) :
    let f := processVar g.n (ports.map (·.idx)) (ports.map (·.io))
    f.top 0 = 0 ∧ (∀ k, k + 1 = g.n → f.bot k = 0) ∧ (∀ k, 0 ≤ f.top k ∧ 0 ≤ f.bot k) ∧
    (∀ k < g.n, CellBalance g.n f.top f.bot (ports.map fun p => (p.idx, p.io)) k) ∧
    f.port = ports.map fun p => max p.io 0 := by
  intro f
  have h := C20_cells_balanced g.n hn (ports.map fun p => (p.idx, p.io))
    (by rw [List.map_map]; exact hs) (by simpa using hp) (by rw [List.map_map]; exact hb)
  simp only [List.map_map] at h
  obtain ⟨-, h2, -, h4, h5, -, -⟩ := h
  exact ⟨rfl, fun k hk => if_pos hk, h2, h4, h5⟩

theorem pipe_flow (hn : 2 ≤ g.n) (io : K) (pin pout : Port K) (h1 : pin.idx = 0)
    (h2 : pout.idx = g.n - 1) (h3 : pin.io = io) (h4 : pout.io = -io) :
    let f := processInvar g.n io
    f.top 0 = 0 ∧ (∀ k, k + 1 = g.n → f.bot k = 0) ∧ (∀ k, 0 ≤ f.top k ∧ 0 ≤ f.bot k) ∧
    (∀ k < g.n, CellBalance g.n f.top f.bot ([pin, pout].map fun p => (p.idx, p.io)) k) ∧
    [f.portIn, f.portOut] = [pin, pout].map fun p => max p.io 0 := by
  intro f
  obtain ⟨c1, -, c3, -, -, c6, c7, -⟩ := C21_uniform_upwind g.n hn io
  refine ⟨c3, fun k hk => if_pos hk, fun k => ?_, ?_, ?_⟩
  · constructor
    · show 0 ≤ (if k = 0 then 0 else if 0 ≤ io then io else 0)
      split_ifs <;> first | exact le_rfl | assumption
    · show 0 ≤ (if k + 1 = g.n then 0 else if 0 ≤ io then 0 else -io)
      split_ifs with _ h
      · exact le_rfl
      · exact le_rfl
      · linarith [not_le.1 h]
  · simpa [h1, h2, h3, h4] using c1
  · simp only [List.map_cons, List.map_nil, h3, h4]
    exact congrArg₂ (fun a b => [a, b]) c6 c7

/-- **C23** (storages and branched pipes): with balanced port flows the heat content changes by advection
exactly by the enthalpy that enters minus the enthalpy that leaves through the ports; together with C22 this
is the complete energy balance of the part. -/
theorem C23_storage_energy_balance (hn : 2 ≤ g.n) (ports : List (Port K))
    (hc : ∀ k < g.n, heatCapacity mat g s k ≠ 0)
    (hs : (ports.map (·.idx)).Pairwise (· ≤ ·)) (hp : ∀ p ∈ ports, p.idx < g.n)
    (hb : (ports.map (·.io)).sum = 0) :
    heatRate mat g s (storageDT mat g s ports) =
      fromAmbient g s + throughPorts mat g s ports + enthalpyThroughPorts mat s ports := by
  obtain ⟨f1, f2, -, f4, f5⟩ := storage_flow g hn ports hs hp hb
  rw [← C22_conduction_conserves mat g s (by omega) hc ports hp,
    ← advection_balance mat g s _ _ ports hc hp f1 f2 f4, ← f5]
  unfold heatRate storageDT
  rw [← sum_add_distrib]
  exact sum_congr rfl fun k _ => mul_add _ _ _

/-- **C23** (pipes): the complete energy balance, for both flow directions. -/
theorem C23_pipe_energy_balance (hn : 2 ≤ g.n) (io : K) (pin pout : Port K)
    (hc : ∀ k < g.n, heatCapacity mat g s k ≠ 0) (h1 : pin.idx = 0)
    (h2 : pout.idx = g.n - 1) (h3 : pin.io = io) (h4 : pout.io = -io) :
    heatRate mat g s (pipeDT mat g s io pin pout) =
      fromAmbient g s + throughPorts mat g s [pin, pout] + enthalpyThroughPorts mat s [pin, pout] := by
  have hp : ∀ p ∈ [pin, pout], p.idx < g.n := by
    intro p hp
    simp only [List.mem_cons, List.not_mem_nil, or_false] at hp
    rcases hp with rfl | rfl <;> omega
  obtain ⟨f1, f2, -, f4, f5⟩ := pipe_flow g hn io pin pout h1 h2 h3 h4
  rw [← C22_conduction_conserves mat g s (by omega) hc _ hp,
    ← advection_balance mat g s _ _ _ hc hp f1 f2 f4, ← f5]
  unfold heatRate pipeDT
  rw [← sum_add_distrib]
  exact sum_congr rfl fun k _ => mul_add _ _ _

example : ∃ pin pout : Port ℚ, pin.idx = 0 ∧ pout.idx = exGeo.n - 1 ∧ pin.io = 2 ∧ pout.io = -2 :=
  ⟨⟨0, 90, 1 / 1000, 1 / 10, 0, 2⟩, ⟨2, 10, 1 / 1000, 1 / 10, 0, -2⟩, rfl, rfl, rfl, rfl⟩

/-! ## C68 -/

/-- **C68**: a heat source puts exactly its heat flow into the part, however it is spread. -/
theorem C68_heat_arrives (hn : 0 < g.n) (hc : ∀ k < g.n, heatCapacity mat g s k ≠ 0) (dQ : K) :
    heatRate mat g s (dTheat mat g s (Heat.all g.n dQ)) = dQ ∧
    (∀ i < g.n, heatRate mat g s (dTheat mat g s (Heat.single i dQ)) = dQ) ∧
    (∀ a b, a < b → b < g.n → heatRate mat g s (dTheat mat g s (Heat.range a b dQ)) = dQ) := by
  have key : ∀ (a b : ℕ) (m : K), b ≤ g.n →
      heatRate mat g s (dTheat mat g s ⟨a, b, dQ, m⟩) = ((b - a : ℕ) : K) * (dQ * m) := by
    intro a b m hb
    unfold heatRate dTheat
    have : ∀ k ∈ range g.n, heatCapacity mat g s k *
        (if a ≤ k ∧ k < b then dQ * m / mcp mat g s k else 0) =
        if a ≤ k ∧ k < b then dQ * m else 0 := by
      intro k hk
      split_ifs
      · rw [mcp_eq, mul_div_cancel₀ _ (hc k (mem_range.1 hk))]
      · exact mul_zero _
    rw [sum_congr rfl this, ← sum_filter, sum_const, nsmul_eq_mul]
    have hcard : #{k ∈ range g.n | a ≤ k ∧ k < b} = b - a := by
      have : ({k ∈ range g.n | a ≤ k ∧ k < b} : Finset ℕ) = Finset.Ico a b := by
        ext k
        simp only [mem_filter, mem_range, Finset.mem_Ico]
        omega
      rw [this, Nat.card_Ico]
    rw [hcard]
  have hne : ∀ m : ℕ, 0 < m → (m : K) ≠ 0 := fun m hm => by
    have : (0 : K) < m := by exact_mod_cast hm
    exact this.ne'
  refine ⟨?_, fun i hi => ?_, fun a b hab hb => ?_⟩
  · have := hne g.n hn
    refine (key 0 g.n (1 / g.n) le_rfl).trans ?_
    rw [Nat.sub_zero]; field_simp
  · refine (key i (i + 1) 1 hi).trans ?_
    rw [Nat.add_sub_cancel_left]; simp
  · have := hne (b - a) (by omega)
    refine (key a b _ hb.le).trans ?_
    field_simp

example : 0 < exGeo.n ∧ heatRate exMat exGeo exInp (dTheat exMat exGeo exInp (Heat.range 0 2 (1000 : ℚ))) =
    1000 := ⟨by decide, (C68_heat_arrives exMat exGeo exInp (by decide) ex_heatCapacity 1000).2.2 0 2
      (by decide) (by decide)⟩

/-! ## C46 -/

/-- **C46**: if any cell of a heated pipe is at or above the shutdown temperature, the pipe behaves exactly
like the pipe without heating, and the heat flow stays off for later evaluations of the same step (whatever
the temperatures are then). -/
theorem C46_shutdown (limit : K) (q : Heat K) (io : K) (pin pout : Port K) (k : ℕ) (hk : k < g.n)
    (hT : limit ≤ s.T k) :
    (∀ j, (heatedDT mat g s limit q io pin pout).1 j = pipeDT mat g s io pin pout j) ∧
    (heatedDT mat g s limit q io pin pout).2 = 0 ∧
    ∀ (s' : Inp K) (pin' pout' : Port K),
      let q' := { q with dQ := (heatedDT mat g s limit q io pin pout).2 }
      (∀ j, (heatedDT mat g s' limit q' io pin' pout').1 j = pipeDT mat g s' io pin' pout' j) ∧
      (heatedDT mat g s' limit q' io pin' pout').2 = 0 := by
  have h0 : shutdown g s limit q.dQ = 0 :=
    if_pos ⟨k + 1, by omega, by rw [tExt_cell g s hk]; exact hT⟩
  have hz : ∀ (s' : Inp K) (q' : Heat K), q'.dQ = 0 → ∀ j, dTheat mat g s' q' j = 0 := by
    intro s' q' h j
    unfold dTheat
    split_ifs
    · rw [h, zero_mul, zero_div]
    · rfl
  have hs : ∀ s' : Inp K, shutdown g s' limit (0 : K) = 0 := by
    intro s'
    unfold shutdown
    split_ifs <;> rfl
  have h2 : (heatedDT mat g s limit q io pin pout).2 = 0 := h0
  refine ⟨fun j => ?_, h2, fun s' pin' pout' => ⟨fun j => ?_, ?_⟩⟩
  · show pipeDT mat g s io pin pout j + dTheat mat g s _ j = _
    rw [hz s _ h0, add_zero]
  · show pipeDT mat g s' io pin' pout' j + dTheat mat g s' _ j = _
    rw [hz s', add_zero]
    show shutdown g s' limit (heatedDT mat g s limit q io pin pout).2 = 0
    rw [h2, hs]
  · show shutdown g s' limit (heatedDT mat g s limit q io pin pout).2 = 0
    rw [h2, hs]

example : (60 : ℚ) ≤ exInp.T 0 ∧ 0 < exGeo.n := by norm_num [exInp, exGeo]

/-- Below the limit the heat flow is not touched. -/
theorem C46_no_false_shutdown (limit dQ : K) (hT : ∀ k < g.n, s.T k < limit)
    (h1 : s.edgeTop < limit) (h2 : s.edgeBot < limit) : shutdown g s limit dQ = dQ := by
  refine if_neg ?_
  rintro ⟨j, hj, h⟩
  unfold tExt at h
  split_ifs at h with ha hb
  · linarith
  · linarith
  · have := hT (j - 1) (by omega)
    linarith

example : (∀ k < exGeo.n, exInp.T k < 110) ∧ exInp.edgeTop < 110 ∧ exInp.edgeBot < 110 := by
  refine ⟨fun k _ => ?_, by norm_num [exInp], by norm_num [exInp]⟩
  have : (0 : ℚ) ≤ k := by positivity
  simp only [exInp]
  linarith

end Verif.Cells
