import Verif.Spec.MaxPrinciple
import Verif.Props.Cells
import Verif.Model.Stability
import Mathlib.Tactic.Positivity

/-!
# C24: an explicit step creates no new extreme temperature
-/

set_option linter.unusedSectionVars false

namespace Verif.Cells

open Verif.Flows Finset

variable {K : Type*} [Field K] [LinearOrder K] [IsStrictOrderedRing K]
variable (mat : Mat K) (g : Geo K) (s : Inp K)

/-- A contribution `d` to the heat flow into a cell of temperature `T` that pulls the cell with conductance
`c` towards some temperature between `m` and `M`. -/
def Pull (T m M c d : K) : Prop := 0 ≤ c ∧ -(c * (T - m)) ≤ d ∧ d ≤ c * (M - T)

theorem Pull.zero (T m M : K) : Pull T m M 0 0 := ⟨le_rfl, by simp, by simp⟩

theorem Pull.add {T m M c d c' d' : K} (h : Pull T m M c d) (h' : Pull T m M c' d') :
    Pull T m M (c + c') (d + d') :=
  ⟨add_nonneg h.1 h'.1, by linarith [h.2.1, h'.2.1], by linarith [h.2.2, h'.2.2]⟩

theorem Pull.sum {ι : Type*} {T m M : K} (l : List ι) (c d : ι → K)
    (h : ∀ i ∈ l, Pull T m M (c i) (d i)) : Pull T m M (l.map c).sum (l.map d).sum := by
  induction l with
  | nil => exact Pull.zero T m M
  | cons a l ih =>
    simp only [List.map_cons, List.sum_cons]
    exact (h a List.mem_cons_self).add (ih fun i hi => h i (List.mem_cons_of_mem _ hi))

theorem Pull.cond {T m M c x : K} (hc : 0 ≤ c) (h1 : m ≤ x) (h2 : x ≤ M) :
    Pull T m M c (c * (x - T)) :=
  ⟨hc, by nlinarith [mul_le_mul_of_nonneg_left h1 hc], by nlinarith [mul_le_mul_of_nonneg_left h2 hc]⟩

theorem Pull.adv {mat : Mat K} {m M L : K} (hL : EnthalpySlope mat m M L) {T x f : K} (hf : 0 ≤ f)
    (hT : m ≤ T ∧ T ≤ M) (hx : m ≤ x ∧ x ≤ M) (hL0 : 0 ≤ L) :
    Pull T m M (L * f) (f * (enthalpy mat x - enthalpy mat T)) := by
  have a1 : -(L * (T - m)) ≤ enthalpy mat x - enthalpy mat T := by
    rcases le_total T x with h | h
    · have := (hL T x hT.1 h hx.2).1
      have := mul_nonneg hL0 (sub_nonneg.2 hT.1)
      linarith
    · have := (hL x T hx.1 h hT.2).2
      have := mul_le_mul_of_nonneg_left (sub_le_sub_left hx.1 T) hL0
      linarith
  have a2 : enthalpy mat x - enthalpy mat T ≤ L * (M - T) := by
    rcases le_total T x with h | h
    · have := (hL T x hT.1 h hx.2).2
      have := mul_le_mul_of_nonneg_left (sub_le_sub_right hx.2 T) hL0
      linarith
    · have := (hL x T hx.1 h hT.2).1
      have := mul_nonneg hL0 (sub_nonneg.2 hT.2)
      linarith
  refine ⟨mul_nonneg hL0 hf, ?_, ?_⟩
  · have := mul_le_mul_of_nonneg_left a1 hf
    linarith
  · have := mul_le_mul_of_nonneg_left a2 hf
    linarith

theorem Pull.step {T m M c d h C : K} (hp : Pull T m M c d) (hh : 0 ≤ h) (hC : 0 < C)
    (hs : h * c ≤ C) (h1 : m ≤ T) (h2 : T ≤ M) : m ≤ T + h * (d / C) ∧ T + h * (d / C) ≤ M := by
  have e : h * (d / C) = h * d / C := by ring
  rw [e]
  have b1 := mul_le_mul_of_nonneg_right hs (sub_nonneg.2 h1)
  have b2 := mul_le_mul_of_nonneg_right hs (sub_nonneg.2 h2)
  have c1 := mul_le_mul_of_nonneg_left hp.2.1 hh
  have c2 := mul_le_mul_of_nonneg_left hp.2.2 hh
  constructor
  · have : m - T ≤ h * d / C := by rw [le_div_iff₀ hC]; linarith
    linarith
  · have : h * d / C ≤ M - T := by rw [div_le_iff₀ hC]; linarith
    linarith

variable {mat g s}

theorem faceConductance_nonneg {ports : List (Port K)} (hph : Physical mat g s ports) {k : ℕ}
    (hk : k + 1 < g.n) : 0 ≤ faceConductance mat g s k := by
  have h1 := hph.lam k (by omega)
  have h2 := hph.lam (k + 1) hk
  have h3 := hph.gs
  have h4 := hph.aCell
  have h5 := hph.buoy k
  have h6 := hph.uaTbWll
  unfold faceConductance
  positivity

theorem uaTb_eq {ports : List (Port K)} (hph : Physical mat g s ports) {j : ℕ} (h0 : 0 < j)
    (hn : j < g.n) : uaTb mat g s j = faceConductance mat g s (j - 1) := by
  obtain ⟨k, rfl⟩ : ∃ k, j = k + 1 := ⟨j - 1, by omega⟩
  unfold uaTb faceConductance lamMean
  rw [if_neg (by omega), Nat.add_sub_cancel]
  have h1 := hph.lam k (by omega)
  have h2 := hph.lam (k + 1) hn
  have h3 := hph.gs
  have h4 : mat.lam (s.T k) + mat.lam (s.T (k + 1)) ≠ 0 := by positivity
  have h5 : g.gs / 2 / mat.lam (s.T k) + g.gs / 2 / mat.lam (s.T (k + 1)) =
      g.gs * (mat.lam (s.T k) + mat.lam (s.T (k + 1))) / (2 * mat.lam (s.T k) * mat.lam (s.T (k + 1))) := by
    field_simp
    ring
  rw [h5]
  field_simp

theorem portConductance_nonneg {ports : List (Port K)} (hph : Physical mat g s ports) {p : Port K}
    (hp : p ∈ ports) (hi : p.idx < g.n) : 0 ≤ portConductance mat g s p := by
  obtain ⟨h1, h2, h3, h4⟩ := hph.ports p hp
  have h5 := hph.lam p.idx hi
  have h6 := hph.gs
  unfold portConductance
  positivity

theorem sum_at {ι : Type*} (l : List ι) (idx : ι → ℕ) (F G : ι → K) (C : K) (k : ℕ)
    (h : ∀ i ∈ l, idx i = k → F i = G i / C) :
    (((l.map fun p => (idx p, F p)).filter (·.1 = k)).map Prod.snd).sum =
      ((l.filter (idx · = k)).map G).sum / C := by
  induction l with
  | nil => simp
  | cons p l ih =>
    have ih := ih fun i hi => h i (List.mem_cons_of_mem _ hi)
    by_cases hp : idx p = k
    · simp only [List.map_cons, List.filter_cons, hp, decide_true, if_true, List.sum_cons, add_div]
      rw [ih, h p List.mem_cons_self hp]
    · simp only [List.map_cons, List.filter_cons, hp, decide_false, Bool.false_eq_true, if_false]
      exact ih

/-- All temperatures cell `k` is connected to lie between `m` and `M`. -/
structure WithinAt (g : Geo K) (s : Inp K) (ports : List (Port K)) (k : ℕ) (m M : K) : Prop where
  cell : m ≤ s.T k ∧ s.T k ≤ M
  above : 0 < k → m ≤ s.T (k - 1) ∧ s.T (k - 1) ≤ M
  below : k + 1 < g.n → m ≤ s.T (k + 1) ∧ s.T (k + 1) ≤ M
  ambient : m ≤ s.Tamb ∧ s.Tamb ≤ M
  ports : ∀ p ∈ ports, p.idx = k → m ≤ p.T ∧ p.T ≤ M

theorem Within.at {ports : List (Port K)} {m M : K} (hw : Within g s ports m M) {k : ℕ} (hk : k < g.n) :
    WithinAt g s ports k m M :=
  ⟨hw.cells k hk, fun _ => hw.cells _ (by omega), fun h => hw.cells _ h, hw.ambient,
    fun p hp _ => hw.ports p hp⟩

/-- The conduction part of the differential pulls with the total conductance. -/
theorem pull_cond {ports : List (Port K)} {m M : K} (hph : Physical mat g s ports)
    {k : ℕ} (hw : WithinAt g s ports k m M) (hk : k < g.n) :
    ∃ d, Pull (s.T k) m M (totalConductance mat g s ports k) d ∧
      dTcond mat g s ports k = d / heatCapacity mat g s k := by
  refine ⟨(if 0 < k then faceConductance mat g s (k - 1) * (s.T (k - 1) - s.T k) else 0) +
    (if k + 1 < g.n then faceConductance mat g s k * (s.T (k + 1) - s.T k) else 0) +
    s.uaAmb k * (s.Tamb - s.T k) + (if k = 0 then s.lidTop * (s.Tamb - s.T k) else 0) +
    (if k + 1 = g.n then s.lidBot * (s.Tamb - s.T k) else 0) +
    ((ports.filter (·.idx = k)).map fun p => portConductance mat g s p * (p.T - s.T k)).sum, ?_, ?_⟩
  · unfold totalConductance
    refine ((((Pull.add ?_ ?_).add ?_).add ?_).add ?_).add ?_
    · split_ifs with h
      · have := hw.above h
        exact Pull.cond (faceConductance_nonneg hph (by omega)) this.1 this.2
      · exact Pull.zero _ _ _
    · split_ifs with h
      · have := hw.below h
        exact Pull.cond (faceConductance_nonneg hph (by omega)) this.1 this.2
      · exact Pull.zero _ _ _
    · exact Pull.cond (hph.uaAmb k) hw.ambient.1 hw.ambient.2
    · split_ifs with h
      · exact Pull.cond hph.lidTop hw.ambient.1 hw.ambient.2
      · exact Pull.zero _ _ _
    · split_ifs with h
      · exact Pull.cond hph.lidBot hw.ambient.1 hw.ambient.2
      · exact Pull.zero _ _ _
    · refine Pull.sum _ _ _ fun p hp => ?_
      have hp' := List.mem_of_mem_filter hp
      have hi : p.idx = k := by simpa using List.of_mem_filter hp
      exact Pull.cond (portConductance_nonneg hph hp' (by omega)) (hw.ports p hp' (by simpa using List.of_mem_filter hp)).1
        (hw.ports p hp' (by simpa using List.of_mem_filter hp)).2
  · unfold dTcond
    rw [addAt_eq]
    have hT : tExt g s (k + 1) = s.T k := tExt_cell g s hk
    have e1 : uaTb mat g s k * (tExt g s k - tExt g s (k + 1)) =
        if 0 < k then faceConductance mat g s (k - 1) * (s.T (k - 1) - s.T k) else 0 := by
      split_ifs with h
      · rw [uaTb_eq hph h hk, hT]
        have := tExt_cell g s (show k - 1 < g.n by omega)
        rw [show k - 1 + 1 = k by omega] at this
        rw [this]
      · have : k = 0 := by omega
        subst this
        simp [uaTb]
    have e2 : uaTb mat g s (k + 1) * (tExt g s (k + 2) - tExt g s (k + 1)) =
        if k + 1 < g.n then faceConductance mat g s k * (s.T (k + 1) - s.T k) else 0 := by
      split_ifs with h
      · rw [uaTb_eq hph (by omega) h, hT, tExt_cell g s h, Nat.add_sub_cancel]
      · have : k + 1 = g.n := by omega
        simp [uaTb, this]
    have e3 : (if k = 0 then s.lidTop * (s.Tamb - tExt g s 1) / mcp mat g s 0 else 0) =
        (if k = 0 then s.lidTop * (s.Tamb - s.T k) else 0) / mcp mat g s k := by
      split_ifs with h
      · subst h; rw [hT]
      · simp
    have e4 : (if k + 1 = g.n then s.lidBot * (s.Tamb - tExt g s g.n) / mcp mat g s (g.n - 1) else 0) =
        (if k + 1 = g.n then s.lidBot * (s.Tamb - s.T k) else 0) / mcp mat g s k := by
      split_ifs with h
      · rw [← h, hT, Nat.add_sub_cancel]
      · simp
    have e5 : (((ports.map fun p => (p.idx, uaPort mat g s p * (p.T - s.T p.idx) / mcp mat g s p.idx)).filter
          (·.1 = k)).map Prod.snd).sum =
        ((ports.filter (·.idx = k)).map fun p => portConductance mat g s p * (p.T - s.T k)).sum /
          mcp mat g s k := by
      refine sum_at ports _ _ _ _ k fun p _ h => ?_
      subst h
      rw [uaPort_eq]
    rw [e1, e2, e3, e4, e5, hT, ← mcp_eq]
    simp only [add_div]

/-- The advection part of the differential pulls with the specific heat times the water that flows in. -/
theorem pull_adv {top bot : ℕ → K} {ports : List (Port K)} {m M L : K}
    {k : ℕ} (hw : WithinAt g s ports k m M) (hL : EnthalpySlope mat m M L) (hL0 : 0 ≤ L) (hk : k < g.n)
    (h0 : top 0 = 0) (hn : ∀ k, k + 1 = g.n → bot k = 0) (hpos : ∀ k, 0 ≤ top k ∧ 0 ≤ bot k) :
    ∃ d, Pull (s.T k) m M (L * (top k + bot k + inflowThroughPorts ports k)) d ∧
      dTadv mat g s top bot ports (ports.map fun p => max p.io 0) k = d / heatCapacity mat g s k := by
  have hz : ports.zip (ports.map fun p => max p.io 0) = ports.map fun p => (p, max p.io 0) := by
    clear hw
    induction ports with
    | nil => rfl
    | cons p l ih => simp [ih]
  have hH : ∀ k < g.n, enth mat g s (k + 1) = enthalpy mat (s.T k) := by
    intro k hk
    unfold enth enthalpy
    rw [tExt_cell g s hk]
  have hT := hw.cell
  refine ⟨(top k * (enth mat g s k - enth mat g s (k + 1))) +
    (bot k * (enth mat g s (k + 2) - enth mat g s (k + 1))) +
    ((ports.filter (·.idx = k)).map fun p =>
      max p.io 0 * (enthalpy mat p.T - enthalpy mat (s.T k))).sum, ?_, ?_⟩
  · rw [mul_add, mul_add]
    refine (Pull.add ?_ ?_).add ?_
    · rcases Nat.eq_zero_or_pos k with h | h
      · subst h; rw [h0]; simpa using Pull.zero (s.T 0) m M
      · rw [hH k hk]
        have := hH (k - 1) (by omega)
        rw [show k - 1 + 1 = k by omega] at this
        rw [this]
        exact Pull.adv hL (hpos k).1 hT (hw.above h) hL0
    · by_cases h : k + 1 = g.n
      · rw [hn k h]; simpa using Pull.zero (s.T k) m M
      · rw [hH k hk, hH (k + 1) (by omega)]
        exact Pull.adv hL (hpos k).2 hT (hw.below (by omega)) hL0
    · have e : L * inflowThroughPorts ports k =
          ((ports.filter (·.idx = k)).map fun p => L * max p.io 0).sum := by
        unfold inflowThroughPorts
        rw [List.sum_map_mul_left]
      rw [e]
      refine Pull.sum _ _ _ fun p hp => ?_
      exact Pull.adv hL (le_max_right _ _) hT (hw.ports p (List.mem_of_mem_filter hp)
        (by simpa using List.of_mem_filter hp)) hL0
  · unfold dTadv
    rw [addAt_eq, hz, List.map_map, ← mcp_eq, add_div, add_div, add_div]
    have := sum_at ports (·.idx) (fun p => max p.io 0 * (mat.cp p.T * p.T - enth mat g s (p.idx + 1)) /
      mcp mat g s p.idx) (fun p => max p.io 0 * (enthalpy mat p.T - enthalpy mat (s.T k))) (mcp mat g s k) k
      (fun p _ h => by subst h; rw [hH _ hk]; rfl)
    rw [← this]
    rfl

theorem max_principle {top bot : ℕ → K} {ports : List (Port K)} {m M L h : K}
    (hph : Physical mat g s ports)
    (hw : Within g s ports m M) (hL : EnthalpySlope mat m M L) (hL0 : 0 ≤ L) {k : ℕ} (hk : k < g.n)
    (h0 : top 0 = 0) (hn : ∀ k, k + 1 = g.n → bot k = 0) (hpos : ∀ k, 0 ≤ top k ∧ 0 ≤ bot k)
    (hh : 0 ≤ h) (hs : h * (totalConductance mat g s ports k +
      L * (top k + bot k + inflowThroughPorts ports k)) ≤ heatCapacity mat g s k) :
    let dT := dTcond mat g s ports k + dTadv mat g s top bot ports (ports.map fun p => max p.io 0) k
    m ≤ s.T k + h * dT ∧ s.T k + h * dT ≤ M := by
  obtain ⟨d1, p1, e1⟩ := pull_cond hph (hw.at hk) hk
  obtain ⟨d2, p2, e2⟩ := pull_adv (hw.at hk) hL hL0 hk h0 hn hpos
  intro dT
  have : dT = (d1 + d2) / heatCapacity mat g s k := by
    rw [add_div, ← e1, ← e2]
  rw [this]
  exact (p1.add p2).step hh (hph.cap k hk) hs (hw.cells k hk).1 (hw.cells k hk).2

/-- **C24**, partial (storages and branched pipes): if the step is at most the heat capacity of each cell
divided by everything that is connected to the cell, the step creates no temperature outside the range of
the cells, the ambient and the ports.  Missing: the stability check of the code compares the contributions
one by one and so allows longer steps, for which the claim is false (`C24_fails_checked_step`). -/
theorem C24_storage_no_new_extreme_partial {ports : List (Port K)} {m M L h : K}
    (hn : 2 ≤ g.n) (hph : Physical mat g s ports)
    (hw : Within g s ports m M) (hL : EnthalpySlope mat m M L) (hL0 : 0 ≤ L)
    (hsort : (ports.map (·.idx)).Pairwise (· ≤ ·)) (hp : ∀ p ∈ ports, p.idx < g.n)
    (hb : (ports.map (·.io)).sum = 0) (hh : 0 ≤ h)
    (hs : ∀ k < g.n,
      let f := processVar g.n (ports.map (·.idx)) (ports.map (·.io))
      h * (totalConductance mat g s ports k + L * (f.top k + f.bot k + inflowThroughPorts ports k)) ≤
        heatCapacity mat g s k) :
    ∀ k < g.n, m ≤ s.T k + h * storageDT mat g s ports k ∧ s.T k + h * storageDT mat g s ports k ≤ M := by
  intro k hk
  obtain ⟨f1, f2, f3, -, f5⟩ := storage_flow g hn ports hsort hp hb
  have := max_principle hph hw hL hL0 hk f1 f2 f3 hh (hs k hk)
  rw [← f5] at this
  exact this

/-- **C24**, partial (pipes): the same for a pipe, where the water through each cell is the flow of the
pipe. -/
theorem C24_pipe_no_new_extreme_partial {pin pout : Port K} {io m M L h : K}
    (hn : 2 ≤ g.n) (hph : Physical mat g s [pin, pout])
    (hw : Within g s [pin, pout] m M) (hL : EnthalpySlope mat m M L) (hL0 : 0 ≤ L)
    (h1 : pin.idx = 0) (h2 : pout.idx = g.n - 1) (h3 : pin.io = io) (h4 : pout.io = -io) (hh : 0 ≤ h)
    (hs : ∀ k < g.n, h * (totalConductance mat g s [pin, pout] k + L * |io|) ≤ heatCapacity mat g s k) :
    ∀ k < g.n, m ≤ s.T k + h * pipeDT mat g s io pin pout k ∧
      s.T k + h * pipeDT mat g s io pin pout k ≤ M := by
  intro k hk
  obtain ⟨f1, f2, f3, -, f5⟩ := pipe_flow g hn io pin pout h1 h2 h3 h4
  have hfl : (processInvar g.n io).top k + (processInvar g.n io).bot k +
      inflowThroughPorts [pin, pout] k = |io| := by
    have t : (processInvar g.n io).top k = if k = 0 then 0 else if 0 ≤ io then io else 0 := rfl
    have b : (processInvar g.n io).bot k = if k + 1 = g.n then 0 else if 0 ≤ io then 0 else -io := rfl
    rw [t, b]
    unfold inflowThroughPorts
    simp only [List.filter_cons, List.filter_nil, h1, h2]
    by_cases hk0 : k = 0
    · subst hk0
      have c1 : ¬ (g.n - 1 = 0) := by omega
      have c2 : ¬ (0 + 1 = g.n) := by omega
      simp only [c1, c2, decide_true, decide_false, if_true, if_false, Bool.false_eq_true, List.map_cons,
        List.map_nil, List.sum_cons, List.sum_nil, h3]
      split_ifs with h
      · rw [max_eq_left h, abs_of_nonneg h]; ring
      · rw [max_eq_right (not_le.1 h).le, abs_of_neg (not_le.1 h)]; ring
    · have c1 : ¬ (0 = k) := fun e => hk0 e.symm
      by_cases hkn : k + 1 = g.n
      · have c2 : g.n - 1 = k := by omega
        simp only [hk0, c1, c2, hkn, decide_true, decide_false, if_true, if_false, Bool.false_eq_true,
          List.map_cons, List.map_nil, List.sum_cons, List.sum_nil, h4]
        split_ifs with h
        · rw [max_eq_right (by linarith), abs_of_nonneg h]; ring
        · rw [max_eq_left (by linarith [not_le.1 h]), abs_of_neg (not_le.1 h)]; ring
      · have c2 : ¬ (g.n - 1 = k) := by omega
        simp only [hk0, c1, c2, hkn, decide_false, if_false, Bool.false_eq_true,
          List.map_nil, List.sum_nil]
        split_ifs with h
        · rw [abs_of_nonneg h]; ring
        · rw [abs_of_neg (not_le.1 h)]; ring
  have := max_principle hph hw hL hL0 hk f1 f2 f3 hh (by rw [hfl]; exact hs k hk)
  rw [← f5] at this
  exact this

/-! ## Witness -/

example : Physical exMat exGeo exInp exPorts ∧ Within exGeo exInp exPorts 10 90 ∧
    EnthalpySlope exMat 10 90 4200 ∧ (exPorts.map (·.idx)).Pairwise (· ≤ ·) ∧
    (exPorts.map (·.io)).sum = 0 ∧
    (∀ k < exGeo.n,
      let f := processVar exGeo.n (exPorts.map (·.idx)) (exPorts.map (·.io))
      (1 / 10 : ℚ) * (totalConductance exMat exGeo exInp exPorts k +
        4200 * (f.top k + f.bot k + inflowThroughPorts exPorts k)) ≤ heatCapacity exMat exGeo exInp k) := by
  refine ⟨⟨?_, ?_, ?_, ?_, ?_, ?_, ?_, ?_, ?_, ?_⟩, ⟨?_, ?_, ?_⟩, ?_, ?_, ?_, ?_⟩
  · intro k _; norm_num [exMat]
  · norm_num [exGeo]
  · norm_num [exGeo]
  · norm_num [exGeo]
  · intro k; norm_num [exInp]
  · intro k; norm_num [exInp]
  · norm_num [exInp]
  · norm_num [exInp]
  · decide +kernel
  · intro k _; norm_num [heatCapacity, exMat, exGeo]
  · decide +kernel
  · decide +kernel
  · decide +kernel
  · intro a b _ h _
    simp only [enthalpy, exMat]
    constructor <;> linarith
  · decide
  · decide +kernel
  · decide +kernel

/-! ## The check of the code -/

/-- What `pipe1D_diff` hands to the stability check (`precomp_funs.py:1178-1200`); `aShell` and `rTotal` are
constants of the part. -/
def pipeCheck (mat : Mat K) (g : Geo K) (s : Inp K) (aShell rTotal io : K) (pin pout : Port K) :
    Stability.Check K :=
  .oneD ⟨(List.range (g.n - 1)).map fun j => uaTb mat g s (j + 1), [pin, pout].map (uaPort mat g s),
    (List.range g.n).map s.uaAmb, [io], (List.range g.n).map fun k => mat.rho (s.T k),
    (List.range g.n).map fun k => mat.rho (s.T k) * mat.cp (s.T k), [pin, pout].map (·.area),
    [pin, pout].map fun p => g.gs + p.gsp, g.gs, g.aCell, aShell, rTotal, g.vCell⟩

/-- A pipe of three cells, a hot cell between two cold ones. -/
def hotCell : Inp ℚ := ⟨fun k => if k = 1 then 100 else 0, 0, 0, 0, fun _ => 0, 0, 0, fun _ => 1⟩

/-- **C24** is false of the code: the stability check accepts a step of half a second for a perfectly
insulated pipe with a hot cell between two cold ones and cold water flowing in, and after the step the hot
cell is colder (-100) than anything around it (0). -/
theorem C24_fails_checked_step :
    ∃ (mat : Mat ℚ) (g : Geo ℚ) (s : Inp ℚ) (pin pout : Port ℚ) (io h : ℚ),
      2 ≤ g.n ∧ Physical mat g s [pin, pout] ∧ Within g s [pin, pout] 0 100 ∧ pin.idx = 0 ∧
      pout.idx = g.n - 1 ∧ pin.io = io ∧ pout.io = -io ∧ 0 < h ∧
      Stability.check (pipeCheck mat g s 1 1 io pin pout) h = none ∧
      s.T 1 + h * pipeDT mat g s io pin pout 1 = -100 := by
  refine ⟨⟨fun _ => 1, fun _ => 1, fun _ => 1⟩, ⟨3, 1, 1, 1, 0, 0⟩, hotCell, ⟨0, 0, 1, 1, 0, 2⟩,
    ⟨2, 0, 1, 1, 0, -2⟩, 2, 1 / 2, by decide, ⟨?_, ?_, ?_, ?_, ?_, ?_, ?_, ?_, ?_, ?_⟩, ⟨?_, ?_, ?_⟩,
    rfl, rfl, rfl, rfl, by norm_num, ?_, ?_⟩
  · intro k _; norm_num
  · norm_num
  · norm_num
  · norm_num
  · intro k; norm_num [hotCell]
  · intro k; norm_num [hotCell]
  · norm_num [hotCell]
  · norm_num [hotCell]
  · decide +kernel
  · intro k _; norm_num [heatCapacity]
  · decide +kernel
  · decide +kernel
  · decide +kernel
  · decide +kernel
  · decide +kernel

theorem foldl_max_ge (l : List K) (a : K) : a ≤ l.foldl max a ∧ ∀ x ∈ l, x ≤ l.foldl max a := by
  induction l generalizing a with
  | nil => simp
  | cons b l ih =>
    obtain ⟨h1, h2⟩ := ih (max a b)
    refine ⟨(le_max_left a b).trans h1, fun x hx => ?_⟩
    rcases List.mem_cons.1 hx with rfl | hx
    · exact (le_max_right a x).trans h1
    · exact h2 x hx

theorem le_maxL {l : List K} {x : K} (hx : x ∈ l) : x ≤ Stability.maxL l := by
  cases l with
  | nil => simp at hx
  | cons a l =>
    obtain ⟨h1, h2⟩ := foldl_max_ge l a
    rcases List.mem_cons.1 hx with rfl | hx
    · exact h1
    · exact h2 x hx

theorem maxL_const (n : ℕ) (hn : 0 < n) (c : K) : Stability.maxL ((List.range n).map fun _ => c) = c := by
  obtain ⟨m, rfl⟩ : ∃ m, n = m + 1 := ⟨n - 1, by omega⟩
  have : ((List.range (m + 1)).map fun _ => c) = List.replicate (m + 1) c := by
    simp [List.map_const']
  rw [this, List.replicate_succ]
  show (List.replicate m c).foldl max c = c
  induction m with
  | zero => rfl
  | succ m ih => rw [List.replicate_succ, List.foldl_cons, max_self, ih (by omega) (by simp [List.map_const'])]

/-- **C24**, partial (what the check of the code does guarantee): for a pipe with constant material
properties the check is too weak by a constant factor only.  If it accepts `h`, every step of at most
`h / (3/2 + κp/2 + κa/2)` creates no new extreme temperature, where `κp ≥ 1` and `κa` compare the volumes
that the check assigns to ports and shell with the volume of a cell. -/
theorem C24_checked_step_partial {pin pout : Port K} {io m M h h' κp κa aShell rTotal cp rho : K}
    (hn : 2 ≤ g.n) (hph : Physical mat g s [pin, pout]) (hw : Within g s [pin, pout] m M)
    (hcp : ∀ T, mat.cp T = cp) (hrho : ∀ T, mat.rho T = rho) (cp0 : 0 < cp) (rho0 : 0 < rho)
    (hV : g.vCell = g.aCell * g.gs) (hA : 0 < g.aCell) (hwll : 0 ≤ g.mcpWll)
    (hlid : s.lidTop = 0 ∧ s.lidBot = 0)
    (h1 : pin.idx = 0) (h2 : pout.idx = g.n - 1) (h3 : pin.io = io) (h4 : pout.io = -io)
    (hκ : 1 ≤ κp) (hports : ∀ p ∈ [pin, pout], 0 < p.area ∧ p.area * (g.gs + p.gsp) ≤ κp * g.vCell)
    (hshell : 0 < aShell * rTotal ∧ aShell * rTotal ≤ κa * g.vCell)
    (hh : 0 < h) (hcheck : Stability.check (pipeCheck mat g s aShell rTotal io pin pout) h = none)
    (hh' : 0 ≤ h') (hle : h' * (3 / 2 + κp / 2 + κa / 2) ≤ h) :
    ∀ k < g.n, m ≤ s.T k + h' * pipeDT mat g s io pin pout k ∧
      s.T k + h' * pipeDT mat g s io pin pout k ≤ M := by
  have hgs := hph.gs
  have hV0 : 0 < g.vCell := by rw [hV]; positivity
  have hrc : (0 : K) < rho * cp := by positivity
  set D : Stability.Data K :=
    ⟨(List.range (g.n - 1)).map fun j => uaTb mat g s (j + 1), [pin, pout].map (uaPort mat g s),
    (List.range g.n).map s.uaAmb, [io], (List.range g.n).map fun k => mat.rho (s.T k),
    (List.range g.n).map fun k => mat.rho (s.T k) * mat.cp (s.T k), [pin, pout].map (·.area),
    [pin, pout].map fun p => g.gs + p.gsp, g.gs, g.aCell, aShell, rTotal, g.vCell⟩ with hD
  have eρ : D.rho = (List.range g.n).map fun _ => rho := by simp only [hD, hrho]
  have erc : D.rhocp = (List.range g.n).map fun _ => rho * cp := by simp only [hD, hrho, hcp]
  have mρ : Stability.maxL D.rho = rho := by rw [eρ]; exact maxL_const _ (by omega) _
  have mrc : Stability.maxL D.rhocp = rho * cp := by rw [erc]; exact maxL_const _ (by omega) _
  have hdiv : Stability.divider (.oneD D) h ≤ 1 := by
    have : Stability.check (.oneD D) h = none := hcheck
    unfold Stability.check at this
    by_contra hc
    rw [if_pos (not_le.1 hc)] at this
    cases this
  obtain ⟨hd1, hd2⟩ := max_le_iff.1 hdiv
  have hd1' : Stability.diff1D D h ≤ 1 / 2 := by
    rw [div_le_iff₀ (by norm_num)] at hd1; linarith
  obtain ⟨hd3, hda⟩ := max_le_iff.1 hd1'
  obtain ⟨hdf, hdp⟩ := max_le_iff.1 hd3
  have getrc : ∀ j, j < g.n → (D.rhocp)[j]? = some (rho * cp) := by
    intro j hj; rw [erc]; simp [hj]
  -- faces
  have bface : ∀ j, j + 1 < g.n → h * faceConductance mat g s j ≤ 1 / 2 * (rho * cp * g.vCell) := by
    intro j hj
    have hmem : uaTb mat g s (j + 1) / (rho * cp) ∈ List.zipWith (· / ·) D.uaTb D.rhocp.tail := by
      rw [List.mem_iff_getElem?]
      refine ⟨j, ?_⟩
      rw [List.getElem?_zipWith_eq_some]
      refine ⟨uaTb mat g s (j + 1), rho * cp, ?_, ?_, rfl⟩
      · simp [hD, show j < g.n - 1 by omega]
      · rw [List.getElem?_tail]; exact getrc _ hj
    have h5 := le_maxL hmem
    have h6 : uaTb mat g s (j + 1) / (rho * cp) * h / (g.aCell * g.gs) ≤ 1 / 2 := by
      refine le_trans ?_ hdf
      gcongr
    rw [div_le_iff₀ (mul_pos hA hgs), div_mul_eq_mul_div, div_le_iff₀ hrc,
      uaTb_eq hph (by omega) hj, Nat.add_sub_cancel] at h6
    rw [hV]; linarith
  -- ambient
  have bamb : ∀ k, k < g.n → h * s.uaAmb k ≤ κa / 2 * (rho * cp * g.vCell) := by
    intro k hk
    have hmem : s.uaAmb k / (rho * cp) ∈ List.zipWith (· / ·) D.uaAmb D.rhocp := by
      rw [List.mem_iff_getElem?]
      refine ⟨k, ?_⟩
      rw [List.getElem?_zipWith_eq_some]
      exact ⟨s.uaAmb k, rho * cp, by simp [hD, hk], getrc _ hk, rfl⟩
    have h5 := le_maxL hmem
    have h6 : s.uaAmb k / (rho * cp) * h / (aShell * rTotal) ≤ 1 / 2 := by
      refine le_trans ?_ hda
      gcongr
      · exact hshell.1.le
    rw [div_le_iff₀ hshell.1, div_mul_eq_mul_div, div_le_iff₀ hrc] at h6
    have := mul_le_mul_of_nonneg_right hshell.2 hrc.le
    linarith
  -- ports
  have bport : ∀ p ∈ [pin, pout], h * portConductance mat g s p ≤ κp / 2 * (rho * cp * g.vCell) := by
    intro p hp
    have hmem : uaPort mat g s p / (p.area * (g.gs + p.gsp)) ∈
        List.zipWith (· / ·) D.uaPort (List.zipWith (· * ·) D.aPort D.subsGsp) := by
      simp only [hD, List.map_cons, List.map_nil, List.zipWith_cons_cons, List.zipWith_nil_left,
        List.mem_cons, List.not_mem_nil, or_false] at hp ⊢
      rcases hp with rfl | rfl
      · exact .inl rfl
      · exact .inr rfl
    have h5 := le_maxL hmem
    have hpp := hports p hp
    have hgp := (hph.ports p hp).2.1
    have hden : 0 < p.area * (g.gs + p.gsp) := mul_pos hpp.1 (by linarith)
    rw [mrc] at hdp
    have h6 : uaPort mat g s p / (p.area * (g.gs + p.gsp)) * h / (rho * cp) ≤ 1 / 2 := by
      refine le_trans ?_ hdp
      gcongr
    rw [div_le_iff₀ hrc, div_mul_eq_mul_div, div_le_iff₀ hden, uaPort_eq] at h6
    have := mul_le_mul_of_nonneg_right hpp.2 hrc.le
    linarith
  -- flow
  have bflow : h * (cp * |io|) ≤ rho * cp * g.vCell := by
    rw [div_one] at hd2
    have e : Stability.cfl D h = |io| * h / (g.vCell * rho) := by
      unfold Stability.cfl
      rw [mρ]
      rfl
    rw [e, div_le_iff₀ (by positivity)] at hd2
    have := mul_le_mul_of_nonneg_left hd2 cp0.le
    linarith
  refine C24_pipe_no_new_extreme_partial (L := cp) hn hph hw ?_ cp0.le h1 h2 h3 h4 hh' ?_
  · intro a b _ hab _
    simp only [enthalpy, hcp]
    have := mul_nonneg cp0.le (sub_nonneg.2 hab)
    constructor <;> linarith
  · intro k hk
    have hcap : rho * cp * g.vCell ≤ heatCapacity mat g s k := by
      unfold heatCapacity; rw [hcp, hrho]; linarith
    have hcv : 0 < rho * cp * g.vCell := by positivity
    have hκa : 0 ≤ κa := by
      by_contra hc
      have := mul_neg_of_neg_of_pos (not_le.1 hc) hV0
      linarith [hshell.1, hshell.2]
    set U := totalConductance mat g s [pin, pout] k + cp * |io| with hU
    have hU0 : 0 ≤ U := by
      obtain ⟨_, hp, _⟩ := pull_cond hph (hw.at hk) hk
      exact add_nonneg hp.1 (by positivity)
    have key : h * U ≤ (3 / 2 + κp / 2 + κa / 2) * (rho * cp * g.vCell) := by
      have htot : h * totalConductance mat g s [pin, pout] k ≤
          (1 / 2 + κp / 2 + κa / 2) * (rho * cp * g.vCell) := by
        have ba := bamb k hk
        have bin := bport pin (by simp)
        have bout := bport pout (by simp)
        have hκ2 := mul_le_mul_of_nonneg_right hκ hcv.le
        unfold totalConductance
        rw [hlid.1, hlid.2]
        simp only [List.filter_cons, List.filter_nil, h1, h2, ite_self, add_zero]
        by_cases hk0 : k = 0
        · subst hk0
          have c1 : ¬ (g.n - 1 = 0) := by omega
          have b0 := bface 0 (by omega)
          simp only [c1, lt_irrefl, decide_true, decide_false, if_true, if_false, Bool.false_eq_true,
            List.map_cons, List.map_nil, List.sum_cons, List.sum_nil, show 0 + 1 < g.n by omega]
          linarith
        · have c1 : ¬ (0 = k) := fun e => hk0 e.symm
          have b0 := bface (k - 1) (by omega)
          by_cases hkn : k + 1 < g.n
          · have c2 : ¬ (g.n - 1 = k) := by omega
            have b1 := bface k hkn
            simp only [c1, c2, hkn, show 0 < k by omega, decide_false, if_true, if_false,
              Bool.false_eq_true, List.map_nil, List.sum_nil]
            linarith
          · have c2 : g.n - 1 = k := by omega
            simp only [c1, c2, hkn, show 0 < k by omega, decide_true, decide_false, if_true, if_false,
              Bool.false_eq_true, List.map_cons, List.map_nil, List.sum_cons, List.sum_nil]
            linarith
      rw [hU, mul_add]
      linarith
    set c := 3 / 2 + κp / 2 + κa / 2 with hc
    have hc0 : 0 < c := by rw [hc]; linarith
    have s1 := mul_le_mul_of_nonneg_right hle hU0
    have s2 : h' * U * c ≤ (rho * cp * g.vCell) * c := by linarith
    exact (le_of_mul_le_mul_right s2 hc0).trans hcap

/-- The pipe of the counterexample meets the hypotheses with a third of the accepted step. -/
example : ∃ (mat : Mat ℚ) (g : Geo ℚ) (pin pout : Port ℚ), 2 ≤ g.n ∧ (∀ T, mat.cp T = 1) ∧
    (∀ T, mat.rho T = 1) ∧ g.vCell = g.aCell * g.gs ∧ 0 < g.aCell ∧ hotCell.lidTop = 0 ∧
    Within g hotCell [pin, pout] 0 100 ∧ pin.idx = 0 ∧ pout.idx = g.n - 1 ∧ pin.io = 2 ∧ pout.io = -2 ∧
    (∀ p ∈ [pin, pout], 0 < p.area ∧ p.area * (g.gs + p.gsp) ≤ 2 * g.vCell) ∧
    Stability.check (pipeCheck mat g hotCell 1 1 2 pin pout) (1 / 2) = none ∧
    (1 / 6 : ℚ) * (3 / 2 + 2 / 2 + 1 / 2) ≤ 1 / 2 := by
  refine ⟨⟨fun _ => 1, fun _ => 1, fun _ => 1⟩, ⟨3, 1, 1, 1, 0, 0⟩, ⟨0, 0, 1, 1, 0, 2⟩,
    ⟨2, 0, 1, 1, 0, -2⟩, by decide, fun _ => rfl, fun _ => rfl, by norm_num, by norm_num, rfl,
    ⟨by decide +kernel, by decide +kernel, by decide +kernel⟩, rfl, rfl, rfl, rfl, by decide +kernel,
    by decide +kernel, by norm_num⟩

end Verif.Cells
