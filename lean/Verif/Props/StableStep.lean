import Verif.Props.Stability

/-!
# C173: which steps the stability checks accept
-/

set_option linter.unusedSectionVars false

namespace Verif.Stability

variable {K : Type*} [Field K] [LinearOrder K] [IsStrictOrderedRing K]

/-! ## The largest entry -/

theorem foldl_max_le (l : List K) (a c : K) : l.foldl max a ≤ c ↔ a ≤ c ∧ ∀ x ∈ l, x ≤ c := by
  induction l generalizing a with
  | nil => simp
  | cons b l ih =>
    rw [List.foldl_cons, ih]
    simp only [max_le_iff, List.mem_cons, forall_eq_or_imp]
    tauto

theorem maxL_le {l : List K} {c : K} (hc : 0 ≤ c) : maxL l ≤ c ↔ ∀ x ∈ l, x ≤ c := by
  cases l with
  | nil => simpa [maxL] using hc
  | cons a l =>
    rw [maxL, foldl_max_le]
    simp

theorem maxL_greatest {l : List K} {M : K} (hM : M ∈ l) (h : ∀ x ∈ l, x ≤ M) : maxL l = M := by
  cases l with
  | nil => simp at hM
  | cons a l =>
    refine le_antisymm ((foldl_max_le l a M).2 ⟨h a (by simp), fun x hx => h x (by simp [hx])⟩) ?_
    have := (foldl_max_le l a (l.foldl max a)).1 le_rfl
    rcases List.mem_cons.1 hM with e | e
    · exact e ▸ this.1
    · exact this.2 M e

theorem maxL_bound {l : List K} {h c b : K} (hh : 0 < h) (hc : 0 < c) (hb : 0 ≤ b) :
    maxL l * h / c ≤ b ↔ ∀ x ∈ l, h * x ≤ b * c := by
  have e : maxL l * h / c ≤ b ↔ maxL l ≤ b * c / h := by
    rw [div_le_iff₀ hc, le_div_iff₀ hh]
  rw [e, maxL_le (by positivity)]
  refine forall₂_congr fun x _ => ?_
  rw [le_div_iff₀ hh, mul_comm]

theorem forall_zipWith {f : K → K → K} {p : K → Prop} (a b : List K) :
    (∀ x ∈ List.zipWith f a b, p x) ↔ ∀ (i : ℕ) u v, a[i]? = some u → b[i]? = some v → p (f u v) := by
  constructor
  · intro h i u v hu hv
    refine h _ (List.mem_iff_getElem?.2 ⟨i, ?_⟩)
    rw [List.getElem?_zipWith, hu, hv]
  · intro h x hx
    obtain ⟨i, hi⟩ := List.mem_iff_getElem?.1 hx
    rw [List.getElem?_zipWith] at hi
    cases hu : a[i]? with
    | none => simp [hu] at hi
    | some u =>
      cases hv : b[i]? with
      | none => simp [hu, hv] at hi
      | some v =>
        simp only [hu, hv, Option.some.injEq] at hi
        exact hi ▸ h i u v hu hv

/-! ## The checks -/

/-- `M` is the greatest entry of the list. -/
def Greatest (l : List K) (M : K) : Prop := M ∈ l ∧ ∀ x ∈ l, x ≤ M

theorem exists_greatest {l : List K} (hl : l ≠ []) : ∃ M, Greatest l M := by
  induction l with
  | nil => exact absurd rfl hl
  | cons a l ih =>
    by_cases h : l = []
    · exact ⟨a, by simp [Greatest, h]⟩
    · obtain ⟨M, h1, h2⟩ := ih h
      rcases le_total a M with hM | hM
      · exact ⟨M, by simp [h1], by simpa [hM] using h2⟩
      · exact ⟨a, by simp, by simpa using fun x hx => (h2 x hx).trans hM⟩

/-- The sizes and properties of a pipe or storage are positive. -/
structure Data.Positive (d : Data K) : Prop where
  rhocp : ∀ x ∈ d.rhocp, 0 < x
  aPort : ∀ x ∈ d.aPort, 0 < x
  subsGsp : ∀ x ∈ d.subsGsp, 0 < x
  gs : 0 < d.gs
  aCell : 0 < d.aCell
  aShell : 0 < d.aShell
  rTotal : 0 < d.rTotal
  vCell : 0 < d.vCell

theorem port_bound {ua ap gsp : List K} {h R : K} (hh : 0 < h) (hR : 0 < R) (ha : ∀ x ∈ ap, 0 < x)
    (hg : ∀ x ∈ gsp, 0 < x) :
    maxL (List.zipWith (· / ·) ua (List.zipWith (· * ·) ap gsp)) * h / R ≤ 1 / 2 ↔
      ∀ (i : ℕ) u a g, ua[i]? = some u → ap[i]? = some a → gsp[i]? = some g → 2 * (h * u) ≤ R * (a * g) := by
  rw [maxL_bound hh hR (by norm_num), forall_zipWith]
  have key : ∀ u a g : K, 0 < a → 0 < g → (h * (u / (a * g)) ≤ 1 / 2 * R ↔ 2 * (h * u) ≤ R * (a * g)) := by
    intro u a g pa pg
    rw [← mul_div_assoc, div_le_iff₀ (mul_pos pa pg)]
    constructor <;> intro h' <;> linarith
  constructor
  · intro H i u a g hu hi hj
    refine (key u a g (ha a (List.mem_of_getElem? hi)) (hg g (List.mem_of_getElem? hj))).1
      (H i u (a * g) hu ?_)
    rw [List.getElem?_zipWith, hi, hj]
  · intro H i u v hu hv
    rw [List.getElem?_zipWith] at hv
    cases hi : ap[i]? with
    | none => simp [hi] at hv
    | some a =>
      cases hj : gsp[i]? with
      | none => simp [hi, hj] at hv
      | some g =>
        simp only [hi, hj, Option.some.injEq] at hv
        exact hv ▸ (key u a g (ha a (List.mem_of_getElem? hi)) (hg g (List.mem_of_getElem? hj))).2
          (H i u a g hu hi hj)

theorem cell_bound {ua rc : List K} {h c : K} (hh : 0 < h) (hc : 0 < c) (hr : ∀ x ∈ rc, 0 < x) :
    maxL (List.zipWith (· / ·) ua rc) * h / c ≤ 1 / 2 ↔
      ∀ (i : ℕ) u r, ua[i]? = some u → rc[i]? = some r → 2 * (h * u) ≤ r * c := by
  rw [maxL_bound hh hc (by norm_num), forall_zipWith]
  refine forall₃_congr fun i u r => forall₂_congr fun _ hi => ?_
  rw [← mul_div_assoc, div_le_iff₀ (hr r (List.mem_of_getElem? hi))]
  constructor <;> intro h' <;> linarith

theorem flow_bound {fl : List K} {h c : K} (hh : 0 < h) (hc : 0 < c) :
    maxL (fl.map fun x => |x|) * h / c ≤ 1 ↔ ∀ x ∈ fl, h * |x| ≤ c := by
  rw [maxL_bound hh hc one_pos.le]
  simp

theorem check_none {c : Check K} {h : K} : check c h = none ↔ divider c h ≤ 1 := by
  unfold check
  split_ifs with hd
  · simpa using hd
  · simpa using hd

/-- **C173**, partial (pipes and storages): a step is accepted if and only if each flow moves at most the mass of
a cell filled with the densest fluid of the part, and the diffusion numbers of all faces between cells, of all
cells to the ambient, and of all ports (with the largest volumetric capacity of the part) are at most one half.
What is missing: the flow through a cell is not compared with the mass of this cell, see
`C173_fails_lighter_cell`, and the flows of the ports of a cell are not added. -/
theorem C173_part_partial (d : Data K) {h R C : K} (hh : 0 < h) (hd : d.Positive) (hR : Greatest d.rho R)
    (hR0 : 0 < R) (hC : Greatest d.rhocp C) :
    check (.oneD d) h = none ↔
      (∀ x ∈ d.flows, h * |x| ≤ d.vCell * R) ∧
      (∀ (i : ℕ) u r, d.uaTb[i]? = some u → d.rhocp[i + 1]? = some r → 2 * (h * u) ≤ r * (d.aCell * d.gs)) ∧
      (∀ (i : ℕ) u r, d.uaAmb[i]? = some u → d.rhocp[i]? = some r → 2 * (h * u) ≤ r * (d.aShell * d.rTotal)) ∧
      ∀ (i : ℕ) u a g, d.uaPort[i]? = some u → d.aPort[i]? = some a → d.subsGsp[i]? = some g →
        2 * (h * u) ≤ C * (a * g) := by
  have hC0 : 0 < C := hd.rhocp C hC.1
  have e : ∀ x : K, x / (1 / 2) ≤ 1 ↔ x ≤ 1 / 2 := fun x => by
    rw [div_le_iff₀ (by norm_num), one_mul]
  rw [check_none, divider, max_le_iff, e, div_one, diff1D, cfl, max_le_iff, max_le_iff,
    maxL_greatest hR.1 hR.2, maxL_greatest hC.1 hC.2, flow_bound hh (mul_pos hd.vCell hR0),
    port_bound hh hC0 hd.aPort hd.subsGsp, cell_bound hh (mul_pos hd.aShell hd.rTotal) hd.rhocp,
    cell_bound hh (mul_pos hd.aCell hd.gs) fun x hx => hd.rhocp x (List.mem_of_mem_tail hx)]
  simp only [List.getElem?_tail]
  tauto

/-- **C173**, partial (mass of each cell): if no cell is lighter than the `q`-th part of the heaviest, an
accepted step moves at most `q` times the mass of any cell; with one density (`q = 1`) at most its mass. -/
theorem C173_mass_partial (d : Data K) {h q : K} (hh : 0 < h) (hd : d.Positive) (hr : ∀ x ∈ d.rho, 0 < x)
    (hq : ∀ x ∈ d.rho, ∀ y ∈ d.rho, x ≤ q * y) (hc : check (.oneD d) h = none) :
    ∀ x ∈ d.flows, ∀ r ∈ d.rho, h * |x| ≤ q * (d.vCell * r) := by
  intro x hx r hmem
  obtain ⟨R, hR⟩ : ∃ R, Greatest d.rho R := by
    exact exists_greatest (List.ne_nil_of_mem hmem)
  have hR0 := hr R hR.1
  have h1 := (check_none.1 hc)
  rw [divider, max_le_iff, div_one, cfl, maxL_greatest hR.1 hR.2,
    flow_bound hh (mul_pos hd.vCell hR0)] at h1
  calc h * |x| ≤ d.vCell * R := h1.2 x hx
    _ ≤ d.vCell * (q * r) := mul_le_mul_of_nonneg_left (hq R hR.1 r hmem) hd.vCell.le
    _ = q * (d.vCell * r) := by ring

/-- A pipe of two cells, the second with warm water, whose conductances are small. -/
def exTwo (flow : ℚ) : Data ℚ :=
  ⟨[2], [1, 1], [1, 1], [flow], [1000, 960], [4200000, 4000000], [1 / 1000, 1 / 1000],
    [1 / 5, 1 / 5], 1 / 10, 1 / 100, 1, 1 / 10, 1 / 1000⟩

theorem exTwo_positive (x : ℚ) : (exTwo x).Positive := by
  constructor <;> simp only [exTwo] <;> norm_num

example : ∃ R C h : ℚ, 0 < h ∧ (exTwo (99 / 100)).Positive ∧ Greatest (exTwo (99 / 100)).rho R ∧ 0 < R ∧
    Greatest (exTwo (99 / 100)).rhocp C ∧ (∀ x ∈ (exTwo (99 / 100)).rho, 0 < x) ∧
    (∀ x ∈ (exTwo (99 / 100)).rho, ∀ y ∈ (exTwo (99 / 100)).rho, x ≤ 25 / 24 * y) ∧
    check (.oneD (exTwo (99 / 100))) h = none := by
  refine ⟨1000, 4200000, 1, one_pos, exTwo_positive _, ⟨by simp [exTwo], ?_⟩, by norm_num, ⟨by simp [exTwo], ?_⟩,
    ?_, ?_, by decide +kernel⟩ <;> simp only [exTwo] <;> norm_num

/-- **C173** fails in general: a step is accepted in which more than the mass of a cell flows through it, because
the flow is compared with the mass of a cell of the largest density. -/
theorem C173_fails_lighter_cell :
    ∃ (d : Data ℚ) (h : ℚ), d.Positive ∧ 0 < h ∧ check (.oneD d) h = none ∧
      ∃ x ∈ d.flows, ∃ r ∈ d.rho, d.vCell * r < h * |x| :=
  ⟨exTwo (99 / 100), 1, exTwo_positive _, one_pos, by decide +kernel, 99 / 100, by simp [exTwo], 960,
    by simp [exTwo], by norm_num [exTwo, abs_of_pos]⟩

/-- The sizes and properties of a heat exchanger are positive. -/
structure DataHex.Positive (d : DataHex K) : Prop where
  aPort : ∀ x ∈ d.aPort, 0 < x
  subsGsp : ∀ x ∈ d.subsGsp, 0 < x
  gs : 0 < d.gs
  aChannel : 0 < d.aChannel
  aPlate : 0 < d.aPlate
  vCell : 0 < d.vCell

/-- **C173**, partial (heat exchangers): a step is accepted if and only if each flow moves at most the mass of a
cell filled with the densest fluid, and the diffusion numbers along the channels, through the plates and at the
ports, all with the largest volumetric capacity, are at most one half. -/
theorem C173_hex_partial (d : DataHex K) {h R C : K} (hh : 0 < h) (hd : d.Positive) (hR : Greatest d.rho R)
    (hR0 : 0 < R) (hC : Greatest d.rhocp C) (hC0 : 0 < C) :
    check (.hex d) h = none ↔
      (∀ x ∈ d.flows, h * |x| ≤ d.vCell * R) ∧
      (∀ u ∈ d.uaDim1, 2 * (h * u) ≤ C * (d.aChannel * d.gs)) ∧
      (∀ u ∈ d.uaDim2, 2 * (h * u) ≤ C * (d.aPlate * d.gs)) ∧
      ∀ (i : ℕ) u a g, d.uaPort[i]? = some u → d.aPort[i]? = some a → d.subsGsp[i]? = some g →
        2 * (h * u) ≤ C * (a * g) := by
  have e : ∀ x : K, x / (1 / 2) ≤ 1 ↔ x ≤ 1 / 2 := fun x => by
    rw [div_le_iff₀ (by norm_num), one_mul]
  have s : ∀ m c : K, m / C * h / c = m * h / (C * c) := fun m c => by
    rw [div_mul_eq_mul_div, div_div]
  have b : ∀ (l : List K) (c : K), 0 < c → (maxL l * h / (C * c) ≤ 1 / 2 ↔ ∀ u ∈ l, 2 * (h * u) ≤ C * c) := by
    intro l c hc
    rw [maxL_bound hh (mul_pos hC0 hc) (by norm_num)]
    refine forall₂_congr fun x _ => ?_
    constructor <;> intro h' <;> linarith
  have s' : ∀ m : K, m / C * h = m * h / C := fun m => div_mul_eq_mul_div _ _ _
  rw [check_none, divider, max_le_iff, e, div_one, diffHex, cflHex, max_le_iff, max_le_iff,
    maxL_greatest hR.1 hR.2, maxL_greatest hC.1 hC.2, flow_bound hh (mul_pos hd.vCell hR0), s, s, s',
    port_bound hh hC0 hd.aPort hd.subsGsp, b _ _ (mul_pos hd.aChannel hd.gs), b _ _ (mul_pos hd.aPlate hd.gs)]
  tauto

/-- A heat exchanger with two cells. -/
def exHex : DataHex ℚ :=
  ⟨[2, 3], [50, 60], [1], [1 / 2], [1000, 960], [4200000, 4000000], [1 / 1000], [1 / 5], 1 / 10, 1 / 100, 1, 1 / 1000⟩

example : ∃ R C h : ℚ, 0 < h ∧ exHex.Positive ∧ Greatest exHex.rho R ∧ 0 < R ∧ Greatest exHex.rhocp C ∧ 0 < C ∧
    check (.hex exHex) h = none := by
  refine ⟨1000, 4200000, 1, one_pos, ?_, ⟨by simp [exHex], ?_⟩, by norm_num, ⟨by simp [exHex], ?_⟩, by norm_num,
    by decide +kernel⟩
  · constructor <;> simp only [exHex] <;> norm_num
  all_goals simp only [exHex]; norm_num

end Verif.Stability
