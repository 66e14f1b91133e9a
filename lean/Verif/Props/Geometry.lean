import Verif.Model.Geometry
import Mathlib.Algebra.BigOperators.Field
import Mathlib.Data.List.Perm.Subperm
import Mathlib.Data.Int.Interval
import Mathlib.Tactic.NormNum
import Mathlib.Tactic.Linarith
import Mathlib.Tactic.FieldSimp
import Mathlib.Tactic.Ring
import Mathlib.Algebra.Order.Floor.Ring

/-!
# C120-C122: sizes of parts, heated cells, specifications of ports
-/

namespace Verif.Geometry

/-! ## C120 -/

/-- A pipe of the table: a circle of the inner diameter, and a wall. -/
def PipeArgs.Real (p : PipeArgs) : Prop := 0 < p.dI ∧ p.dI < p.dO ∧ p.aI = Real.pi / 4 * p.dI ^ 2

/-- The sizes of `n` cells make up a cylinder of length `L` and diameters `d` and `D`: water, wall and, with the
coefficients `ai` and `ao`, the conductance to the ambient (thermal resistances of the layers in series). -/
structure Cylinder (s : Sizes) (n : ℤ) (L d D sIns lamIns lamWll cp rho : ℝ) : Prop where
  water : n * s.vCell = Real.pi / 4 * d ^ 2 * L
  cell : s.vCell = s.aCell * s.gs
  wall : n * s.mcpWll = cp * rho * (Real.pi / 4 * D ^ 2 - Real.pi / 4 * d ^ 2) * L
  inside : n * s.aShellI = Real.pi * d * L
  outside : n * s.aShellIns = Real.pi * (D + 2 * sIns) * L
  along : 0 < lamWll → n * (1 / s.uaTbWll) = L / (lamWll * (Real.pi / 4 * (D ^ 2 - d ^ 2)))
  across : 0 < lamWll → 0 < lamIns → ∀ ai > 0, ∀ ao > 0, ∃ u, s.ua ai ao = some u ∧
    1 / (n * u) = 1 / (ai * (Real.pi * d * L)) + Real.log (D / d) / (2 * Real.pi * lamWll * L) +
      Real.log ((D + 2 * sIns) / D) / (2 * Real.pi * lamIns * L) + 1 / (ao * (Real.pi * (D + 2 * sIns) * L))

/-- The resistances referred to the inner surface, times its area, are those of the layers. -/
theorem across_aux {n L d D sIns lamIns lamWll ai ao : ℝ} (hn : 0 < n) (hL : 0 < L) (hd : 0 < d) (hD : d < D)
    (hs : 0 ≤ sIns) (hw : 0 < lamWll) (hi : 0 < lamIns) (hai : 0 < ai) (hao : 0 < ao) :
    1 / (n * (Real.pi * d * (L / n) / (1 / ai + d / 2 * Real.log (D / 2 / (d / 2)) / lamWll +
        d / 2 * Real.log ((D / 2 + sIns) / (D / 2)) / lamIns + d / 2 / (D / 2 + sIns) / ao))) =
      1 / (ai * (Real.pi * d * L)) + Real.log (D / d) / (2 * Real.pi * lamWll * L) +
      Real.log ((D + 2 * sIns) / D) / (2 * Real.pi * lamIns * L) + 1 / (ao * (Real.pi * (D + 2 * sIns) * L)) := by
  have hpi := Real.pi_pos
  have hDp : 0 < D := by linarith
  have e1 : D / 2 / (d / 2) = D / d := by field_simp
  have e2 : (D / 2 + sIns) / (D / 2) = (D + 2 * sIns) / D := by field_simp
  have e3 : d / 2 / (D / 2 + sIns) = d / (D + 2 * sIns) := by
    rw [show D / 2 + sIns = (D + 2 * sIns) / 2 by ring]
    field_simp
  rw [e1, e2, e3]
  have hT : 0 < D + 2 * sIns := by linarith
  generalize Real.log (D / d) = x
  generalize Real.log ((D + 2 * sIns) / D) = y
  generalize D + 2 * sIns = T at hT ⊢
  rw [show n * (Real.pi * d * (L / n) / (1 / ai + d / 2 * x / lamWll + d / 2 * y / lamIns + d / T / ao)) =
    Real.pi * d * L / (1 / ai + d / 2 * x / lamWll + d / 2 * y / lamIns + d / T / ao) by field_simp]
  rw [one_div_div]
  field_simp

/-- **C120**, partial (pipes): whatever the number of grid points, the cells of an accepted pipe together are a
cylinder with the length of the pipe. -/
theorem C120_pipe_partial (p : PipeArgs) (ha : p.Accepted) (hr : p.Real) :
    Cylinder p.sizes p.n p.length p.dI p.dO p.sIns p.lamIns p.lamWll p.cpWll p.rhoWll := by
  obtain ⟨hL, hn, hs, -⟩ := ha
  obtain ⟨hd, hD, hA⟩ := hr
  have hpi := Real.pi_pos
  have hn' : (0 : ℝ) < p.n := by exact_mod_cast hn
  have hcs : 0 < Real.pi / 4 * (p.dO ^ 2 - p.dI ^ 2) := by
    have : 0 < p.dO ^ 2 - p.dI ^ 2 := by nlinarith
    positivity
  refine ⟨?_, rfl, ?_, ?_, ?_, fun hw => ?_, fun hw hi ai hai ao hao => ?_⟩
  · simp only [PipeArgs.sizes, hA]
    field_simp
  · simp only [PipeArgs.sizes]
    field_simp
  · simp only [PipeArgs.sizes]
    field_simp
  · simp only [PipeArgs.sizes]
    field_simp
  · simp only [PipeArgs.sizes]
    generalize Real.pi / 4 * (p.dO ^ 2 - p.dI ^ 2) = x at hcs ⊢
    field_simp
  · refine ⟨_, ?_, across_aux hn' hL hd hD hs hw hi hai hao⟩
    unfold Sizes.ua
    rw [if_neg (by push Not; exact ⟨hw.ne', hi.ne'⟩)]
    rfl

/-- **C120**, partial (storages): whatever the number of grid points, the cells of a storage together are a cylinder
that holds the wanted volume, if the shell is thinner than the radius. -/
theorem C120_storage_partial (p : TesArgs) (ha : p.Accepted) (hV : 0 < p.volume) (hn : 0 < p.n)
    (hd : 2 * p.shell < p.dO) :
    Cylinder p.sizes p.n p.height p.dI p.dO p.sIns p.lamIns p.lamWll p.cpWll p.rhoWll ∧
      p.n * p.sizes.vCell = p.volume := by
  obtain ⟨hD, hsh, -, hs, -⟩ := ha
  have hpi := Real.pi_pos
  have hn' : (0 : ℝ) < p.n := by exact_mod_cast hn
  have hdI : 0 < p.dI := by unfold TesArgs.dI; linarith
  have hDI : p.dI < p.dO := by unfold TesArgs.dI; linarith
  have hL : 0 < p.height := by unfold TesArgs.height; positivity
  have hcs : 0 < Real.pi / 4 * (p.dO ^ 2 - p.dI ^ 2) := by
    have : 0 < p.dO ^ 2 - p.dI ^ 2 := by nlinarith
    positivity
  refine ⟨⟨?_, ?_, ?_, ?_, ?_, fun hw => ?_, fun hw hi ai hai ao hao => ?_⟩, ?_⟩
  · simp only [TesArgs.sizes, TesArgs.height]
    field_simp
  · simp only [TesArgs.sizes, TesArgs.height]
    field_simp
  · simp only [TesArgs.sizes]
    field_simp
  · simp only [TesArgs.sizes]
    field_simp
  · simp only [TesArgs.sizes]
    field_simp
  · simp only [TesArgs.sizes]
    generalize Real.pi / 4 * (p.dO ^ 2 - p.dI ^ 2) = x at hcs ⊢
    field_simp
  · refine ⟨_, ?_, across_aux hn' hL hdI hDI hs hw hi hai hao⟩
    unfold Sizes.ua
    rw [if_neg (by push Not; exact ⟨hw.ne', hi.ne'⟩)]
    rfl
  · simp only [TesArgs.sizes]
    field_simp

/-- **C120**, partial (positions): a pipe has one position for each cell, the centre of the cell. -/
theorem C120_positions_partial (p : PipeArgs) (ha : p.Accepted) :
    (p.positions.length : ℤ) = p.n ∧ ∀ (k : ℕ) (h : k < p.positions.length),
      p.positions[k] = (k * (p.length / p.n) + (k + 1) * (p.length / p.n)) / 2 ∧ p.positions[k] < p.length := by
  obtain ⟨hL, hn, -, -⟩ := ha
  have hn' : (0 : ℝ) < p.n := by exact_mod_cast hn
  have hlen : p.positions.length = p.n.toNat := by
    unfold PipeArgs.positions
    rw [List.length_map, List.length_range]
    have : (p.length - p.length / p.n / 2) / (p.length / p.n) = p.n - 1 / 2 := by
      field_simp
    rw [this]
    congr 1
    rw [Int.ceil_eq_iff]
    constructor <;> linarith
  have hnn : ((p.n.toNat : ℕ) : ℤ) = p.n := Int.toNat_of_nonneg hn.le
  refine ⟨by rw [hlen, hnn], fun k hk => ?_⟩
  have hval : p.positions[k] = p.length / p.n / 2 + k * (p.length / p.n) := by
    simp [PipeArgs.positions]
  rw [hval]
  refine ⟨by ring, ?_⟩
  have hk' : (k : ℝ) + 1 ≤ p.n := by
    rw [hlen] at hk
    have : (k : ℤ) + 1 ≤ p.n := by omega
    exact_mod_cast this
  have hg : 0 < p.length / p.n := by positivity
  have : p.n * (p.length / p.n) = p.length := by field_simp
  nlinarith

/-- A storage of 1 m³ with 5 mm of steel. -/
example : ∃ s : Sizes, 10 * s.vCell = 1 ∧ Cylinder s 10 (TesArgs.height ⟨1, 10, 0.8, 0.005, 0.1, 0.04, 50, 500, 7800⟩)
    0.79 0.8 0.1 0.04 50 500 7800 := by
  obtain ⟨h1, h2⟩ := C120_storage_partial ⟨1, 10, 0.8, 0.005, 0.1, 0.04, 50, 500, 7800⟩
    (by norm_num [TesArgs.Accepted]) (by norm_num) (by norm_num) (by norm_num)
  refine ⟨_, by simpa using h2, ?_⟩
  convert h1 using 1
  norm_num [TesArgs.dI]

/-- A pipe of 20 m. -/
example : Cylinder (PipeArgs.sizes ⟨20, 7, Real.pi / 4 * 0.05 ^ 2, 0.05, 0.06, 0.02, 0.04, 50, 500, 7800⟩) 7 20 0.05 0.06
    0.02 0.04 50 500 7800 :=
  C120_pipe_partial ⟨20, 7, Real.pi / 4 * 0.05 ^ 2, 0.05, 0.06, 0.02, 0.04, 50, 500, 7800⟩
    (by norm_num [PipeArgs.Accepted]) ⟨by norm_num, by norm_num, rfl⟩

/-- **C120** is wrong for thick shells: a shell thicker than the radius is accepted; the inner diameter is negative,
but the cells have the wanted volume. -/
theorem C120_fails_shell (p : TesArgs) (hD : 0 < p.dO) (h1 : p.dO < 2 * p.shell) (h2 : p.shell < 1)
    (hs : 0 ≤ p.sIns) (hi : 0 ≤ p.lamIns) (hn : 0 < p.n) :
    p.Accepted ∧ p.dI < 0 ∧ p.n * p.sizes.vCell = p.volume := by
  refine ⟨⟨hD, by linarith, h2, hs, hi⟩, by unfold TesArgs.dI; linarith, ?_⟩
  have hn' : (0 : ℝ) < p.n := by exact_mod_cast hn
  simp only [TesArgs.sizes]
  field_simp

/-- **C120** is wrong for the volume: negative volumes are accepted and give storages of negative height. -/
theorem C120_fails_volume : ∃ p : TesArgs, p.Accepted ∧ p.volume = -1 ∧ p.height < 0 := by
  refine ⟨⟨-1, 10, 0.8, 0.005, 0.1, 0.04, 50, 500, 7800⟩, by norm_num [TesArgs.Accepted], rfl, ?_⟩
  have hpi := Real.pi_pos
  unfold TesArgs.height
  apply div_neg_of_neg_of_pos
  · norm_num
  · have : (TesArgs.dI ⟨-1, 10, 0.8, 0.005, 0.1, 0.04, 50, 500, 7800⟩) = 0.79 := by norm_num [TesArgs.dI]
    rw [this]
    positivity

/-- **C120** is wrong for the wall of storages: the heat capacity of top and bottom, plates with the thickness of the
shell, is missing. -/
theorem C120_fails_lids (p : TesArgs) (ha : p.Accepted) (hV : 0 < p.volume) (hn : 0 < p.n) (hd : 2 * p.shell < p.dO)
    (hc : 0 < p.cpWll) (hr : 0 < p.rhoWll) :
    p.n * p.sizes.mcpWll < p.cpWll * p.rhoWll * ((Real.pi / 4 * p.dO ^ 2 - Real.pi / 4 * p.dI ^ 2) * p.height +
      2 * (Real.pi / 4 * p.dO ^ 2 * p.shell)) := by
  rw [(C120_storage_partial p ha hV hn hd).1.wall]
  have hpi := Real.pi_pos
  have h1 := ha.1
  have h2 := ha.2.1
  have : 0 < p.cpWll * p.rhoWll * (2 * (Real.pi / 4 * p.dO ^ 2 * p.shell)) := by positivity
  linarith

/-- **C120** is wrong for the conductivity of the insulation: zero is in the documented range and accepted, but the
first evaluation divides by it. -/
theorem C120_fails_insulation (p : PipeArgs) (h0 : p.lamIns = 0) (ai ao : ℝ) : p.sizes.ua ai ao = none := by
  unfold Sizes.ua
  rw [if_pos (.inr h0)]

/-! ## C121 -/

/-- **C121**, partial: the cells that are heated exist, all of them get the same share, and together exactly the power
of the heater. -/
theorem C121_power_partial (n : ℤ) (s : Spread) (a b : ℤ) (h : s.cells n = some (a, b)) (hn : 0 < n) (q : ℝ)
    (mcp : ℤ → ℝ) (hm : ∀ k, 0 ≤ k → k < n → 0 < mcp k) :
    0 ≤ a ∧ a < b ∧ b ≤ n ∧ ∑ k ∈ Finset.Ico 0 n, mcp k * heatRate n s q mcp k = q ∧
      ∀ k, 0 ≤ k → k < n → mcp k * heatRate n s q mcp k = if a ≤ k ∧ k < b then q / ((b - a : ℤ) : ℝ) else 0 := by
  have hab : 0 ≤ a ∧ a < b ∧ b ≤ n ∧ s.mult n = 1 / ((b - a : ℤ) : ℝ) := by
    cases s with
    | all =>
      simp only [Spread.cells, Option.some.injEq, Prod.mk.injEq] at h
      obtain ⟨rfl, rfl⟩ := h
      exact ⟨le_rfl, hn, le_rfl, by simp [Spread.mult]⟩
    | single k =>
      simp only [Spread.cells] at h
      split_ifs at h with hc
      simp only [Option.some.injEq, Prod.mk.injEq] at h
      obtain ⟨rfl, rfl⟩ := h
      exact ⟨hc.1, by omega, by omega, by simp [Spread.mult]⟩
    | range x y =>
      simp only [Spread.cells] at h
      split_ifs at h with hc
      simp only [Option.some.injEq, Prod.mk.injEq] at h
      obtain ⟨rfl, rfl⟩ := h
      exact ⟨hc.2.1, hc.1, hc.2.2.le, rfl⟩
  obtain ⟨ha, hb, hbn, hmul⟩ := hab
  have hcell : ∀ k, 0 ≤ k → k < n → mcp k * heatRate n s q mcp k =
      if a ≤ k ∧ k < b then q / ((b - a : ℤ) : ℝ) else 0 := by
    intro k hk hkn
    have := hm k hk hkn
    unfold heatRate
    rw [h]
    simp only
    split_ifs
    · rw [hmul]
      field_simp
    · simp
  refine ⟨ha, hb, hbn, ?_, hcell⟩
  rw [Finset.sum_congr rfl fun k hk => hcell k (Finset.mem_Ico.1 hk).1 (Finset.mem_Ico.1 hk).2, ← Finset.sum_filter]
  have hf : (Finset.Ico 0 n).filter (fun k => a ≤ k ∧ k < b) = Finset.Ico a b := by
    ext k
    simp only [Finset.mem_filter, Finset.mem_Ico]
    constructor
    · exact fun h => h.2
    · exact fun h => ⟨⟨by omega, by omega⟩, h⟩
  rw [hf, Finset.sum_const, Int.card_Ico, nsmul_eq_mul]
  have hc : (((b - a).toNat : ℕ) : ℝ) = ((b - a : ℤ) : ℝ) := by
    have : ((b - a).toNat : ℤ) = b - a := Int.toNat_of_nonneg (by omega)
    exact_mod_cast this
  have hne : (((b - a : ℤ)) : ℝ) ≠ 0 := by
    have : b - a ≠ 0 := by omega
    exact_mod_cast this
  rw [hc]
  field_simp

example : ∑ k ∈ Finset.Ico 0 5, 2 * heatRate 5 (.range 1 3) 100 (fun _ => 2) k = 100 :=
  (C121_power_partial 5 (.range 1 3) 1 3 rfl (by norm_num) 100 (fun _ => 2) (fun _ _ _ => by norm_num)).2.2.2.1

/-- **C121** is wrong for the last cell: no range of cells that contains it is accepted. -/
theorem C121_fails_last (n a b : ℤ) (h : a ≤ n - 1 ∧ n - 1 < b) : (Spread.range a b).cells n = none := by
  simp only [Spread.cells]
  rw [if_neg (by omega)]

/-! ## C122 -/

/-- **C122** (all ports): one entry for all ports is accepted if and only if its type is in the table and it has a
diameter of the table or areas; each port gets these areas. -/
theorem C122_all_partial (t : Table) (ports : List String) (e : Entry) :
    (∀ dn, e.dn = some dn → (t.specs ports [("all", e)] =
      if e.type ∈ t.types ∧ dn ∈ t.dns e.type then some fun _ => t.areas e.type dn else none)) ∧
    (e.dn = none → ∀ a, e.areas = some a → t.specs ports [("all", e)] = if e.type ∈ t.types then some fun _ => a else none) ∧
    (e.dn = none → e.areas = none → t.specs ports [("all", e)] = none) := by
  refine ⟨fun dn h => ?_, fun h a ha => ?_, fun h ha => ?_⟩
  · have hw : ∀ ke ∈ [("all", e)], ke.2.WellFormed := by
      intro ke hke
      rw [List.mem_singleton] at hke
      subst hke
      left
      rw [h]
      simp
    unfold Table.specs
    rw [if_pos hw]
    simp only [Table.lookupAll, h]
    by_cases h1 : e.type ∈ t.types <;> by_cases h2 : dn ∈ t.dns e.type <;> simp [h1, h2]
  · have hw : ∀ ke ∈ [("all", e)], ke.2.WellFormed := by
      intro ke hke
      rw [List.mem_singleton] at hke
      subst hke
      right
      rw [ha]
      simp
    unfold Table.specs
    rw [if_pos hw]
    simp only [Table.lookupAll, h, ha]
    by_cases h1 : e.type ∈ t.types <;> simp [h1]
  · have hw : ¬ ∀ ke ∈ [("all", e)], ke.2.WellFormed := by
      intro hc
      have := hc _ List.mem_cons_self
      rcases this with h1 | h1
      · exact h1 h
      · exact h1 ha
    unfold Table.specs
    rw [if_neg hw]

theorem foldlM_store {t : Table} {ports : List String} : ∀ (d : List (String × Entry)) (acc r : String → Areas),
    (d.map Prod.fst).Nodup → d.foldlM (t.store ports) acc = some r →
    (∀ ke ∈ d, ke.1 ∈ ports ∧ t.lookupOne ke.2 = some (r ke.1)) ∧ ∀ p, p ∉ d.map Prod.fst → r p = acc p := by
  intro d
  induction d with
  | nil =>
    intro acc r _ h
    simp at h
    subst h
    simp
  | cons ke d ih =>
    intro acc r hnd h
    rw [List.foldlM_cons] at h
    unfold Table.store at h
    by_cases hp : ke.1 ∈ ports
    · rw [if_pos hp] at h
      cases hl : t.lookupOne ke.2 with
      | none => simp [hl] at h
      | some a =>
        rw [hl] at h
        simp only [Option.map_some, Option.bind_eq_bind, Option.bind_some] at h
        rw [List.map_cons, List.nodup_cons] at hnd
        obtain ⟨h1, h2⟩ := ih _ r hnd.2 h
        refine ⟨fun x hx => ?_, fun p hpn => ?_⟩
        · rcases List.mem_cons.mp hx with rfl | hx
          · refine ⟨hp, ?_⟩
            rw [hl, h2 _ hnd.1, if_pos rfl]
          · exact h1 x hx
        · rw [List.map_cons, List.mem_cons] at hpn
          push Not at hpn
          rw [h2 p hpn.2, if_neg hpn.1]
    · rw [if_neg hp] at h
      simp at h

theorem foldlM_store_some {t : Table} {ports : List String} : ∀ (d : List (String × Entry)) (acc : String → Areas),
    (∀ ke ∈ d, ke.1 ∈ ports ∧ t.lookupOne ke.2 ≠ none) → ∃ r, d.foldlM (t.store ports) acc = some r := by
  intro d
  induction d with
  | nil => intro acc _; exact ⟨acc, rfl⟩
  | cons ke d ih =>
    intro acc h
    obtain ⟨h1, h2⟩ := h ke List.mem_cons_self
    obtain ⟨a, ha⟩ := Option.ne_none_iff_exists'.mp h2
    obtain ⟨r, hr⟩ := ih (fun p => if p = ke.1 then a else acc p) fun x hx => h x (List.mem_cons_of_mem _ hx)
    refine ⟨r, ?_⟩
    rw [List.foldlM_cons]
    unfold Table.store
    rw [if_pos h1, ha]
    exact hr

theorem specs_each {t : Table} {ports : List String} {d : List (String × Entry)}
    (hk : "all" ∉ d.map Prod.fst) : t.specs ports d =
      if ∀ ke ∈ d, ke.2.WellFormed then
        (d.foldlM (t.store ports) fun _ => (0, 0)).bind fun acc => if d.length = ports.length then some acc else none
      else none := by
  unfold Table.specs
  by_cases hw : ∀ ke ∈ d, ke.2.WellFormed
  · rw [if_pos hw, if_pos hw]
    split
    · rename_i e
      simp at hk
    · rename_i d' _
      simp only [hk, false_or]
  · rw [if_neg hw, if_neg hw]

/-- **C122**, partial (each port): entries with areas, for different ports, are accepted if and only if their types are
in the table and they are exactly the ports of the part; each port gets the areas of its own entry. -/
theorem C122_each_partial (t : Table) (ports : List String) (hp : ports.Nodup) (hall : "all" ∉ ports)
    (d : List (String × String × Areas)) (hd : (d.map Prod.fst).Nodup) (hda : ¬ ∃ x, d = [("all", x)]) :
    ((∃ r, t.specs ports (d.map fun x => (x.1, ⟨x.2.1, none, some x.2.2⟩)) = some r) ↔
      (∀ x ∈ d, x.2.1 ∈ t.types) ∧ ∀ p, p ∈ d.map Prod.fst ↔ p ∈ ports) ∧
    ∀ r, t.specs ports (d.map fun x => (x.1, ⟨x.2.1, none, some x.2.2⟩)) = some r → ∀ x ∈ d, r x.1 = x.2.2 := by
  set e : String × String × Areas → String × Entry := fun x => (x.1, ⟨x.2.1, none, some x.2.2⟩) with he
  have hkeys : (d.map e).map Prod.fst = d.map Prod.fst := by rw [List.map_map]; rfl
  have hlook : ∀ x, t.lookupOne (e x).2 = if x.2.1 ∈ t.types then some x.2.2 else none := fun x => rfl
  have hw : ∀ ke ∈ d.map e, ke.2.WellFormed := by
    intro ke hke
    obtain ⟨x, -, rfl⟩ := List.mem_map.mp hke
    right
    simp [he]
  -- what acceptance means
  have hmain : ∀ r, t.specs ports (d.map e) = some r →
      (∀ x ∈ d, x.2.1 ∈ t.types ∧ x.1 ∈ ports ∧ r x.1 = x.2.2) ∧ d.length = ports.length := by
    intro r hr
    have hfold : (d.map e).foldlM (t.store ports) (fun _ => (0, 0)) = some r →
        ∀ x ∈ d, x.2.1 ∈ t.types ∧ x.1 ∈ ports ∧ r x.1 = x.2.2 := by
      intro hf x hx
      obtain ⟨h1, h2⟩ := (foldlM_store _ _ _ (by rw [hkeys]; exact hd) hf).1 _ (List.mem_map_of_mem hx)
      rw [hlook] at h2
      by_cases ht : x.2.1 ∈ t.types
      · rw [if_pos ht] at h2
        exact ⟨ht, h1, (Option.some.inj h2).symm⟩
      · rw [if_neg ht] at h2
        cases h2
    by_cases hk : "all" ∈ d.map Prod.fst
    · -- an entry for all ports among others
      exfalso
      obtain ⟨x, hx, hxe⟩ := List.mem_map.mp hk
      unfold Table.specs at hr
      rw [if_pos hw] at hr
      split at hr
      · rename_i e' hde
        rw [List.map_eq_singleton_iff] at hde
        obtain ⟨y, hy, hy2⟩ := hde
        apply hda
        refine ⟨y.2, ?_⟩
        rw [hy]
        have : y.1 = "all" := by have := congrArg Prod.fst hy2; simpa [he] using this
        rw [← this]
      · obtain ⟨acc, hacc, -⟩ := Option.bind_eq_some_iff.mp hr
        obtain ⟨h1, -⟩ := (foldlM_store _ _ _ (by rw [hkeys]; exact hd) hacc).1 _ (List.mem_map_of_mem hx)
        apply hall
        rw [← hxe]
        exact h1
    · rw [specs_each (by rw [hkeys]; exact hk), if_pos hw] at hr
      obtain ⟨acc, hacc, hr⟩ := Option.bind_eq_some_iff.mp hr
      split_ifs at hr with hlen
      obtain rfl := Option.some.inj hr
      exact ⟨hfold hacc, by simpa using hlen⟩
  refine ⟨⟨?_, ?_⟩, fun r hr x hx => ((hmain r hr).1 x hx).2.2⟩
  · rintro ⟨r, hr⟩
    obtain ⟨h1, h2⟩ := hmain r hr
    refine ⟨fun x hx => (h1 x hx).1, fun p => ⟨?_, ?_⟩⟩
    · intro hpm
      obtain ⟨x, hx, rfl⟩ := List.mem_map.mp hpm
      exact (h1 x hx).2.1
    · have hsub : (d.map Prod.fst).Subperm ports :=
        List.subperm_of_subset hd fun p hpm => by
          obtain ⟨x, hx, rfl⟩ := List.mem_map.mp hpm
          exact (h1 x hx).2.1
      have hperm := hsub.perm_of_length_le (by rw [List.length_map, h2])
      exact fun h => hperm.mem_iff.mpr h
  · rintro ⟨h1, h2⟩
    have hk : "all" ∉ d.map Prod.fst := fun h => hall ((h2 _).mp h)
    obtain ⟨r, hr⟩ := foldlM_store_some (t := t) (ports := ports) (d.map e) (fun _ => (0, 0)) (by
      intro ke hke
      obtain ⟨x, hx, rfl⟩ := List.mem_map.mp hke
      refine ⟨(h2 _).mp (List.mem_map_of_mem hx), ?_⟩
      rw [hlook, if_pos (h1 x hx)]
      simp)
    refine ⟨r, ?_⟩
    rw [specs_each (by rw [hkeys]; exact hk), if_pos hw, hr]
    have hlen : (d.map e).length = ports.length := by
      have := ((List.perm_ext_iff_of_nodup hd hp).mpr h2).length_eq
      simpa using this
    simp only [Option.bind_some]
    rw [if_pos hlen]

/-- A table with one type. -/
def demo : Table := ⟨["EN10255_medium"], fun _ => ["DN25"], fun _ _ => (2, 6), ["A_i", "A_wall", "d_i", "d_o"]⟩

example : ∃ r, demo.specs ["in", "out"] [("out", ⟨"EN10255_medium", none, some (1, 3)⟩),
    ("in", ⟨"EN10255_medium", none, some (2, 4)⟩)] = some r ∧ r "in" = (2, 4) := by
  obtain ⟨h1, h2⟩ := C122_each_partial demo ["in", "out"] (by decide) (by decide)
    [("out", "EN10255_medium", (1, 3)), ("in", "EN10255_medium", (2, 4))] (by simp) (by simp)
  obtain ⟨r, hr⟩ := h1.mpr ⟨by simp [demo], by intro p; simp [or_comm]⟩
  exact ⟨r, hr, h2 r hr ("in", "EN10255_medium", (2, 4)) (by simp)⟩

example : ∃ r, demo.specs ["in", "out"] [("all", ⟨"EN10255_medium", some "DN25", none⟩)] = some r ∧ r "out" = (2, 6) :=
  ⟨_, ((C122_all_partial demo ["in", "out"] ⟨"EN10255_medium", some "DN25", none⟩).1 "DN25" rfl).trans
    (if_pos (by decide)), rfl⟩

/-- **C122** is wrong for diameters: as soon as one of several ports is given by a nominal diameter of the table,
nothing is accepted (no type of pipe is the name of a row). -/
theorem C122_fails_table (t : Table) (ports : List String) (d : List (String × Entry)) (hd : (d.map Prod.fst).Nodup)
    (hda : ¬ ∃ e, d = [("all", e)]) (ht : ∀ x ∈ t.types, x ∉ t.rows) (ke : String × Entry) (hke : ke ∈ d) (dn : String)
    (hdn : ke.2.dn = some dn) : t.specs ports d = none := by
  unfold Table.specs
  by_cases hw : ∀ ke ∈ d, ke.2.WellFormed
  · rw [if_pos hw]
    split
    · rename_i e
      exact absurd ⟨e, rfl⟩ hda
    · rw [Option.bind_eq_none_iff]
      intro acc hacc
      exfalso
      obtain ⟨-, h2⟩ := (foldlM_store _ _ _ hd hacc).1 _ hke
      unfold Table.lookupOne at h2
      by_cases h1 : ke.2.type ∈ t.types
      · rw [if_pos h1, hdn] at h2
        simp only at h2
        rw [if_neg (fun h => ht _ h1 h.2)] at h2
        cases h2
      · rw [if_neg h1] at h2
        cases h2
  · rw [if_neg hw]

example : demo.specs ["in", "out"] [("out", ⟨"EN10255_medium", none, some (1, 3)⟩),
    ("in", ⟨"EN10255_medium", some "DN25", none⟩)] = none :=
  C122_fails_table demo _ _ (by simp) (by simp) (by decide) ("in", ⟨"EN10255_medium", some "DN25", none⟩) (by simp) "DN25"
    rfl

end Verif.Geometry
