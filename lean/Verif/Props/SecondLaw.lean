import Verif.Spec.SecondLaw
import Verif.Props.Arrival
import Verif.Lemmas.Jensen
import Mathlib.Analysis.Convex.Mul
import Mathlib.Analysis.Convex.SpecificFunctions.Basic
import Mathlib.Analysis.SpecialFunctions.Log.Basic

/-!
# C171: second law
-/

set_option linter.unusedSectionVars false

namespace Verif.SecondLaw

open Finset Verif.Cells Verif.Flows Verif.Attempt Verif.Jensen
open Verif.Idle (Temps Shut call_part)
open Verif.Arrival (Kept call_part_kept simulate_snoc line line_kept line_stable)

variable {mat : Mat ℝ} {g : Geo ℝ} {s : Inp ℝ} {φ : ℝ → ℝ} {a b c M h : ℝ}

/-- A part with the same conductances and flows, whose temperatures are `φ` of those of the original. -/
noncomputable def image (φ : ℝ → ℝ) (mat : Mat ℝ) (s : Inp ℝ) : Inp ℝ :=
  { T := fun k => φ (s.T k)
    edgeTop := φ s.edgeTop
    edgeBot := φ s.edgeBot
    Tamb := φ s.Tamb
    uaAmb := s.uaAmb
    lidTop := s.lidTop
    lidBot := s.lidBot
    buoy := fun k => s.buoy k * lamMean (mat.lam (s.T k)) (mat.lam (s.T (k + 1))) }

/-- The ports of the image. -/
noncomputable def imagePort (φ : ℝ → ℝ) (mat : Mat ℝ) (g : Geo ℝ) (s : Inp ℝ) (p : Port ℝ) : Port ℝ :=
  ⟨p.idx, φ p.T, 0, p.gsp, uaPort mat g s p, p.io⟩

/-- A material with conductivity 1 at all temperatures. -/
noncomputable def imageMat (c : ℝ) : Mat ℝ := ⟨fun _ => c, fun _ => 0, fun _ => 1⟩

/-- Cells with heat capacity 1. -/
noncomputable def imageGeo (g : Geo ℝ) : Geo ℝ := { g with vCell := 0, mcpWll := 1 }

theorem image_tb (j : ℕ) : uaTb (imageMat c) (imageGeo g) (image φ mat s) j = uaTb mat g s j := by
  unfold uaTb
  split_ifs with h1 h2 h2
  · rfl
  · exact absurd h1 h2
  · exact absurd h2 h1
  · push Not at h2
    have : j - 1 + 1 = j := by omega
    simp only [image, imageMat, imageGeo, lamMean, this]
    norm_num

/-- The heat flow into a cell divided into what it consists of, for any function of the temperatures. -/
noncomputable def pull (φ : ℝ → ℝ) (c : ℝ) (mat : Mat ℝ) (g : Geo ℝ) (s : Inp ℝ) (top bot : ℕ → ℝ) (ports : List (Port ℝ))
    (k : ℕ) : ℝ :=
  (if 0 < k then uaTb mat g s k * (φ (s.T (k - 1)) - φ (s.T k)) else 0) +
    (if k + 1 < g.n then uaTb mat g s (k + 1) * (φ (s.T (k + 1)) - φ (s.T k)) else 0) +
    s.uaAmb k * (φ s.Tamb - φ (s.T k)) + (if k = 0 then s.lidTop * (φ s.Tamb - φ (s.T k)) else 0) +
    (if k + 1 = g.n then s.lidBot * (φ s.Tamb - φ (s.T k)) else 0) +
    ((ports.filter (·.idx = k)).map fun p => uaPort mat g s p * (φ p.T - φ (s.T k))).sum +
    ((if 0 < k then c * top k * (φ (s.T (k - 1)) - φ (s.T k)) else 0) +
      (if k + 1 < g.n then c * bot k * (φ (s.T (k + 1)) - φ (s.T k)) else 0) +
      ((ports.filter (·.idx = k)).map fun p => c * max p.io 0 * (φ p.T - φ (s.T k))).sum)

/-- The differential is the heat flow divided by the heat capacity. -/
theorem rate_eq {top bot : ℕ → ℝ} {ports : List (Port ℝ)} (hc : ∀ T, mat.cp T = c) {k : ℕ} (hk : k < g.n)
    (h0 : top 0 = 0) (hn : ∀ k, k + 1 = g.n → bot k = 0) :
    dTcond mat g s ports k + dTadv mat g s top bot ports (ports.map fun p => max p.io 0) k =
      pull id c mat g s top bot ports k / mcp mat g s k := by
  have hT : tExt g s (k + 1) = s.T k := tExt_cell g s hk
  have hcond : dTcond mat g s ports k = ((if 0 < k then uaTb mat g s k * (s.T (k - 1) - s.T k) else 0) +
    (if k + 1 < g.n then uaTb mat g s (k + 1) * (s.T (k + 1) - s.T k) else 0) +
    s.uaAmb k * (s.Tamb - s.T k) + (if k = 0 then s.lidTop * (s.Tamb - s.T k) else 0) +
    (if k + 1 = g.n then s.lidBot * (s.Tamb - s.T k) else 0) +
    ((ports.filter (·.idx = k)).map fun p => uaPort mat g s p * (p.T - s.T k)).sum) / mcp mat g s k := by
    unfold dTcond
    rw [addAt_eq]
    have e1 : uaTb mat g s k * (tExt g s k - tExt g s (k + 1)) =
        if 0 < k then uaTb mat g s k * (s.T (k - 1) - s.T k) else 0 := by
      split_ifs with h
      · rw [hT]
        have := tExt_cell g s (show k - 1 < g.n by omega)
        rw [show k - 1 + 1 = k by omega] at this
        rw [this]
      · have : k = 0 := by omega
        subst this
        simp [uaTb]
    have e2 : uaTb mat g s (k + 1) * (tExt g s (k + 2) - tExt g s (k + 1)) =
        if k + 1 < g.n then uaTb mat g s (k + 1) * (s.T (k + 1) - s.T k) else 0 := by
      split_ifs with h
      · rw [hT, tExt_cell g s h]
      · have : k + 1 = g.n := by omega
        simp [uaTb, this]
    have e3 : (if k = 0 then s.lidTop * (s.Tamb - tExt g s 1) / mcp mat g s 0 else 0) =
        (if k = 0 then s.lidTop * (s.Tamb - s.T k) else 0) / mcp mat g s k := by
      split_ifs with h
      · subst h; rw [hT]
      · simp
    have e4 : (if k + 1 = g.n then s.lidBot * (s.Tamb - tExt g s g.n) / mcp mat g s (g.n - 1) else 0) =
        (if k + 1 = g.n then s.lidBot * (s.Tamb - s.T k) else 0) / mcp mat g s k := by
      split_ifs with h
      · rw [← h, hT, Nat.add_sub_cancel]
      · simp
    have e5 : (((ports.map fun p => (p.idx, uaPort mat g s p * (p.T - s.T p.idx) / mcp mat g s p.idx)).filter
          (·.1 = k)).map Prod.snd).sum =
        ((ports.filter (·.idx = k)).map fun p => uaPort mat g s p * (p.T - s.T k)).sum / mcp mat g s k := by
      refine sum_at ports _ _ _ _ k fun p _ h => ?_
      subst h
      rfl
    rw [e1, e2, e3, e4, e5, hT]
    simp only [add_div]
  have hadv : dTadv mat g s top bot ports (ports.map fun p => max p.io 0) k =
      ((if 0 < k then c * top k * (s.T (k - 1) - s.T k) else 0) +
      (if k + 1 < g.n then c * bot k * (s.T (k + 1) - s.T k) else 0) +
      ((ports.filter (·.idx = k)).map fun p => c * max p.io 0 * (p.T - s.T k)).sum) / mcp mat g s k := by
    have hz : ports.zip (ports.map fun p => max p.io 0) = ports.map fun p => (p, max p.io 0) := by
      clear hcond
      induction ports with
      | nil => rfl
      | cons p l ih => simp [ih]
    unfold dTadv
    rw [addAt_eq, hz, List.map_map]
    have e5 := sum_at ports (·.idx) (fun p => max p.io 0 * (mat.cp p.T * p.T - enth mat g s (p.idx + 1)) /
      mcp mat g s p.idx) (fun p => c * max p.io 0 * (p.T - s.T k)) (mcp mat g s k) k
      (fun p _ h => by subst h; rw [enth, tExt_cell g s hk, hc, hc]; ring)
    have e1 : top k * (enth mat g s k - enth mat g s (k + 1)) =
        if 0 < k then c * top k * (s.T (k - 1) - s.T k) else 0 := by
      split_ifs with h
      · have := tExt_cell g s (show k - 1 < g.n by omega)
        rw [show k - 1 + 1 = k by omega] at this
        rw [enth, enth, hT, this, hc, hc]
        ring
      · have : k = 0 := by omega
        subst this
        rw [h0, zero_mul]
    have e2 : bot k * (enth mat g s (k + 2) - enth mat g s (k + 1)) =
        if k + 1 < g.n then c * bot k * (s.T (k + 1) - s.T k) else 0 := by
      split_ifs with h
      · rw [enth, enth, hT, tExt_cell g s h, hc, hc]
        ring
      · rw [hn k (by omega), zero_mul]
    rw [e1, e2, add_div, add_div, add_div, ← e5]
    rfl
  rw [hcond, hadv, ← add_div]
  simp only [pull, id]

theorem pull_image {top bot : ℕ → ℝ} {ports : List (Port ℝ)} (k : ℕ) :
    pull id c (imageMat c) (imageGeo g) (image φ mat s) top bot (ports.map (imagePort φ mat g s)) k =
      pull φ c mat g s top bot ports k := by
  have hf : (ports.map (imagePort φ mat g s)).filter (·.idx = k) =
      (ports.filter (·.idx = k)).map (imagePort φ mat g s) := by
    rw [List.filter_map]
    rfl
  have hu : ∀ p, uaPort (imageMat c) (imageGeo g) (image φ mat s) (imagePort φ mat g s p) = uaPort mat g s p := by
    intro p
    simp [uaPort, imagePort]
  simp only [pull, image_tb, hf, List.map_map, Function.comp_def, hu]
  rfl

/-- A cell is pulled towards everything it is connected to. -/
theorem mix_cell {top bot : ℕ → ℝ} {ports : List (Port ℝ)} (hph : Physical mat g s ports) (hw : Within g s ports a b)
    (hc0 : 0 ≤ c) {k : ℕ} (hk : k < g.n) (hpos : ∀ k, 0 ≤ top k ∧ 0 ≤ bot k) (h0 : top 0 = 0)
    (hn : ∀ k, k + 1 = g.n → bot k = 0) :
    Mix φ a b (s.T k) (totalConductance mat g s ports k + c * (top k + bot k + inflowThroughPorts ports k))
      (pull id c mat g s top bot ports k) (pull φ c mat g s top bot ports k) := by
  have hw := hw.at hk
  have hz := Mix.zero φ a b (s.T k)
  unfold totalConductance pull
  simp only [id]
  refine Mix.add (((((Mix.add ?_ ?_).add ?_).add ?_).add ?_).add ?_) ?_
  · split_ifs with h
    · rw [← uaTb_eq hph h hk]
      exact Mix.one (by rw [uaTb_eq hph h hk]; exact faceConductance_nonneg hph (by omega)) (hw.above h)
    · exact hz
  · split_ifs with h
    · have e := uaTb_eq hph (j := k + 1) (by omega) h
      rw [Nat.add_sub_cancel] at e
      rw [e]
      exact Mix.one (faceConductance_nonneg hph h) (hw.below h)
    · exact hz
  · exact Mix.one (hph.uaAmb k) hw.ambient
  · split_ifs with h
    · exact Mix.one hph.lidTop hw.ambient
    · exact hz
  · split_ifs with h
    · exact Mix.one hph.lidBot hw.ambient
    · exact hz
  · refine Mix.sum _ _ _ _ fun p hp => ?_
    have hp' := List.mem_of_mem_filter hp
    have hi : p.idx = k := by simpa using List.of_mem_filter hp
    rw [uaPort_eq]
    exact Mix.one (portConductance_nonneg hph hp' (by omega)) (hw.ports p hp' hi)
  · rw [mul_add, mul_add]
    refine (Mix.add ?_ ?_).add ?_
    · split_ifs with h
      · exact Mix.one (mul_nonneg hc0 (hpos k).1) (hw.above h)
      · have : k = 0 := by omega
        subst this
        rw [h0, mul_zero]
        exact hz
    · split_ifs with h
      · exact Mix.one (mul_nonneg hc0 (hpos k).2) (hw.below h)
      · rw [hn k (by omega), mul_zero]
        exact hz
    · have e : c * inflowThroughPorts ports k = ((ports.filter (·.idx = k)).map fun p => c * max p.io 0).sum := by
        unfold inflowThroughPorts
        rw [List.sum_map_mul_left]
      rw [e]
      refine Mix.sum _ _ _ _ fun p hp => ?_
      exact Mix.one (mul_nonneg hc0 (le_max_right _ _)) (hw.ports p (List.mem_of_mem_filter hp)
        (by simpa using List.of_mem_filter hp))

/-- What enters with respect to `φ` is the sum over the cells. -/
theorem sum_pull {top bot : ℕ → ℝ} {ports : List (Port ℝ)} (hn : 0 < g.n) (hp : ∀ p ∈ ports, p.idx < g.n)
    (h0 : top 0 = 0) (hb : ∀ k, k + 1 = g.n → bot k = 0)
    (hbal : ∀ k < g.n, CellBalance g.n top bot (ports.map fun p => (p.idx, p.io)) k) :
    ∑ k ∈ range g.n, pull φ c mat g s top bot ports k = suppliedOf φ c mat g s ports := by
  have hm : ∀ k, mcp (imageMat c) (imageGeo g) (image φ mat s) k = 1 := by
    intro k
    simp [mcp, imageGeo]
  have hcap : ∀ k, heatCapacity (imageMat c) (imageGeo g) (image φ mat s) k = 1 := by
    intro k
    rw [← mcp_eq, hm]
  have hne : ∀ k < (imageGeo g).n, heatCapacity (imageMat c) (imageGeo g) (image φ mat s) k ≠ 0 := by
    intro k _
    rw [hcap]
    exact one_ne_zero
  have hp' : ∀ p ∈ ports.map (imagePort φ mat g s), p.idx < (imageGeo g).n := by
    intro p hp1
    obtain ⟨q, hq, rfl⟩ := List.mem_map.1 hp1
    exact hp q hq
  have hio : (ports.map (imagePort φ mat g s)).map (fun p => (p.idx, p.io)) = ports.map fun p => (p.idx, p.io) := by
    rw [List.map_map]
    rfl
  have k1 := C22_conduction_conserves (imageMat c) (imageGeo g) (image φ mat s) hn hne _ hp'
  have k2 := advection_balance (imageMat c) (imageGeo g) (image φ mat s) top bot (ports.map (imagePort φ mat g s)) hne hp' h0 hb
    (by rw [hio]; exact hbal)
  have e : ∀ k ∈ range g.n, pull φ c mat g s top bot ports k =
      heatCapacity (imageMat c) (imageGeo g) (image φ mat s) k *
        dTcond (imageMat c) (imageGeo g) (image φ mat s) (ports.map (imagePort φ mat g s)) k +
      heatCapacity (imageMat c) (imageGeo g) (image φ mat s) k *
        dTadv (imageMat c) (imageGeo g) (image φ mat s) top bot (ports.map (imagePort φ mat g s))
          ((ports.map (imagePort φ mat g s)).map fun p => max p.io 0) k := by
    intro k hk
    rw [← mul_add, rate_eq (mat := imageMat c) (g := imageGeo g) (c := c) (fun _ => rfl) (mem_range.1 hk) h0 hb, pull_image, hcap, hm]
    ring
  rw [sum_congr rfl e, sum_add_distrib]
  unfold heatRate at k1 k2
  change ∑ k ∈ range g.n, _ = _ at k1
  change ∑ k ∈ range g.n, _ = _ at k2
  rw [k1, k2]
  unfold suppliedOf
  congr 1
  · congr 1
    unfold throughPorts conductedOf
    rw [List.map_map]
    congr 1
    refine List.map_congr_left fun p _ => ?_
    rw [← uaPort_eq]
    simp [portConductance, imagePort, image]
  · unfold enthalpyThroughPorts carriedOf
    rw [List.map_map]
    rfl

/-- One explicit step: what the cells have of a convex `φ` is at most what they had and what entered. -/
theorem euler_law {top bot : ℕ → ℝ} {ports : List (Port ℝ)} (hφ : ConvexOn ℝ (Set.Icc a b) φ)
    (hph : Physical mat g s ports) (hw : Within g s ports a b) (hc : ∀ T, mat.cp T = c) (hc0 : 0 ≤ c) (hM : 0 < M)
    (hcap : ∀ k < g.n, heatCapacity mat g s k = M) (hn : 0 < g.n) (hp : ∀ p ∈ ports, p.idx < g.n)
    (hpos : ∀ k, 0 ≤ top k ∧ 0 ≤ bot k) (h0 : top 0 = 0) (hb : ∀ k, k + 1 = g.n → bot k = 0)
    (hbal : ∀ k < g.n, CellBalance g.n top bot (ports.map fun p => (p.idx, p.io)) k) (hh : 0 ≤ h)
    (hs : ∀ k < g.n, h * (totalConductance mat g s ports k + c * (top k + bot k + inflowThroughPorts ports k)) ≤ M) :
    ∑ k ∈ range g.n, M * φ (s.T k + h * (dTcond mat g s ports k +
        dTadv mat g s top bot ports (ports.map fun p => max p.io 0) k)) ≤
      ∑ k ∈ range g.n, M * φ (s.T k) + h * suppliedOf φ c mat g s ports := by
  rw [← sum_pull hn hp h0 hb hbal, mul_sum, ← sum_add_distrib]
  refine sum_le_sum fun k hk => ?_
  have hk := mem_range.1 hk
  rw [rate_eq hc hk h0 hb, mcp_eq, hcap k hk]
  have := (mix_cell (φ := φ) hph hw hc0 hk hpos h0 hb).step hφ (hw.cells k hk) hh hM (hs k hk)
  calc _ ≤ M * (φ (s.T k) + h * (pull φ c mat g s top bot ports k / M)) := mul_le_mul_of_nonneg_left this hM.le
    _ = _ := by field_simp

/-! ## Parts of a plant -/

section Part

variable {H N P : Type*}

/-- Specification: what `n` cells of heat capacity `M` have of `φ` of their temperatures. -/
noncomputable def content (φ : ℝ → ℝ) (M : ℝ) (n : ℕ) (x : ℕ → ℝ) : ℝ := ∑ k ∈ range n, M * φ (x k)

/-- Specification: the part `v` with the ports `ports`, the water through its cells `top`, `bot` and a step of length `h`, as
long as its ports have the property `Bp` and its temperatures are between `a` and `b`: water and cells have the same heat
capacity at all temperatures, what flows in flows out, and the step is at most the heat capacity of a cell divided by
everything connected to the cell. -/
structure Orderly (v : Vessel ℝ H P) (ports : P → List (Port ℝ)) (top bot : P → ℕ → ℝ) (Bp : P → Prop) (c M a b h : ℝ) :
    Prop where
  cells : 2 ≤ v.g.n
  cap : 0 < M ∧ ∀ T, v.mat.cp T * v.mat.rho T * v.g.vCell + v.g.mcpWll = M
  water : 0 ≤ c ∧ ∀ T, v.mat.cp T = c
  own : ∀ m p x, (v.inp m p x).T = x
  physical : ∀ m p x, Bp p → Between a b x → Physical v.mat v.g (v.inp m p x) (ports p)
  within : ∀ m p x, Bp p → Between a b x → Within v.g (v.inp m p x) (ports p) a b
  short : 0 ≤ h ∧ ∀ m p x, Bp p → Between a b x → ∀ k < v.g.n,
    h * (totalConductance v.mat v.g (v.inp m p x) (ports p) k +
      c * (top p k + bot p k + inflowThroughPorts (ports p) k)) ≤ M

/-- Specification: the ports of a storage are in the order of their cells, and what flows in flows out. -/
structure Balanced (g : Geo ℝ) (ports : List (Port ℝ)) : Prop where
  sorted : (ports.map (·.idx)).Pairwise (· ≤ ·)
  idx : ∀ p ∈ ports, p.idx < g.n
  sum : (ports.map (·.io)).sum = 0

/-- A single explicit step of a part keeps its range and obeys the law. -/
def Law (d : Diff ℝ (ℕ → ℝ) H P) (S : H → P → (ℕ → ℝ) → ℝ) (φ : ℝ → ℝ) (Bp : P → Prop) (n : ℕ) (M a b h : ℝ) : Prop :=
  ∀ m p x, Bp p → Between a b x → Between a b (x + h • (d m p x h).dT) ∧
    content φ M n (x + h • (d m p x h).dT) ≤ content φ M n x + h * S m p x

variable {v : Vessel ℝ H P} {Bp : P → Prop}

theorem slope (hc : 0 ≤ c ∧ ∀ T, mat.cp T = c) : EnthalpySlope mat a b c := by
  intro u w _ huw _
  unfold enthalpy
  rw [hc.2, hc.2]
  refine ⟨?_, le_of_eq (by ring)⟩
  have := mul_le_mul_of_nonneg_left huw hc.1
  linarith

theorem storage_law (hφ : ConvexOn ℝ (Set.Icc a b) φ)
    (hv : Orderly v v.ports (fun p => (processVar v.g.n ((v.ports p).map (·.idx)) ((v.ports p).map (·.io))).top)
      (fun p => (processVar v.g.n ((v.ports p).map (·.idx)) ((v.ports p).map (·.io))).bot) Bp c M a b h)
    (hb : ∀ p, Bp p → Balanced v.g (v.ports p)) :
    Law v.storage (fun m p x => suppliedOf φ c v.mat v.g (v.inp m p x) (v.ports p)) φ Bp v.g.n M a b h := by
  have hcap : ∀ m p x k, heatCapacity v.mat v.g (v.inp m p x) k = M := fun m p x k => hv.cap.2 _
  intro m p x hp hx
  refine ⟨C108_storage_partial v hv.cells hv.short.1 (slope hv.water) hv.water.1 hv.own hv.physical hv.within
    (fun p hp => (hb p hp).sorted) (fun p hp => (hb p hp).idx) (fun p hp => (hb p hp).sum)
    (fun m p x hp hx k hk => by rw [hcap]; exact hv.short.2 m p x hp hx k hk) m p x hp hx, ?_⟩
  obtain ⟨f1, f2, f3, f4, f5⟩ := storage_flow v.g hv.cells (v.ports p) (hb p hp).sorted (hb p hp).idx (hb p hp).sum
  have := euler_law hφ (hv.physical m p x hp hx) (hv.within m p x hp hx) hv.water.2 hv.water.1 hv.cap.1
    (fun k _ => hcap m p x k) (by have := hv.cells; omega) (hb p hp).idx f3 f1 f2 f4 hv.short.1 (hv.short.2 m p x hp hx)
  unfold content
  rw [hv.own] at this
  refine le_trans (le_of_eq (sum_congr rfl fun k hk => ?_)) this
  simp only [Vessel.storage, Pi.add_apply, Pi.smul_apply, smul_eq_mul, if_pos (mem_range.1 hk)]
  rw [← f5]
  rfl

theorem pipe_law {io : P → ℝ} {pin pout : P → Port ℝ} (hφ : ConvexOn ℝ (Set.Icc a b) φ)
    (hv : Orderly v (fun p => [pin p, pout p]) (fun p => (processInvar v.g.n (io p)).top)
      (fun p => (processInvar v.g.n (io p)).bot) Bp c M a b h)
    (hb : ∀ p, (pin p).idx = 0 ∧ (pout p).idx = v.g.n - 1 ∧ (pin p).io = io p ∧ (pout p).io = -io p) :
    Law (v.pipe io pin pout) (fun m p x => suppliedOf φ c v.mat v.g (v.inp m p x) [pin p, pout p]) φ Bp v.g.n M a b h := by
  have hcap : ∀ m p x k, heatCapacity v.mat v.g (v.inp m p x) k = M := fun m p x k => hv.cap.2 _
  have hn := hv.cells
  intro m p x hp hx
  obtain ⟨i1, i2, i3, i4⟩ := hb p
  obtain ⟨f1, f2, f3, f4, f5⟩ := pipe_flow v.g hv.cells (io p) (pin p) (pout p) i1 i2 i3 i4
  have hi : ∀ q ∈ [pin p, pout p], q.idx < v.g.n := by
    intro q hq
    simp only [List.mem_cons, List.not_mem_nil, or_false] at hq
    rcases hq with rfl | rfl <;> omega
  have key : ∀ k < v.g.n, (x + h • (v.pipe io pin pout m p x h).dT) k = x k + h * (dTcond v.mat v.g (v.inp m p x) [pin p, pout p] k +
      dTadv v.mat v.g (v.inp m p x) (processInvar v.g.n (io p)).top (processInvar v.g.n (io p)).bot [pin p, pout p]
        ([pin p, pout p].map fun q => max q.io 0) k) := by
    intro k hk
    simp only [Vessel.pipe, Pi.add_apply, Pi.smul_apply, smul_eq_mul, if_pos hk]
    rw [← f5]
    rfl
  constructor
  · intro k
    by_cases hk : k < v.g.n
    · have := max_principle (hv.physical m p x hp hx) (hv.within m p x hp hx) (slope hv.water) hv.water.1 hk f1 f2 f3
        hv.short.1 (by rw [hcap]; exact hv.short.2 m p x hp hx k hk)
      rw [hv.own] at this
      rw [key k hk]
      exact this
    · have : (x + h • (v.pipe io pin pout m p x h).dT) k = x k := by
        simp [Vessel.pipe, hk]
      rw [this]
      exact hx k
  · have := euler_law hφ (hv.physical m p x hp hx) (hv.within m p x hp hx) hv.water.2 hv.water.1 hv.cap.1
      (fun k _ => hcap m p x k) (by omega) hi f3 f1 f2 f4 hv.short.1 (hv.short.2 m p x hp hx)
    unfold content
    rw [hv.own] at this
    exact le_trans (le_of_eq (sum_congr rfl fun k hk => by rw [key k (mem_range.1 hk)])) this

theorem heun_law {d : Diff ℝ (ℕ → ℝ) H P} {S : H → P → (ℕ → ℝ) → ℝ} {n : ℕ} (hM : 0 ≤ M)
    (hφ : ConvexOn ℝ (Set.Icc a b) φ) (hl : Law d S φ Bp n M a b h) {p p' : P} (hp : Bp p) (hp' : Bp p') (m m' : H)
    {x : ℕ → ℝ} (hx : Between a b x) :
    let y := x + h • (d m p x h).dT
    let z := x + (h / 2) • ((d m p x h).dT + (d m' p' y h).dT)
    Between a b z ∧ content φ M n z ≤ content φ M n x + h / 2 * (S m p x + S m' p' y) := by
  intro y z
  obtain ⟨h1, h2⟩ := hl m p x hp hx
  obtain ⟨h3, h4⟩ := hl m' p' y hp' h1
  set w := y + h • (d m' p' y h).dT with hw
  have hz : z = (1 / 2 : ℝ) • (x + w) := by
    funext k
    simp only [z, hw, y, Pi.add_apply, Pi.smul_apply, smul_eq_mul]
    ring
  have hc : content φ M n z ≤ 1 / 2 * content φ M n x + 1 / 2 * content φ M n w := by
    unfold content
    rw [mul_sum, mul_sum, ← sum_add_distrib]
    refine sum_le_sum fun k _ => ?_
    have := hφ.2 (hx k) (h3 k) (show (0 : ℝ) ≤ 1 / 2 by norm_num) (show (0 : ℝ) ≤ 1 / 2 by norm_num) (by norm_num)
    simp only [smul_eq_mul] at this
    have e : z k = 1 / 2 * x k + 1 / 2 * w k := by
      rw [hz]
      simp only [Pi.smul_apply, Pi.add_apply, smul_eq_mul]
      ring
    rw [e]
    calc _ ≤ M * (1 / 2 * φ (x k) + 1 / 2 * φ (w k)) := mul_le_mul_of_nonneg_left this hM
      _ = _ := by ring
  refine ⟨hz ▸ between_mid x w hx h3, ?_⟩
  linarith

/-- **C171**, partial (storages and branched pipes): in a step of the solver what the cells have of any convex function of
their temperatures grows at most by what enters from the ambient, through the ports and with the water, at the rates at the
beginning of the step and after its predictor.  With `φ T = -ln T` this is the second law: the entropy of the part grows at
least by the entropy that enters.  Missing: a heat capacity that depends on the temperature, and steps for which the code's
stability check suffices (`C171_fails_long_step`). -/
theorem C171_storage_partial (hφ : ConvexOn ℝ (Set.Icc a b) φ)
    (hv : Orderly v v.ports (fun p => (processVar v.g.n ((v.ports p).map (·.idx)) ((v.ports p).map (·.io))).top)
      (fun p => (processVar v.g.n ((v.ports p).map (·.idx)) ((v.ports p).map (·.io))).bot) Bp c M a b h)
    (hb : ∀ p, Bp p → Balanced v.g (v.ports p)) {p p' : P} (hp : Bp p) (hp' : Bp p') (m m' : H)
    {x : ℕ → ℝ} (hx : Between a b x) :
    let y := x + h • (v.storage m p x h).dT
    let z := x + (h / 2) • ((v.storage m p x h).dT + (v.storage m' p' y h).dT)
    content φ M v.g.n z ≤ content φ M v.g.n x + h / 2 *
      (suppliedOf φ c v.mat v.g (v.inp m p x) (v.ports p) + suppliedOf φ c v.mat v.g (v.inp m' p' y) (v.ports p')) :=
  (heun_law hv.cap.1.le hφ (storage_law hφ hv hb) hp hp' m m' hx).2

/-- **C171**, partial (pipes): the same for pipes. -/
theorem C171_pipe_partial {io : P → ℝ} {pin pout : P → Port ℝ} (hφ : ConvexOn ℝ (Set.Icc a b) φ)
    (hv : Orderly v (fun p => [pin p, pout p]) (fun p => (processInvar v.g.n (io p)).top)
      (fun p => (processInvar v.g.n (io p)).bot) Bp c M a b h)
    (hb : ∀ p, (pin p).idx = 0 ∧ (pout p).idx = v.g.n - 1 ∧ (pin p).io = io p ∧ (pout p).io = -io p) {p p' : P} (hp : Bp p)
    (hp' : Bp p') (m m' : H) {x : ℕ → ℝ} (hx : Between a b x) :
    let y := x + h • (v.pipe io pin pout m p x h).dT
    let z := x + (h / 2) • ((v.pipe io pin pout m p x h).dT + (v.pipe io pin pout m' p' y h).dT)
    content φ M v.g.n z ≤ content φ M v.g.n x + h / 2 *
      (suppliedOf φ c v.mat v.g (v.inp m p x) [pin p, pout p] +
        suppliedOf φ c v.mat v.g (v.inp m' p' y) [pin p', pout p']) :=
  (heun_law hv.cap.1.le hφ (pipe_law hφ hv hb) hp hp' m m' hx).2

/-! ## Simulations -/

/-- If what enters is at most `R` per time, the whole simulation adds at most `R` times its duration. -/
theorem simulation_law {sys : System ℝ (ℕ → ℝ) H N P} {i : ℕ} {d : Diff ℝ (ℕ → ℝ) H P} {S : H → P → (ℕ → ℝ) → ℝ} {n : ℕ}
    {R : ℝ} (hd : sys.diffs[i]? = some d) (hB : Kept sys Bp) (hM : 0 ≤ M) (hφ : ConvexOn ℝ (Set.Icc a b) φ)
    (hS : ∀ m p x, Bp p → Between a b x → S m p x ≤ R) (l : List (List ℝ × ℝ)) :
    ∀ {s : State (ℕ → ℝ) H N P}, (∀ c ∈ l, 0 ≤ c.2 ∧ Law d S φ Bp n M a b c.2) →
      (∀ (l₁ : List (List ℝ × ℝ)) c l₂, l = l₁ ++ c :: l₂ → (call sys (simulate sys s l₁) c.1 c.2).stable = true) →
      Bp s.ports → ∀ {x : ℕ → ℝ}, Temps s i x → Between a b x →
      ∃ y, Temps (simulate sys s l) i y ∧ Between a b y ∧
        content φ M n y ≤ content φ M n x + R * (l.map Prod.snd).sum := by
  induction l with
  | nil => intro s _ _ _ x hx hb; exact ⟨x, hx, hb, by simp⟩
  | cons c l ih =>
    intro s hl hst hp x hx hb
    obtain ⟨h0, hlaw⟩ := hl c List.mem_cons_self
    obtain ⟨b1, m, p, m', p', q1, q2, h1⟩ := call_part_kept hB hp hd hx (hst [] c l rfl)
    obtain ⟨h2, h3⟩ := heun_law hM hφ hlaw q1 q2 m m' hb
    obtain ⟨y, h5, h6, h7⟩ := ih (fun c' hc' => hl c' (List.mem_cons_of_mem _ hc'))
      (fun l₁ c' l₂ e => hst (c :: l₁) c' l₂ (by rw [e]; rfl)) b1 h1 h2
    refine ⟨y, h5, h6, ?_⟩
    have s1 := hS m p x q1 hb
    have s2 := hS m' p' _ q2 (hlaw m p x q1 hb).1
    have s3 : c.2 / 2 * (S m p x + S m' p' (x + c.2 • (d m p x c.2).dT)) ≤ c.2 / 2 * (R + R) :=
      mul_le_mul_of_nonneg_left (add_le_add s1 s2) (by linarith)
    rw [List.map_cons, List.sum_cons]
    linarith

/-- **C171**, partial (simulations): if at most `R` of `φ` enters a storage per time, its cells have at most `R` times the
duration more of `φ` after any number of accepted steps, also with rejected attempts and with parts of the plant that
interact with it in any way. -/
theorem C171_simulation_partial {sys : System ℝ (ℕ → ℝ) H N P} {i : ℕ} {R : ℝ} (hd : sys.diffs[i]? = some v.storage)
    (hB : Kept sys Bp) (hM : 0 ≤ M) (hφ : ConvexOn ℝ (Set.Icc a b) φ)
    (hb : ∀ p, Bp p → Balanced v.g (v.ports p))
    (hS : ∀ m p x, Bp p → Between a b x → suppliedOf φ c v.mat v.g (v.inp m p x) (v.ports p) ≤ R)
    (l : List (List ℝ × ℝ)) {s : State (ℕ → ℝ) H N P} (hs : Bp s.ports)
    (hv : ∀ e ∈ l, Orderly v v.ports
      (fun p => (processVar v.g.n ((v.ports p).map (·.idx)) ((v.ports p).map (·.io))).top)
      (fun p => (processVar v.g.n ((v.ports p).map (·.idx)) ((v.ports p).map (·.io))).bot) Bp c M a b e.2)
    (hst : ∀ (l₁ : List (List ℝ × ℝ)) e l₂, l = l₁ ++ e :: l₂ → (call sys (simulate sys s l₁) e.1 e.2).stable = true)
    {x : ℕ → ℝ} (hx : Temps s i x) (hab : Between a b x) :
    ∃ y, Temps (simulate sys s l) i y ∧ Between a b y ∧
      content φ M v.g.n y ≤ content φ M v.g.n x + R * (l.map Prod.snd).sum :=
  simulation_law hd hB hM hφ hS l (fun e he => ⟨(hv e he).short.1, storage_law hφ (hv e he) hb⟩) hst hs hx hab

/-! ## Entropy -/

/-- Specification: entropy of `n` cells of heat capacity `M`, temperatures in degree Celsius. -/
noncomputable def entropy (M : ℝ) (n : ℕ) (x : ℕ → ℝ) : ℝ := ∑ k ∈ range n, M * Real.log (x k + 273.15)

/-- Specification: heat in `n` cells of heat capacity `M`. -/
noncomputable def heat (M : ℝ) (n : ℕ) (x : ℕ → ℝ) : ℝ := ∑ k ∈ range n, M * x k

/-- What the loss of heat to surroundings of the temperature `t` costs: minimal at `t`. -/
noncomputable def exergy (t T : ℝ) : ℝ := (T + 273.15) / (t + 273.15) - Real.log (T + 273.15)

theorem exergy_convex (t : ℝ) (ha : -273.15 < a) : ConvexOn ℝ (Set.Icc a b) (exergy t) := by
  have h1 : ConvexOn ℝ (Set.Icc a b) fun T : ℝ => -Real.log (T + 273.15) := by
    have h0 : ConcaveOn ℝ (Set.Ioi (0 : ℝ)) Real.log := strictConcaveOn_log_Ioi.concaveOn
    have h := (h0.translate_left (273.15 : ℝ)).neg
    have h' : ConvexOn ℝ ((fun z : ℝ => (273.15 : ℝ) + z) ⁻¹' Set.Ioi 0) fun T : ℝ => -Real.log (T + 273.15) := h
    refine h'.subset (fun T hT => ?_) (convex_Icc a b)
    have := hT.1
    simp only [Set.mem_preimage, Set.mem_Ioi]
    linarith
  have h2 : ConvexOn ℝ (Set.Icc a b) fun T : ℝ => (T + 273.15) / (t + 273.15) := by
    refine ⟨convex_Icc a b, fun u _ w _ p q _ _ hpq => le_of_eq ?_⟩
    simp only [smul_eq_mul]
    have : q = 1 - p := by linarith
    subst this
    ring
  have := h2.add h1
  exact this.congr fun T _ => by simp [exergy, sub_eq_add_neg]

theorem exergy_min {t T : ℝ} (ht : -273.15 < t) (hT : -273.15 < T) : exergy t t ≤ exergy t T := by
  have h1 : 0 < t + 273.15 := by linarith
  have h2 : 0 < T + 273.15 := by linarith
  have h3 := Real.log_le_sub_one_of_pos (div_pos h2 h1)
  rw [Real.log_div h2.ne' h1.ne'] at h3
  unfold exergy
  rw [div_self h1.ne']
  linarith

theorem supplied_shut {t : ℝ} {s : Inp ℝ} {ports : List (Port ℝ)} (hp : ∀ q ∈ ports, Shut q)
    (hphys : Physical mat g s ports) (hw : Within g s ports a b) (ht : s.Tamb = t) (ha : -273.15 < a) (hn : 1 ≤ g.n) :
    suppliedOf (exergy t) c mat g s ports ≤ 0 := by
  have h1 : conductedOf (exergy t) mat g s ports = 0 := by
    unfold conductedOf
    refine List.sum_eq_zero fun y hy => ?_
    obtain ⟨q, hq, rfl⟩ := List.mem_map.1 hy
    simp [portConductance, (hp q hq).1, (hp q hq).2.1]
  have h2 : carriedOf (exergy t) c s ports = 0 := by
    unfold carriedOf
    refine List.sum_eq_zero fun y hy => ?_
    obtain ⟨q, hq, rfl⟩ := List.mem_map.1 hy
    simp [(hp q hq).2.2]
  have hm : ∀ k < g.n, exergy t s.Tamb - exergy t (s.T k) ≤ 0 := by
    intro k hk
    have := exergy_min (t := t) (T := s.T k) (by have := hw.ambient.1; rw [ht] at this; linarith)
      (by have := (hw.cells k hk).1; linarith)
    rw [ht]
    linarith
  have h3 : ambientOf (exergy t) g s ≤ 0 := by
    unfold ambientOf
    have e1 : ∑ k ∈ range g.n, s.uaAmb k * (exergy t s.Tamb - exergy t (s.T k)) ≤ 0 :=
      sum_nonpos fun k hk => mul_nonpos_of_nonneg_of_nonpos (hphys.uaAmb k) (hm k (mem_range.1 hk))
    have e2 := mul_nonpos_of_nonneg_of_nonpos hphys.lidTop (hm 0 (by omega))
    have e3 := mul_nonpos_of_nonneg_of_nonpos hphys.lidBot (hm (g.n - 1) (by omega))
    linarith
  unfold suppliedOf
  linarith

theorem content_exergy (t M : ℝ) (n : ℕ) (x : ℕ → ℝ) :
    content (exergy t) M n x = (heat M n x + n * M * 273.15) / (t + 273.15) - entropy M n x := by
  unfold content heat entropy exergy
  have : ∑ k ∈ range n, M * ((x k + 273.15) / (t + 273.15) - Real.log (x k + 273.15)) =
      ∑ k ∈ range n, (M * x k + M * 273.15) / (t + 273.15) - ∑ k ∈ range n, M * Real.log (x k + 273.15) := by
    rw [← sum_sub_distrib]
    exact sum_congr rfl fun k _ => by ring
  rw [this, ← sum_div, sum_add_distrib, sum_const, card_range, nsmul_eq_mul, mul_assoc]

/-- **C171**, partial (second law): a storage whose ports are all shut, in surroundings of the temperature `t`.  After any
number of accepted steps the entropy of the storage has not decreased by more than the heat it lost divided by the absolute
temperature of the surroundings gives to these.  Missing as in `C171_storage_partial`. -/
theorem C171_entropy_partial {sys : System ℝ (ℕ → ℝ) H N P} {i : ℕ} {t : ℝ} (hd : sys.diffs[i]? = some v.storage)
    (hB : Kept sys Bp) (hn : 2 ≤ v.g.n) (hM : 0 ≤ M) (hb : ∀ p, Bp p → Balanced v.g (v.ports p))
    (hshut : ∀ p, Bp p → ∀ q ∈ v.ports p, Shut q) (ht : ∀ m p x, (v.inp m p x).Tamb = t) (ha : -273.15 < a)
    (l : List (List ℝ × ℝ)) {s : State (ℕ → ℝ) H N P} (hs : Bp s.ports)
    (hv : ∀ e ∈ l, Orderly v v.ports
      (fun p => (processVar v.g.n ((v.ports p).map (·.idx)) ((v.ports p).map (·.io))).top)
      (fun p => (processVar v.g.n ((v.ports p).map (·.idx)) ((v.ports p).map (·.io))).bot) Bp c M a b e.2)
    (hst : ∀ (l₁ : List (List ℝ × ℝ)) e l₂, l = l₁ ++ e :: l₂ → (call sys (simulate sys s l₁) e.1 e.2).stable = true)
    {x : ℕ → ℝ} (hx : Temps s i x) (hab : Between a b x) :
    ∃ y, Temps (simulate sys s l) i y ∧
      0 ≤ (entropy M v.g.n y - entropy M v.g.n x) + (heat M v.g.n x - heat M v.g.n y) / (t + 273.15) := by
  cases l with
  | nil => exact ⟨x, hx, by simp⟩
  | cons e l =>
    have hv1 := hv e List.mem_cons_self
    obtain ⟨y, h1, h2, h3⟩ := C171_simulation_partial (c := c) (φ := exergy t) (R := 0) hd hB hM (exergy_convex t ha) hb
      (fun m p x hp hx => supplied_shut (hshut p hp) (hv1.physical m p x hp hx) (hv1.within m p x hp hx) (ht m p x) ha
        (by omega)) (e :: l) hs hv hst hx hab
    refine ⟨y, h1, ?_⟩
    rw [content_exergy, content_exergy, zero_mul, add_zero, add_div, add_div] at h3
    rw [sub_div]
    linarith

end Part

/-! ## A storage that cools -/

/-- Two cells, each with conductance 1 to surroundings of 20 degrees, one port that is shut. -/
noncomputable def lossy : Vessel ℝ Unit Unit where
  mat := ⟨fun _ => 1, fun _ => 1, fun _ => 1⟩
  g := ⟨2, 1, 1, 1, 0, 0⟩
  inp := fun _ _ x => ⟨x, 0, 0, 20, fun _ => 1, 0, 0, fun _ => 1⟩
  ports := fun _ => [⟨0, 20, 0, 1, 0, 0⟩]
  upd := fun _ _ _ => ()
  check := fun _ _ _ _ => true

/-- The upper cell has 80, the lower 40 degrees. -/
noncomputable def warm : State (ℕ → ℝ) Unit Unit Unit :=
  ⟨[⟨fun k => if k = 0 then 80 else 40, 0, 0, 0, 0, ()⟩], [], (), true⟩

theorem lossy_orderly {h : ℝ} (h0 : 0 ≤ h) (h1 : h ≤ 1 / 2) : Orderly lossy lossy.ports
    (fun p => (processVar lossy.g.n ((lossy.ports p).map (·.idx)) ((lossy.ports p).map (·.io))).top)
    (fun p => (processVar lossy.g.n ((lossy.ports p).map (·.idx)) ((lossy.ports p).map (·.io))).bot) (fun _ => True)
    1 1 20 80 h where
  cells := le_rfl
  cap := ⟨one_pos, fun _ => by simp [lossy]⟩
  water := ⟨zero_le_one, fun _ => rfl⟩
  own := fun _ _ _ => rfl
  physical := fun _ _ x _ _ => by
    refine ⟨fun _ _ => one_pos, one_pos, zero_le_one, le_rfl, fun _ => zero_le_one, fun _ => zero_le_one, le_rfl, le_rfl,
      fun q hq => ?_, fun k _ => ?_⟩
    · simp only [lossy, List.mem_singleton] at hq
      subst hq
      norm_num [lossy]
    · simp [heatCapacity, lossy]
  within := fun _ _ x _ hx => by
    refine ⟨fun k _ => hx k, by norm_num [lossy], fun q hq => ?_⟩
    simp only [lossy, List.mem_singleton] at hq
    subst hq
    norm_num
  short := by
    refine ⟨h0, fun _ _ x _ _ k hk => ?_⟩
    have hk : k < 2 := hk
    have e : ∀ j, (processVar lossy.g.n ((lossy.ports ()).map (·.idx)) ((lossy.ports ()).map (·.io))).top j = 0 ∧
        (processVar lossy.g.n ((lossy.ports ()).map (·.idx)) ((lossy.ports ()).map (·.io))).bot j = 0 := by
      intro j
      simp [processVar, lossy, slices, cumsum, cumsumFrom, pos]
    rw [(e k).1, (e k).2]
    have e2 : inflowThroughPorts (lossy.ports ()) k = 0 := by
      simp [inflowThroughPorts, lossy, List.filter_cons]
      split_ifs <;> simp
    have e3 : totalConductance lossy.mat lossy.g (lossy.inp () () x) (lossy.ports ()) k = 2 := by
      obtain rfl | rfl : k = 0 ∨ k = 1 := by omega
      · norm_num [totalConductance, faceConductance, portConductance, lossy]
      · norm_num [totalConductance, faceConductance, portConductance, lossy]
    show h * (totalConductance lossy.mat lossy.g (lossy.inp () () x) (lossy.ports ()) k +
      1 * (0 + 0 + inflowThroughPorts (lossy.ports ()) k)) ≤ 1
    rw [e2, e3]
    linarith

theorem lossy_balanced (p : Unit) : Balanced lossy.g (lossy.ports p) :=
  ⟨by simp [lossy], by simp [lossy], by simp [lossy]⟩

theorem warm_between : Between 20 80 (fun k : ℕ => if k = 0 then (80 : ℝ) else 40) := by
  intro k
  dsimp only
  split_ifs <;> norm_num

/-- The hypotheses can be met: a storage of 80 and 40 degrees in surroundings of 20 degrees, ten steps, each after a rejected
attempt. -/
example : ∃ y, Temps (simulate (line lossy.storage) warm ((List.range 10).map fun _ => ([1], 1 / 4))) 0 y ∧
    0 ≤ (entropy 1 2 y - entropy 1 2 fun k => if k = 0 then 80 else 40) +
      ((heat 1 2 fun k => if k = 0 then 80 else 40) - heat 1 2 y) / (20 + 273.15) :=
  C171_entropy_partial (v := lossy) (c := 1) (a := 20) (b := 80) (sys := line lossy.storage) (i := 0) (t := 20) rfl
    (line_kept _) le_rfl zero_le_one (fun p _ => lossy_balanced p)
    (fun p _ q hq => by
      simp only [lossy, List.mem_singleton] at hq
      subst hq
      exact ⟨rfl, rfl, rfl⟩)
    (fun _ _ _ => rfl) (by norm_num) _ trivial
    (fun e he => by
      obtain ⟨_, _, rfl⟩ := List.mem_map.1 he
      exact lossy_orderly (by norm_num) (by norm_num))
    (fun l₁ e l₂ _ => line_stable (fun _ _ _ _ => rfl) _ _ _) rfl warm_between

/-- The squares of the temperatures, which measure how far the cells are apart, do not grow faster than the surroundings can
make them: a step of the lossy storage. -/
example : let x := fun k : ℕ => if k = 0 then (80 : ℝ) else 40
    let y := x + (1 / 4 : ℝ) • (lossy.storage () () x (1 / 4)).dT
    let z := x + (1 / 4 / 2 : ℝ) • ((lossy.storage () () x (1 / 4)).dT + (lossy.storage () () y (1 / 4)).dT)
    content (fun T => T ^ 2) 1 2 z ≤ content (fun T => T ^ 2) 1 2 x + 1 / 4 / 2 *
      (suppliedOf (fun T => T ^ 2) 1 lossy.mat lossy.g (lossy.inp () () x) (lossy.ports ()) +
        suppliedOf (fun T => T ^ 2) 1 lossy.mat lossy.g (lossy.inp () () y) (lossy.ports ())) :=
  C171_storage_partial (v := lossy) (Bp := fun _ => True) (a := 20) (b := 80)
    ((Even.convexOn_pow (n := 2) (𝕜 := ℝ) even_two).subset (Set.subset_univ _) (convex_Icc _ _)) (lossy_orderly (by norm_num) (by norm_num))
    (fun p _ => lossy_balanced p) trivial trivial () () warm_between

/-- The pipe of two cells of C169 with water of 1 degree: cells of other temperatures, a step of an eighth of the time constant.
-/
example : let v := Arrival.cellsOf false 2 1
    let d := v.pipe (fun _ => 1) (fun _ => Arrival.feed false 2 1) fun _ => Arrival.sink false 2
    let x := fun k : ℕ => if k = 0 then (1 / 2 : ℝ) else 0
    let y := x + (1 / 8 : ℝ) • (d () () x (1 / 8)).dT
    let z := x + (1 / 8 / 2 : ℝ) • ((d () () x (1 / 8)).dT + (d () () y (1 / 8)).dT)
    content (fun T => T ^ 2) 1 2 z ≤ content (fun T => T ^ 2) 1 2 x + 1 / 8 / 2 *
      (suppliedOf (fun T => T ^ 2) 1 v.mat v.g (v.inp () () x) [Arrival.feed false 2 1, Arrival.sink false 2] +
        suppliedOf (fun T => T ^ 2) 1 v.mat v.g (v.inp () () y) [Arrival.feed false 2 1, Arrival.sink false 2]) := by
  intro v d x y z
  refine C171_pipe_partial (v := v) (Bp := fun _ => True) (a := 0) (b := 1) (io := fun _ => 1)
    (pin := fun _ => Arrival.feed false 2 1) (pout := fun _ => Arrival.sink false 2)
    ((Even.convexOn_pow (n := 2) (𝕜 := ℝ) even_two).subset (Set.subset_univ _) (convex_Icc _ _))
    ⟨le_rfl, ⟨one_pos, fun _ => by simp [v, Arrival.cellsOf]⟩, ⟨zero_le_one, fun _ => rfl⟩, fun _ _ _ => rfl,
      fun _ _ w _ _ => ⟨fun _ _ => one_pos, one_pos, zero_le_one, le_rfl, fun _ => zero_le_one, fun _ => le_rfl, le_rfl,
        le_rfl, fun q hq => ?_, fun k _ => by simp [heatCapacity, v, Arrival.cellsOf]⟩,
      fun _ _ w _ hw => ⟨fun k _ => hw k, by norm_num [v, Arrival.cellsOf], fun q hq => ?_⟩, by norm_num,
      fun _ _ w _ _ k hk => ?_⟩
    (fun p => ⟨rfl, rfl, rfl, rfl⟩) trivial trivial () () ?_
  · simp only [List.mem_cons, List.not_mem_nil, or_false] at hq
    rcases hq with rfl | rfl <;> norm_num [Arrival.feed, Arrival.sink, v, Arrival.cellsOf]
  · simp only [List.mem_cons, List.not_mem_nil, or_false] at hq
    rcases hq with rfl | rfl <;> norm_num [Arrival.feed, Arrival.sink]
  · have hk : k < 2 := hk
    obtain rfl | rfl : k = 0 ∨ k = 1 := by omega
    · norm_num [totalConductance, faceConductance, portConductance, inflowThroughPorts, processInvar, v, Arrival.cellsOf,
        Arrival.feed, Arrival.sink]
    · norm_num [totalConductance, faceConductance, portConductance, inflowThroughPorts, processInvar, v, Arrival.cellsOf,
        Arrival.feed, Arrival.sink]
  · intro k
    simp only [x]
    split_ifs <;> norm_num

/-- **C171** fails with a step of twice the time constant of the cells, if the stability check accepts it: the warm cell
becomes warmer, the cold one colder, and the entropy decreases although the storage exchanges nothing with anything. -/
theorem C171_fails_long_step : ∃ (v : Vessel ℝ Unit Unit) (sys : System ℝ (ℕ → ℝ) Unit Unit Unit)
    (s : State (ℕ → ℝ) Unit Unit Unit) (x y : ℕ → ℝ), sys.diffs[0]? = some v.storage ∧ Idle.Unused v 1 1 1 0 1 ∧
      Temps s 0 x ∧ (∀ k < v.g.n, 0 ≤ x k ∧ x k ≤ 1) ∧ (call sys s [] 2).stable = true ∧
      Temps (simulate sys s [([], 2)]) 0 y ∧ heat 1 v.g.n y = heat 1 v.g.n x ∧
      entropy 1 v.g.n y < entropy 1 v.g.n x := by
  obtain ⟨m, p, m', p', h⟩ := call_part (sys := Idle.alone fun _ => 1) (s := Idle.start) (i := 0) rfl
    (x := fun k => if k = 0 then 1 else 0) rfl (Idle.alone_stable _ _ [] 2)
  refine ⟨Idle.twoCells fun _ => 1, Idle.alone fun _ => 1, Idle.start, _, _, rfl, Idle.twoCells_unused 0 1, rfl, ?_,
    Idle.alone_stable _ _ _ _, h, ?_, ?_⟩
  · intro k _
    dsimp only
    split_ifs <;> norm_num
  · simp only [Idle.twoCells_dT]
    simp [heat, Idle.twoCells, sum_range_succ]
    norm_num
  · simp only [Idle.twoCells_dT]
    simp [entropy, Idle.twoCells, sum_range_succ]
    rw [← Real.log_mul (by norm_num) (by norm_num), ← Real.log_mul (by norm_num) (by norm_num)]
    exact Real.log_lt_log (by norm_num) (by norm_num)

end Verif.SecondLaw
