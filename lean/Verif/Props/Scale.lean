import Verif.Model.Cells
import Verif.Model.Stability
import Mathlib.Algebra.Order.Field.Basic
import Mathlib.Algebra.Order.AbsoluteValue.Basic
import Mathlib.Tactic.Linarith
import Mathlib.Tactic.Ring
import Mathlib.Tactic.FieldSimp

/-!
# C199: temperatures depend on ratios of extensive quantities only

A part whose volumes, areas, heat capacities, conductances, flows and heat are `r` times as large, such as `r` equal parts side by side
taken as one, or one part described in other units of mass and energy.
-/

set_option linter.unusedSectionVars false

namespace Verif.Cells

open Verif.Flows

variable {K : Type*} [Field K] [LinearOrder K] [IsStrictOrderedRing K]

/-- Specification: the geometry of a part with `r` times the cross section; the grid spacing is the same. -/
def Geo.scale (r : K) (g : Geo K) : Geo K :=
  { g with vCell := r * g.vCell, aCell := r * g.aCell, mcpWll := r * g.mcpWll, uaTbWll := r * g.uaTbWll }

/-- Specification: the surroundings of the larger part: equal temperatures, `r` times the conductances. -/
def Inp.scale (r : K) (s : Inp K) : Inp K :=
  { s with uaAmb := fun k => r * s.uaAmb k, lidTop := r * s.lidTop, lidBot := r * s.lidBot }

/-- Specification: a port of the larger part. -/
def Port.scale (r : K) (p : Port K) : Port K := { p with area := r * p.area, uaWll := r * p.uaWll, io := r * p.io }

/-- Specification: a heater of `r` times the power. -/
def Heat.scale (r : K) (q : Heat K) : Heat K := { q with dQ := r * q.dQ }

variable (mat : Mat K) (g : Geo K) (s : Inp K) {r : K}

theorem tExt_scale (j : ℕ) : tExt (g.scale r) (s.scale r) j = tExt g s j := rfl

theorem enth_scale (j : ℕ) : enth mat (g.scale r) (s.scale r) j = enth mat g s j := rfl

theorem uaTb_scale (j : ℕ) : uaTb mat (g.scale r) (s.scale r) j = r * uaTb mat g s j := by
  unfold uaTb
  by_cases h : j = 0 ∨ j = g.n
  · rw [if_pos h, if_pos (show j = 0 ∨ j = (g.scale r).n from h), mul_zero]
  · rw [if_neg h, if_neg (show ¬ (j = 0 ∨ j = (g.scale r).n) from h)]
    simp only [Geo.scale, Inp.scale]
    ring

theorem mcp_scale (k : ℕ) : mcp mat (g.scale r) (s.scale r) k = r * mcp mat g s k := by
  unfold mcp
  simp only [Geo.scale, Inp.scale]
  ring

theorem uaPort_scale (p : Port K) : uaPort mat (g.scale r) (s.scale r) (p.scale r) = r * uaPort mat g s p := by
  unfold uaPort
  simp only [Geo.scale, Inp.scale, Port.scale]
  ring

theorem cancel (hr : 0 < r) (a b : K) : r * a / (r * b) = a / b := mul_div_mul_left _ _ hr.ne'

theorem dTcond_scale (hr : 0 < r) (ports : List (Port K)) :
    dTcond mat (g.scale r) (s.scale r) (ports.map (Port.scale r)) = dTcond mat g s ports := by
  have e1 : ((ports.map (Port.scale r)).map fun p => (p.idx,
      uaPort mat (g.scale r) (s.scale r) p * (p.T - (s.scale r).T p.idx) / mcp mat (g.scale r) (s.scale r) p.idx)) =
      ports.map fun p => (p.idx, uaPort mat g s p * (p.T - s.T p.idx) / mcp mat g s p.idx) := by
    rw [List.map_map]
    refine List.map_congr_left fun p _ => ?_
    simp only [Function.comp, uaPort_scale, mcp_scale]
    simp only [Port.scale, Inp.scale]
    rw [mul_assoc, cancel hr]
  unfold dTcond
  rw [e1]
  congr 1
  funext k
  simp only [uaTb_scale, mcp_scale, tExt_scale]
  have e2 : ∀ a b c d f h : K, (r * a * b + r * c * d + r * f * h) = r * (a * b + c * d + f * h) := fun _ _ _ _ _ _ => by ring
  simp only [Geo.scale, Inp.scale]
  rw [e2, cancel hr, mul_assoc r s.lidTop, cancel hr, mul_assoc r s.lidBot, cancel hr]
  rfl

theorem dTadv_scale (hr : 0 < r) {top bot top' bot' : ℕ → K} (ht : ∀ k, top' k = r * top k) (hb : ∀ k, bot' k = r * bot k)
    (ports : List (Port K)) (inflow : List K) :
    dTadv mat (g.scale r) (s.scale r) top' bot' (ports.map (Port.scale r)) (inflow.map (r * ·)) =
      dTadv mat g s top bot ports inflow := by
  have e1 : (((ports.map (Port.scale r)).zip (inflow.map (r * ·))).map fun q => (q.1.idx,
      q.2 * (mat.cp q.1.T * q.1.T - enth mat (g.scale r) (s.scale r) (q.1.idx + 1)) / mcp mat (g.scale r) (s.scale r) q.1.idx)) =
      (ports.zip inflow).map fun q =>
        (q.1.idx, q.2 * (mat.cp q.1.T * q.1.T - enth mat g s (q.1.idx + 1)) / mcp mat g s q.1.idx) := by
    rw [List.zip_map, List.map_map]
    refine List.map_congr_left fun q _ => ?_
    simp only [Function.comp, Prod.map, mcp_scale, enth_scale]
    simp only [Port.scale]
    rw [mul_assoc, cancel hr]
  unfold dTadv
  rw [e1]
  congr 1
  funext k
  simp only [mcp_scale, enth_scale, ht, hb]
  rw [mul_assoc, mul_assoc, ← mul_add, cancel hr]

theorem pos_scale (hr : 0 < r) (x : K) : pos (r * x) = r * pos x := by
  unfold pos
  by_cases h : x < 0
  · rw [if_pos h, if_pos (mul_neg_of_pos_of_neg hr h), mul_zero]
  · rw [if_neg h, if_neg (not_lt.2 (mul_nonneg hr.le (not_lt.1 h)))]

theorem cumsumFrom_scale (acc : K) (l : List K) : cumsumFrom (r * acc) (l.map (r * ·)) = (cumsumFrom acc l).map (r * ·) := by
  induction l generalizing acc with
  | nil => rfl
  | cons x l ih =>
    simp only [List.map_cons, cumsumFrom]
    rw [← mul_add, ih]

theorem slices_scale (idx : List ℕ) (cs : List K) (k : ℕ) : slices idx (cs.map (r * ·)) k = r * slices idx cs k := by
  induction idx generalizing cs with
  | nil => simp [slices]
  | cons i idx ih =>
    cases idx with
    | nil => cases cs <;> simp [slices]
    | cons j idx =>
      cases cs with
      | nil => simp [slices]
      | cons c cs =>
        simp only [List.map_cons, slices]
        rw [ih cs, mul_add]
        split_ifs <;> simp

theorem cumsum_scale (l : List K) : cumsum (l.map (r * ·)) = (cumsum l).map (r * ·) := by
  unfold cumsum
  rw [← cumsumFrom_scale, mul_zero]

/-- **C199** (storages and branched pipes): a storage of `r` times the cross section with `r` times the flows and conductances has the same
changes of temperature. -/
theorem C199_storage (hr : 0 < r) (ports : List (Port K)) :
    storageDT mat (g.scale r) (s.scale r) (ports.map (Port.scale r)) = storageDT mat g s ports := by
  have hidx : (ports.map (Port.scale r)).map (·.idx) = ports.map (·.idx) := by rw [List.map_map]; rfl
  have hio : (ports.map (Port.scale r)).map (·.io) = (ports.map (·.io)).map (r * ·) := by rw [List.map_map, List.map_map]; rfl
  have hport : (((ports.map (·.io)).map (r * ·)).map pos) = ((ports.map (·.io)).map pos).map (r * ·) := by
    rw [List.map_map, List.map_map, List.map_map, List.map_map]
    exact List.map_congr_left fun p _ => pos_scale hr _
  unfold storageDT
  funext k
  rw [dTcond_scale mat g s hr, hidx, hio]
  unfold processVar
  dsimp only
  rw [hport]
  congr 1
  refine congrFun (dTadv_scale mat g s hr (fun k => ?_) (fun k => ?_) ports _) k
  · split_ifs
    · simp
    · rw [cumsum_scale, slices_scale, pos_scale hr]
  · by_cases h : k + 1 = g.n
    · rw [if_pos h, if_pos (show k + 1 = (g.scale r).n from h), mul_zero]
    · rw [if_neg h, if_neg (show ¬ k + 1 = (g.scale r).n from h), cumsum_scale, slices_scale, ← mul_neg, pos_scale hr]

theorem sign_scale (hr : 0 < r) (x : K) : 0 ≤ r * x ↔ 0 ≤ x := mul_nonneg_iff_of_pos_left hr

/-- **C199** (pipes): the same for pipes. -/
theorem C199_pipe (hr : 0 < r) (io : K) (pin pout : Port K) :
    pipeDT mat (g.scale r) (s.scale r) (r * io) (pin.scale r) (pout.scale r) = pipeDT mat g s io pin pout := by
  unfold pipeDT
  funext k
  have h1 := congrFun (dTcond_scale mat g s hr [pin, pout]) k
  simp only [List.map_cons, List.map_nil] at h1
  rw [h1]
  congr 1
  have h2 := congrFun (dTadv_scale mat g s hr (top := (processInvar g.n io).top) (bot := (processInvar g.n io).bot)
    (top' := (processInvar (g.scale r).n (r * io)).top) (bot' := (processInvar (g.scale r).n (r * io)).bot) (fun k => ?_) (fun k => ?_)
    [pin, pout] [(processInvar g.n io).portIn, (processInvar g.n io).portOut]) k
  · rw [← h2]
    simp only [List.map_cons, List.map_nil]
    have e1 : (processInvar (g.scale r).n (r * io)).portIn = r * (processInvar g.n io).portIn := by
      unfold processInvar
      simp only [sign_scale hr]
      split_ifs <;> simp
    have e2 : (processInvar (g.scale r).n (r * io)).portOut = r * (processInvar g.n io).portOut := by
      unfold processInvar
      simp only [sign_scale hr]
      split_ifs <;> simp
    rw [e1, e2]
  · unfold processInvar
    simp only [sign_scale hr]
    split_ifs <;> simp
  · unfold processInvar Geo.scale
    simp only [sign_scale hr]
    split_ifs <;> simp

/-- **C199** (heated pipes): a heater of `r` times the power in a pipe of `r` times the cross section; it is switched off in the same
states. -/
theorem C199_heater (hr : 0 < r) (limit : K) (q : Heat K) (io : K) (pin pout : Port K) :
    heatedDT mat (g.scale r) (s.scale r) limit (q.scale r) (r * io) (pin.scale r) (pout.scale r) =
      ((heatedDT mat g s limit q io pin pout).1, r * (heatedDT mat g s limit q io pin pout).2) := by
  have hs : shutdown (g.scale r) (s.scale r) limit (r * q.dQ) = r * shutdown g s limit q.dQ := by
    unfold shutdown
    by_cases h : ∃ j < g.n + 2, limit ≤ tExt g s j
    · rw [if_pos h, if_pos (show ∃ j < (g.scale r).n + 2, limit ≤ tExt (g.scale r) (s.scale r) j from h), mul_zero]
    · rw [if_neg h, if_neg (show ¬ ∃ j < (g.scale r).n + 2, limit ≤ tExt (g.scale r) (s.scale r) j from h)]
  unfold heatedDT
  dsimp only
  rw [C199_pipe mat g s hr, show (q.scale r).dQ = r * q.dQ from rfl, hs]
  refine Prod.ext (funext fun k => ?_) rfl
  dsimp only
  congr 1
  unfold dTheat
  by_cases h : q.start ≤ k ∧ k < q.stop
  · rw [if_pos h, if_pos (show (q.scale r).start ≤ k ∧ k < (q.scale r).stop from h), mcp_scale]
    simp only [Heat.scale]
    rw [mul_assoc, cancel hr]
  · rw [if_neg h, if_neg (show ¬ ((q.scale r).start ≤ k ∧ k < (q.scale r).stop) from h)]

/-- A pipe of two cells, 50 and 40 degrees, water of 80 degrees comes in: the first cell warms up, in a pipe three times as large as well. -/
def examplePipe : Mat ℚ × Geo ℚ × Inp ℚ × Port ℚ × Port ℚ :=
  (⟨fun _ => 4200, fun _ => 1000, fun _ => 1⟩, ⟨2, 1, 1, 1, 0, 0⟩,
    ⟨fun k => if k = 0 then 50 else 40, 80, 20, 20, fun _ => 5, 0, 0, fun _ => 1⟩, ⟨0, 80, 1, 1, 0, 0⟩, ⟨1, 20, 1, 1, 0, 0⟩)

example : 0 < pipeDT examplePipe.1 examplePipe.2.1 examplePipe.2.2.1 2 examplePipe.2.2.2.1 examplePipe.2.2.2.2 0 ∧
    pipeDT examplePipe.1 (examplePipe.2.1.scale 3) (examplePipe.2.2.1.scale 3) (3 * 2) (examplePipe.2.2.2.1.scale 3)
      (examplePipe.2.2.2.2.scale 3) 0 =
    pipeDT examplePipe.1 examplePipe.2.1 examplePipe.2.2.1 2 examplePipe.2.2.2.1 examplePipe.2.2.2.2 0 := by
  exact ⟨by decide +kernel, congrFun (C199_pipe _ _ _ (by norm_num) _ _ _) 0⟩

end Verif.Cells

namespace Verif.Stability

variable {K : Type*} [Field K] [LinearOrder K] [IsStrictOrderedRing K] {r : K}

/-- Specification: what the check of the time step reads from a part of `r` times the cross section. -/
def Data.scale (r : K) (d : Data K) : Data K :=
  { d with uaTb := d.uaTb.map (r * ·), uaPort := d.uaPort.map (r * ·), uaAmb := d.uaAmb.map (r * ·), flows := d.flows.map (r * ·),
           aPort := d.aPort.map (r * ·), aCell := r * d.aCell, aShell := r * d.aShell, vCell := r * d.vCell }

theorem maxL_scale (hr : 0 < r) (l : List K) : maxL (l.map (r * ·)) = r * maxL l := by
  cases l with
  | nil => simp [maxL]
  | cons a l =>
    simp only [List.map_cons, maxL]
    induction l generalizing a with
    | nil => rfl
    | cons b l ih =>
      simp only [List.map_cons, List.foldl_cons]
      rw [← mul_max_of_nonneg _ _ hr.le, ih]

theorem zipDiv_scale (a b : List K) : List.zipWith (· / ·) (a.map (r * ·)) b = (List.zipWith (· / ·) a b).map (r * ·) := by
  rw [List.zipWith_map_left, List.map_zipWith]
  simp only [mul_div_assoc]

theorem zipMul_scale (a b : List K) : List.zipWith (· * ·) (a.map (r * ·)) b = (List.zipWith (· * ·) a b).map (r * ·) := by
  rw [List.zipWith_map_left, List.map_zipWith]
  simp only [mul_assoc]

/-- **C199** (time step): the check of the time step accepts the same steps, and proposes the same step where it does not. -/
theorem C199_check (hr : 0 < r) (d : Data K) (h : K) : check (.oneD (d.scale r)) h = check (.oneD d) h := by
  have hz : List.zipWith (· / ·) (d.uaPort.map (r * ·)) (List.zipWith (· * ·) (d.aPort.map (r * ·)) d.subsGsp) =
      List.zipWith (· / ·) d.uaPort (List.zipWith (· * ·) d.aPort d.subsGsp) := by
    rw [zipMul_scale, List.zipWith_map]
    congr 1
    funext a b
    exact mul_div_mul_left _ _ hr.ne'
  have ha : ((d.flows.map (r * ·)).map fun x => |x|) = (d.flows.map fun x => |x|).map (r * ·) := by
    rw [List.map_map, List.map_map]
    refine List.map_congr_left fun x _ => ?_
    simp only [Function.comp]
    rw [abs_mul, abs_of_pos hr]
  have e : ∀ a b c : K, r * a * b / (r * c) = a * b / c := fun a b c => by rw [mul_assoc, mul_div_mul_left _ _ hr.ne']
  have hd : diff1D (d.scale r) h = diff1D d h := by
    unfold diff1D
    simp only [Data.scale]
    rw [hz, zipDiv_scale, zipDiv_scale, maxL_scale hr, maxL_scale hr, mul_assoc r d.aCell, mul_assoc r d.aShell, e, e]
  have hc : cfl (d.scale r) h = cfl d h := by
    unfold cfl
    simp only [Data.scale]
    rw [ha, maxL_scale hr, mul_assoc r d.vCell, e]
  unfold check divider
  simp only [hd, hc]

end Verif.Stability

namespace Verif.Stability

variable {K : Type*} [Field K] [LinearOrder K] [IsStrictOrderedRing K] {r : K}

/-- Specification: what the check of the time step reads from a plate heat exchanger with plates and channels `r` times as wide. -/
def DataHex.scale (r : K) (d : DataHex K) : DataHex K :=
  { d with uaDim1 := d.uaDim1.map (r * ·), uaDim2 := d.uaDim2.map (r * ·), uaPort := d.uaPort.map (r * ·),
           flows := d.flows.map (r * ·), aPort := d.aPort.map (r * ·), aChannel := r * d.aChannel, aPlate := r * d.aPlate,
           vCell := r * d.vCell }

/-- **C199** (time step of plate heat exchangers): the check accepts the same steps, and proposes the same step where it does not. -/
theorem C199_check_hex (hr : 0 < r) (d : DataHex K) (h : K) : check (.hex (d.scale r)) h = check (.hex d) h := by
  have hz : List.zipWith (· / ·) (d.uaPort.map (r * ·)) (List.zipWith (· * ·) (d.aPort.map (r * ·)) d.subsGsp) =
      List.zipWith (· / ·) d.uaPort (List.zipWith (· * ·) d.aPort d.subsGsp) := by
    rw [zipMul_scale, List.zipWith_map]
    congr 1
    funext a b
    exact mul_div_mul_left _ _ hr.ne'
  have ha : ((d.flows.map (r * ·)).map fun x => |x|) = (d.flows.map fun x => |x|).map (r * ·) := by
    rw [List.map_map, List.map_map]
    refine List.map_congr_left fun x _ => ?_
    simp only [Function.comp]
    rw [abs_mul, abs_of_pos hr]
  have e : ∀ a b c : K, r * a * b / (r * c) = a * b / c := fun a b c => by rw [mul_assoc, mul_div_mul_left _ _ hr.ne']
  have hd : diffHex (d.scale r) h = diffHex d h := by
    unfold diffHex
    simp only [DataHex.scale]
    have e' : ∀ a b c : K, r * a / b * h / (r * c) = a / b * h / c := fun a b c => by rw [mul_div_assoc r, e]
    rw [hz, maxL_scale hr, maxL_scale hr, mul_assoc r d.aChannel, mul_assoc r d.aPlate, e', e']
  have hc : cflHex (d.scale r) h = cflHex d h := by
    unfold cflHex
    simp only [DataHex.scale]
    rw [ha, maxL_scale hr, mul_assoc r d.vCell, e]
  unfold check divider
  simp only [hd, hc]

end Verif.Stability
