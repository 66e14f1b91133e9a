import Verif.Props.HexNumStep
import Verif.Props.Compare
import Verif.Props.Scale

/-!
# C112, C199, C200 for the numeric heat exchanger
-/

set_option linter.unusedSectionVars false

namespace Verif.HexNum

open Verif.Cells (Mat lamMean constMat)

variable {K : Type*} [Field K] [LinearOrder K] [IsStrictOrderedRing K]

/-- The water flows, heat transfer coefficients and connections are the same, only temperatures differ. -/
structure SameBut (s s' : Inp K) : Prop where
  dm : s'.dm = s.dm
  alpha : s'.alpha = s.alpha
  junk : s'.junk = s.junk
  port : ∀ i, (s'.port i).area = (s.port i).area ∧ (s'.port i).gsp = (s.port i).gsp ∧ (s'.port i).uaWll = (s.port i).uaWll

/-- What one case has more than the other one. -/
def diff (s s' : Inp K) : Inp K :=
  ⟨fun k j => s'.ext k j - s.ext k j, s.dm, s.alpha, fun i => { s.port i with T := (s'.port i).T - (s.port i).T }, s.junk⟩

variable {c r l : K} {g : Geo K} {s s' : Inp K}

theorem lamFlat_same (h : SameBut s s') (i : ℕ) : lamFlat (constMat c r l) g s' i = lamFlat (constMat c r l) g s i := by
  unfold lamFlat
  rw [h.junk]
  rfl

theorem uaPort_same (h : SameBut s s') (i : ℕ) : uaPort (constMat c r l) g s' i = uaPort (constMat c r l) g s i := by
  unfold uaPort
  rw [(h.port i).1, (h.port i).2.1, (h.port i).2.2, lamFlat_same h]
  rfl

theorem same_diff : SameBut s (diff s s') := ⟨rfl, rfl, rfl, fun _ => ⟨rfl, rfl, rfl⟩⟩

theorem dT_diff (h : SameBut s s') (k j : ℕ) :
    dT (constMat c r l) g (diff s s') k j = dT (constMat c r l) g s' k j - dT (constMat c r l) g s k j := by
  have u1 : ∀ k j, ua1 (constMat c r l) g (diff s s') k j = ua1 (constMat c r l) g s k j := fun _ _ => rfl
  have u1' : ∀ k j, ua1 (constMat c r l) g s' k j = ua1 (constMat c r l) g s k j := fun _ _ => rfl
  have u2 : ∀ k j, ua2 g (diff s s') k j = ua2 g s k j := fun _ _ => rfl
  have u2' : ∀ k j, ua2 g s' k j = ua2 g s k j := fun k j => by unfold ua2; rw [h.alpha]
  have m1 : ∀ k j, mcp (constMat c r l) g (diff s s') k j = mcp (constMat c r l) g s k j := fun _ _ => rfl
  have m1' : ∀ k j, mcp (constMat c r l) g s' k j = mcp (constMat c r l) g s k j := fun _ _ => rfl
  have p1 : ∀ i, uaPort (constMat c r l) g (diff s s') i = uaPort (constMat c r l) g s i := uaPort_same same_diff
  have p1' : ∀ i, uaPort (constMat c r l) g s' i = uaPort (constMat c r l) g s i := uaPort_same h
  have t1 : ∀ c k, dmTop (diff s s') c k = dmTop s c k := fun _ _ => rfl
  have t1' : ∀ c k, dmTop s' c k = dmTop s c k := fun c k => by unfold dmTop; rw [h.dm]
  have b1 : ∀ c k, dmBot g (diff s s') c k = dmBot g s c k := fun _ _ => rfl
  have b1' : ∀ c k, dmBot g s' c k = dmBot g s c k := fun c k => by unfold dmBot; rw [h.dm]
  have d1 : ∀ i, dmPort (diff s s') i = dmPort s i := fun _ => rfl
  have d1' : ∀ i, dmPort s' i = dmPort s i := fun i => by unfold dmPort; rw [h.dm]
  have hcond : dTcond (constMat c r l) g (diff s s') k j =
      dTcond (constMat c r l) g s' k j - dTcond (constMat c r l) g s k j := by
    unfold dTcond
    simp only [u1, u1', u2, u2', m1, m1', p1, p1']
    have : ∀ x x' y y' : K, x' + y' - (x + y) = (x' - x) + (y' - y) := by intros; ring
    rw [this, ← Finset.sum_sub_distrib]
    congr 1
    · simp only [diff]; ring
    · refine Finset.sum_congr rfl fun i _ => ?_
      split_ifs
      · simp only [diff, T]; ring
      · ring
  have hadv : dTadv (constMat c r l) g (diff s s') k j =
      dTadv (constMat c r l) g s' k j - dTadv (constMat c r l) g s k j := by
    unfold dTadv
    by_cases hj : j = 1
    · rw [if_pos hj, if_pos hj, if_pos hj, sub_zero]
    · rw [if_neg hj, if_neg hj, if_neg hj]
      simp only [m1, m1', t1, t1', b1, b1', d1, d1', ui, if_neg hj]
      rw [← sub_div]
      have : ∀ x x' y y' : K, x' + y' - (x + y) = (x' - x) + (y' - y) := by intros; ring
      rw [this, ← Finset.sum_sub_distrib]
      congr 2
      · simp only [diff, T, constMat]; ring
      · refine Finset.sum_congr rfl fun i _ => ?_
        split_ifs
        · simp only [diff, T, constMat]; ring
        · ring
  unfold dT
  rw [hcond, hadv]
  ring

/-- **C112**, partial (numeric heat exchanger): if everything inside the exchanger and at its ports is in a second case by at
least `a` and at most `b` hotter, so is the exchanger after an explicit Euler step with the same step length, flows and heat
transfer coefficients, if material properties are constant and the step is short enough (as in `C88_no_new_extreme_partial`). -/
theorem C112_hex_partial (h : SameBut s s') (hc : 0 ≤ c) (hph : Physical (constMat c r l) g s) {a b t : K}
    (hcells : ∀ k < g.n, ∀ j < 3, a ≤ T s' k j - T s k j ∧ T s' k j - T s k j ≤ b)
    (hports : ∀ i < 4, a ≤ (s'.port i).T - (s.port i).T ∧ (s'.port i).T - (s.port i).T ≤ b) (ht : 0 ≤ t)
    (hfl : ∀ k < g.n, ∀ e < 2, t * fluidLoad (constMat c r l) g s c k e ≤ mcp (constMat c r l) g s k (2 * e))
    (hwl : ∀ k < g.n, t * wallLoad (constMat c r l) g s k ≤ g.mcpWll) :
    ∀ k < g.n, ∀ j < 3,
      a ≤ eulerStep (constMat c r l) g s' t k j - eulerStep (constMat c r l) g s t k j ∧
      eulerStep (constMat c r l) g s' t k j - eulerStep (constMat c r l) g s t k j ≤ b := by
  intro k hk j hj
  have hp : ∀ i, uaPort (constMat c r l) g (diff s s') i = uaPort (constMat c r l) g s i := uaPort_same same_diff
  have hph' : Physical (constMat c r l) g (diff s s') :=
    ⟨hph.n, hph.chSup, hph.chDmd, hph.vCell, hph.aChannel, hph.gs, hph.aPlate, hph.sPlate, hph.lamWll, hph.mcpWll, hph.uaWll,
      hph.rho, hph.cp, hph.lam, hph.alpha, fun i hi => by rw [hp]; exact hph.port i hi⟩
  have := C88_no_new_extreme_partial (constMat c r l) g (diff s s') hph' (m := a) (M := b) (L := c) (h := t) ⟨hcells, hports⟩
    (Cells.slope_const hc a b) hc ht
    (fun k hk e he => by
      have e1 : fluidLoad (constMat c r l) g (diff s s') c k e = fluidLoad (constMat c r l) g s c k e := by
        unfold fluidLoad
        rw [hp, hp]
        rfl
      rw [e1]
      exact hfl k hk e he)
    hwl k hk j hj
  unfold eulerStep at *
  rw [dT_diff h] at this
  have e : T (diff s s') k j = T s' k j - T s k j := rfl
  rw [e] at this
  constructor <;> nlinarith [this.1, this.2]

/-- The exchanger of `C88` with everything 10 K warmer at the supply port only. -/
def exInp3' : Inp ℚ := { exInp3 with port := fun i => if i = 0 then ⟨10, 1, 1, 0⟩ else ⟨0, 1, 1, 0⟩ }

example : SameBut exInp3 exInp3' ∧ Physical (constMat (1 : ℚ) 1 1) exGeo3 exInp3 ∧
    (∀ k < exGeo3.n, ∀ j < 3, 0 ≤ T exInp3' k j - T exInp3 k j ∧ T exInp3' k j - T exInp3 k j ≤ 10) ∧
    (∀ i < 4, 0 ≤ (exInp3'.port i).T - (exInp3.port i).T ∧ (exInp3'.port i).T - (exInp3.port i).T ≤ 10) ∧
    (∀ k < exGeo3.n, ∀ e < 2, (1 / 20 : ℚ) * fluidLoad (constMat (1 : ℚ) 1 1) exGeo3 exInp3 1 k e ≤
      mcp (constMat (1 : ℚ) 1 1) exGeo3 exInp3 k (2 * e)) ∧
    (∀ k < exGeo3.n, (1 / 20 : ℚ) * wallLoad (constMat (1 : ℚ) 1 1) exGeo3 exInp3 k ≤ exGeo3.mcpWll) ∧
    eulerStep (constMat (1 : ℚ) 1 1) exGeo3 exInp3 (1 / 20) 0 0 < eulerStep (constMat (1 : ℚ) 1 1) exGeo3 exInp3' (1 / 20) 0 0 := by
  refine ⟨⟨rfl, rfl, rfl, ?_⟩, ⟨?_, ?_, ?_, ?_, ?_, ?_, ?_, ?_, ?_, ?_, ?_, ?_, ?_, ?_, ?_, ?_⟩, ?_, ?_, ?_, ?_, ?_⟩
  case refine_1 =>
    intro i
    by_cases h : i = 0 <;> simp [exInp3, exInp3', h]
  all_goals decide +kernel

/-! ## Scale -/

/-- Specification: an exchanger with `x` times as wide plates and channels. -/
def Geo.scale (x : K) (g : Geo K) : Geo K :=
  { g with vCell := x * g.vCell, aChannel := x * g.aChannel, aPlate := x * g.aPlate, mcpWll := x * g.mcpWll, uaWll := x * g.uaWll }

/-- Specification: `x` times the flows, the same temperatures and heat transfer coefficients. -/
def Inp.scale (x : K) (s : Inp K) : Inp K :=
  { s with
    dm := fun e => x * s.dm e
    port := fun i => { s.port i with area := x * (s.port i).area, uaWll := x * (s.port i).uaWll } }

theorem ua1_scale (mat : Mat K) (x : K) : ∀ k j, ua1 mat (g.scale x) (s.scale x) k j = x * ua1 mat g s k j := by
  intro k j
  unfold ua1
  by_cases h : k = 0 ∨ k = g.n
  · rw [if_pos h, if_pos (show k = 0 ∨ k = (g.scale x).n from h), mul_zero]
  · rw [if_neg h, if_neg (show ¬ (k = 0 ∨ k = (g.scale x).n) from h)]
    by_cases hj : j = 1
    · rw [if_pos hj, if_pos hj]; rfl
    · rw [if_neg hj, if_neg hj]
      show x * g.aChannel / g.gs * lamMean (mat.lam (T s (k - 1) j)) (mat.lam (T s k j)) = _
      ring

theorem ua2_scale (x : K) : ∀ k f, ua2 (g.scale x) (s.scale x) k f = x * ua2 g s k f := by
  intro k f
  unfold ua2
  split_ifs
  · show x * g.aPlate / (1 / s.alpha k (f - 1) + g.sPlate / 2 / g.lamWll) = _
    ring
  · ring

theorem uaPort_scale (mat : Mat K) (x : K) : ∀ i, uaPort mat (g.scale x) (s.scale x) i = x * uaPort mat g s i := by
  intro i
  unfold uaPort
  show x * (s.port i).area / ((s.port i).gsp / (2 * mat.lam (s.port i).T) + g.gs / (2 * lamFlat mat g s (portIdx g i)))
    + x * (s.port i).uaWll = _
  ring

/-- **C199** (numeric heat exchanger): with `x` times the areas, heat capacities, conductances and flows all temperatures
change as before, for all materials. -/
theorem C199_hex (mat : Mat K) {x : K} (hx : 0 < x) (k j : ℕ) : dT mat (g.scale x) (s.scale x) k j = dT mat g s k j := by
  have u1 := ua1_scale (g := g) (s := s) mat x
  have u2 := ua2_scale (g := g) (s := s) x
  have p1 := uaPort_scale (g := g) (s := s) mat x
  have m1 : ∀ k j, mcp mat (g.scale x) (s.scale x) k j = x * mcp mat g s k j := by
    intro k j
    unfold mcp
    split_ifs
    · rfl
    · show x * g.vCell * (mat.rho (T s k j) * mat.cp (T s k j)) = _
      ring
  have hs : ∀ e, 0 ≤ x * s.dm e ↔ 0 ≤ s.dm e := fun e => mul_nonneg_iff_of_pos_left hx
  have t1 : ∀ e k, dmTop (s.scale x) e k = x * dmTop s e k := by
    intro e k
    unfold dmTop
    show (if k = 0 then 0 else if 0 ≤ x * s.dm e then x * s.dm e else 0) = _
    simp only [hs]
    split_ifs <;> ring
  have b1 : ∀ e k, dmBot (g.scale x) (s.scale x) e k = x * dmBot g s e k := by
    intro e k
    unfold dmBot
    show (if k + 1 = g.n then 0 else if 0 ≤ x * s.dm e then 0 else -(x * s.dm e)) = _
    simp only [hs]
    split_ifs <;> ring
  have d1 : ∀ i, dmPort (s.scale x) i = x * dmPort s i := by
    intro i
    unfold dmPort
    show (if i % 2 = 0 then (if 0 ≤ x * s.dm (i / 2) then x * s.dm (i / 2) else 0)
      else (if 0 ≤ x * s.dm (i / 2) then 0 else -(x * s.dm (i / 2)))) = _
    simp only [hs]
    split_ifs <;> ring
  have hq : ∀ y z : K, x * y / (x * z) = y / z := fun y z => mul_div_mul_left y z hx.ne'
  have hcond : dTcond mat (g.scale x) (s.scale x) k j = dTcond mat g s k j := by
    unfold dTcond
    simp only [u1, u2, m1, p1]
    congr 1
    · refine Eq.trans ?_ (hq _ _)
      congr 1
      show x * _ * (s.ext k (j + 1) - s.ext (k + 1) (j + 1)) + x * _ * (s.ext (k + 2) (j + 1) - s.ext (k + 1) (j + 1)) +
        x * _ * (s.ext (k + 1) j - s.ext (k + 1) (j + 1)) + x * _ * (s.ext (k + 1) (j + 2) - s.ext (k + 1) (j + 1)) = _
      ring
    · refine Finset.sum_congr rfl fun i _ => ?_
      show (if portIdx g i = k * 3 + j then x * uaPort mat g s i * ((s.port i).T - T s k j) / (x * mcp mat g s k j) else 0) = _
      rw [mul_assoc, hq]
  have hadv : dTadv mat (g.scale x) (s.scale x) k j = dTadv mat g s k j := by
    unfold dTadv
    by_cases hj : j = 1
    · rw [if_pos hj, if_pos hj]
    · rw [if_neg hj, if_neg hj]
      simp only [m1, t1, b1, d1]
      congr 1
      congr 1
      · refine Eq.trans ?_ (hq _ _)
        congr 1
        show x * _ * (mat.cp (s.ext k (j + 1)) * s.ext k (j + 1) - ui mat g s k j) +
          x * _ * (mat.cp (s.ext (k + 2) (j + 1)) * s.ext (k + 2) (j + 1) - ui mat g s k j) = _
        ring
      · refine Finset.sum_congr rfl fun i _ => ?_
        show (if portIdx g i = k * 3 + j then x * dmPort s i * (mat.cp (s.port i).T * (s.port i).T - ui mat g s k j) /
          (x * mcp mat g s k j) else 0) = _
        rw [mul_assoc, hq]
  unfold dT
  rw [hcond, hadv]

/-- **C199** (numeric heat exchanger, time step): the check accepts the same steps and proposes the same. -/
theorem C199_hex_check (mat : Mat K) {x : K} (hx : 0 < x) (subs : List K) (t : K) :
    Stability.check (.hex (stabilityData mat (g.scale x) (s.scale x) subs)) t =
      Stability.check (.hex (stabilityData mat g s subs)) t := by
  rw [← Stability.C199_check_hex hx (stabilityData mat g s subs) t]
  congr 2
  unfold stabilityData Stability.DataHex.scale
  simp only [ua1_scale, ua2_scale, List.map_flatMap, List.map_map]
  congr 1
  · exact List.map_congr_left fun i _ => uaPort_scale mat x i
  refine List.map_congr_left fun c _ => ?_
  show x * s.dm c / divisor g c = x * (s.dm c / divisor g c)
  ring

example : dT exMat (exGeo3.scale 7) (exInp3.scale 7) 0 1 = dT exMat exGeo3 exInp3 0 1 ∧ dT exMat exGeo3 exInp3 0 1 ≠ 0 ∧
    dT exMat exGeo3 (exInp3'.scale 7) 0 0 ≠ dT exMat exGeo3 exInp3' 0 0 :=
  ⟨C199_hex exMat (by norm_num) 0 1, by decide +kernel, by decide +kernel⟩

/-! ## Temperatures -/

/-- Specification: all temperatures stretched and shifted. -/
def Inp.affine (a b : K) (s : Inp K) : Inp K :=
  { s with ext := fun k j => a * s.ext k j + b, port := fun i => { s.port i with T := a * (s.port i).T + b } }

/-- **C200**, partial (numeric heat exchanger): for a fluid with constant properties and given heat transfer coefficients,
stretching and shifting all temperatures stretches their changes. -/
theorem C200_hex_partial (a b : K) (k j : ℕ) :
    dT (constMat c r l) g (s.affine a b) k j = a * dT (constMat c r l) g s k j := by
  have hsame : SameBut s (s.affine a b) := ⟨rfl, rfl, rfl, fun _ => ⟨rfl, rfl, rfl⟩⟩
  have p1 : ∀ i, uaPort (constMat c r l) g (s.affine a b) i = uaPort (constMat c r l) g s i := uaPort_same hsame
  have u1 : ∀ k j, ua1 (constMat c r l) g (s.affine a b) k j = ua1 (constMat c r l) g s k j := fun _ _ => rfl
  have u2 : ∀ k j, ua2 g (s.affine a b) k j = ua2 g s k j := fun _ _ => rfl
  have m1 : ∀ k j, mcp (constMat c r l) g (s.affine a b) k j = mcp (constMat c r l) g s k j := fun _ _ => rfl
  have t1 : ∀ e k, dmTop (s.affine a b) e k = dmTop s e k := fun _ _ => rfl
  have b1 : ∀ e k, dmBot g (s.affine a b) e k = dmBot g s e k := fun _ _ => rfl
  have d1 : ∀ i, dmPort (s.affine a b) i = dmPort s i := fun _ => rfl
  unfold dT
  rw [mul_add]
  congr 1
  · unfold dTcond
    simp only [u1, u2, m1, p1]
    rw [mul_add, Finset.mul_sum]
    congr 1
    · simp only [Inp.affine]; ring
    · refine Finset.sum_congr rfl fun i _ => ?_
      split_ifs
      · simp only [Inp.affine, T]; ring
      · ring
  · unfold dTadv
    by_cases hj : j = 1
    · rw [if_pos hj, if_pos hj, mul_zero]
    · rw [if_neg hj, if_neg hj]
      simp only [m1, t1, b1, d1, ui, if_neg hj]
      rw [← mul_div_assoc, mul_add, Finset.mul_sum]
      congr 2
      · simp only [Inp.affine, T, constMat]; ring
      · refine Finset.sum_congr rfl fun i _ => ?_
        split_ifs
        · simp only [Inp.affine, T, constMat]; ring
        · ring

example : dT (constMat (1 : ℚ) 1 1) exGeo3 (exInp3.affine 2 20) 0 1 = 2 * dT (constMat (1 : ℚ) 1 1) exGeo3 exInp3 0 1 ∧
    dT (constMat (1 : ℚ) 1 1) exGeo3 exInp3 0 1 ≠ 0 :=
  ⟨C200_hex_partial 2 20 0 1, by decide +kernel⟩

end Verif.HexNum
