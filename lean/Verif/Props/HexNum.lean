import Verif.Spec.HexNum
import Verif.Props.Cells
import Mathlib.Algebra.BigOperators.Field
import Mathlib.Algebra.Order.BigOperators.Group.Finset
import Mathlib.Tactic.FieldSimp
import Mathlib.Tactic.Linarith
import Mathlib.Tactic.LinearCombination
import Mathlib.Tactic.IntervalCases

/-!
# C83 to C87: numeric plate heat exchanger
-/

set_option linter.unusedSectionVars false

namespace Verif.HexNum

open Finset
open Verif.Cells (Mat lamMean conduction_telescopes)

variable {K : Type*} [Field K] [LinearOrder K] [IsStrictOrderedRing K]
variable (mat : Mat K) (g : Geo K) (s : Inp K)

/-- Sum over the cells of one fluid column of something which happens in the cells of the ports. -/
theorem sum_ports (f : ℕ → ℕ → K) {c : ℕ} (hc : c < 2) (hn : 1 ≤ g.n) :
    ∑ k ∈ range g.n, ∑ i ∈ range 4, (if portIdx g i = k * 3 + 2 * c then f i k else 0) =
      f (2 * c) 0 + f (2 * c + 1) (g.n - 1) := by
  rw [sum_comm]
  have one : ∀ i k0, k0 < g.n → (∀ k, portIdx g i = k * 3 + 2 * c ↔ k = k0) →
      ∑ k ∈ range g.n, (if portIdx g i = k * 3 + 2 * c then f i k else 0) = f i k0 := by
    intro i k0 h0 h
    rw [sum_eq_single k0]
    · rw [if_pos ((h k0).2 rfl)]
    · intro k _ hk
      rw [if_neg (fun e => hk ((h k).1 e))]
    · intro h'
      exact absurd (mem_range.2 h0) h'
  have none : ∀ i, (∀ k, portIdx g i ≠ k * 3 + 2 * c) →
      ∑ k ∈ range g.n, (if portIdx g i = k * 3 + 2 * c then f i k else 0) = 0 := by
    intro i h
    exact sum_eq_zero fun k _ => if_neg (h k)
  simp only [sum_range_succ, sum_range_zero, zero_add]
  interval_cases c
  · rw [one 0 0 (by omega) (by intro k; simp only [portIdx]; simp; try omega),
      one 1 (g.n - 1) (by omega) (by intro k; simp only [portIdx]; norm_num; omega),
      none 2 (by intro k; simp only [portIdx]; norm_num; omega),
      none 3 (by intro k; simp only [portIdx]; norm_num; omega)]
    ring
  · rw [none 0 (by intro k; simp only [portIdx]; norm_num),
      none 1 (by intro k; simp only [portIdx]; norm_num; omega),
      one 2 0 (by omega) (by intro k; simp only [portIdx]; simp; try omega),
      one 3 (g.n - 1) (by omega) (by intro k; simp only [portIdx]; norm_num; omega)]
    ring

/-- No port belongs to a cell of the wall. -/
theorem no_port_wall (i k : ℕ) (hn : 1 ≤ g.n) : portIdx g i ≠ k * 3 + 1 := by
  unfold portIdx
  split_ifs <;> omega

/-- Advection through one side: what enters minus what leaves. -/
theorem adv_side (h hp : ℕ → K) (c : ℕ) (hn : 1 ≤ g.n) :
    ∑ k ∈ range g.n, (dmTop s c k * (h k - h (k + 1)) + dmBot g s c k * (h (k + 2) - h (k + 1)))
      + (dmPort s (2 * c) * (hp (2 * c) - h 1) + dmPort s (2 * c + 1) * (hp (2 * c + 1) - h g.n)) =
    |s.dm c| * ((if 0 ≤ s.dm c then hp (2 * c) else hp (2 * c + 1)) - (if 0 ≤ s.dm c then h g.n else h 1)) := by
  obtain ⟨N, hN⟩ : ∃ N, g.n = N + 1 := ⟨g.n - 1, by omega⟩
  have e1 : 2 * c % 2 = 0 := by omega
  have e2 : 2 * c / 2 = c := by omega
  have e3 : ¬ (2 * c + 1) % 2 = 0 := by omega
  have e4 : (2 * c + 1) / 2 = c := by omega
  simp only [dmPort, e1, e2, e3, e4, if_true, if_false]
  by_cases hd : 0 ≤ s.dm c
  · simp only [dmTop, dmBot, hd, if_true, ite_self, zero_mul, add_zero, abs_of_nonneg hd]
    rw [hN, sum_range_succ']
    simp only [Nat.add_eq_zero_iff, one_ne_zero, and_false, if_false, if_true, zero_mul, add_zero]
    have := sum_range_sub' (fun k => h (k + 1)) N
    simp only [zero_add] at this
    rw [← mul_sum, this]
    ring
  · have hd' : s.dm c < 0 := not_le.1 hd
    simp only [dmTop, dmBot, hd, if_false, ite_self, zero_mul, zero_add, abs_of_neg hd', hN, Nat.add_right_cancel_iff]
    rw [sum_range_succ]
    simp only [if_true, zero_mul, add_zero]
    have e : ∀ k ∈ range N, (if k = N then 0 else -s.dm c) * (h (k + 2) - h (k + 1)) =
        -s.dm c * (h (k + 1 + 1) - h (k + 1)) := by
      intro k hk
      rw [if_neg (by have := mem_range.1 hk; omega)]
    rw [sum_congr rfl e, ← mul_sum]
    have := sum_range_sub (fun k => h (k + 1)) N
    simp only [zero_add] at this
    rw [this]
    ring

/-- Heat flow from side `c` into the wall. -/
def wallHeat (c : ℕ) : K := ∑ k ∈ range g.n, ua2 g s k (c + 1) * (T s k (2 * c) - T s k 1)

/-- Heat flow into a cell of side `c`. -/
theorem cell_balance {c : ℕ} (hc : c < 2) (k : ℕ) (hm' : mcp mat g s k (2 * c) ≠ 0) :
    mcp mat g s k (2 * c) * dT mat g s k (2 * c) =
      (ua1 mat g s k (2 * c) * (s.ext k (2 * c + 1) - s.ext (k + 1) (2 * c + 1))
        + ua1 mat g s (k + 1) (2 * c) * (s.ext (k + 2) (2 * c + 1) - s.ext (k + 1) (2 * c + 1)))
      - ua2 g s k (c + 1) * (T s k (2 * c) - T s k 1)
      + (∑ i ∈ range 4, if portIdx g i = k * 3 + 2 * c then
          uaPort mat g s i * ((s.port i).T - T s k (2 * c)) else 0)
      + (dmTop s c k * (mat.cp (s.ext k (2 * c + 1)) * s.ext k (2 * c + 1)
            - mat.cp (s.ext (k + 1) (2 * c + 1)) * s.ext (k + 1) (2 * c + 1))
        + dmBot g s c k * (mat.cp (s.ext (k + 2) (2 * c + 1)) * s.ext (k + 2) (2 * c + 1)
            - mat.cp (s.ext (k + 1) (2 * c + 1)) * s.ext (k + 1) (2 * c + 1))) / divisor g c
      + (∑ i ∈ range 4, if portIdx g i = k * 3 + 2 * c then
          dmPort s i * (mat.cp (s.port i).T * (s.port i).T
            - mat.cp (T s k (2 * c)) * T s k (2 * c)) else 0) / divisor g c := by
  have hj : 2 * c ≠ 1 := by omega
  have hs : side (2 * c) = c := by unfold side; omega
  have hw : ua2 g s k (2 * c) * (s.ext (k + 1) (2 * c) - s.ext (k + 1) (2 * c + 1))
      + ua2 g s k (2 * c + 1) * (s.ext (k + 1) (2 * c + 2) - s.ext (k + 1) (2 * c + 1)) =
      - (ua2 g s k (c + 1) * (T s k (2 * c) - T s k 1)) := by
    interval_cases c
    · simp [ua2, T]; ring
    · simp [ua2, T]; ring
  have p1 : mcp mat g s k (2 * c) * ∑ i ∈ range 4, (if portIdx g i = k * 3 + 2 * c then
        uaPort mat g s i * ((s.port i).T - T s k (2 * c)) / mcp mat g s k (2 * c) else 0) =
      ∑ i ∈ range 4, if portIdx g i = k * 3 + 2 * c then
        uaPort mat g s i * ((s.port i).T - T s k (2 * c)) else 0 := by
    rw [mul_sum]
    refine sum_congr rfl fun i _ => ?_
    by_cases h : portIdx g i = k * 3 + 2 * c
    · rw [if_pos h, if_pos h]; field_simp
    · rw [if_neg h, if_neg h, mul_zero]
  have p2 : mcp mat g s k (2 * c) * ∑ i ∈ range 4, (if portIdx g i = k * 3 + 2 * c then
        dmPort s i * (mat.cp (s.port i).T * (s.port i).T - ui mat g s k (2 * c)) / mcp mat g s k (2 * c) else 0) =
      ∑ i ∈ range 4, if portIdx g i = k * 3 + 2 * c then
        dmPort s i * (mat.cp (s.port i).T * (s.port i).T - mat.cp (T s k (2 * c)) * T s k (2 * c)) else 0 := by
    rw [mul_sum]
    refine sum_congr rfl fun i _ => ?_
    by_cases h : portIdx g i = k * 3 + 2 * c
    · rw [if_pos h, if_pos h, ui, if_neg hj]; field_simp
    · rw [if_neg h, if_neg h, mul_zero]
  have p3 : ∀ a b d : K, mcp mat g s k (2 * c) * ((a / mcp mat g s k (2 * c) + b) / d) =
      a / d + mcp mat g s k (2 * c) * b / d := by
    intro a b d
    rw [← mul_div_assoc, mul_add, mul_div_cancel₀ _ hm', add_div]
  simp only [dT, dTcond, dTadv, if_neg hj, hs]
  rw [mul_add, mul_add, mul_div_cancel₀ _ hm', p1, p3, p2]
  simp only [ui, if_neg hj]
  have : ∀ a b w1 w2 r q t z : K, w1 + w2 = z → a + b + w1 + w2 + r + (q + t) = (a + b) + z + r + q + t := by
    intro a b w1 w2 r q t z h
    rw [← h]; ring
  rw [this _ _ _ _ _ _ _ _ hw]
  simp only [T]
  ring

/-- Balance of the water of side `c`. -/
theorem side_balance {c : ℕ} (hc : c < 2) (hn : 1 ≤ g.n) (hm : ∀ k < g.n, mcp mat g s k (2 * c) ≠ 0) :
    ∑ k ∈ range g.n, mcp mat g s k (2 * c) * dT mat g s k (2 * c) =
      heatGiven mat g s c / divisor g c + portHeat mat g s c - wallHeat g s c := by
  rw [sum_congr rfl fun k hk => cell_balance mat g s hc k (hm k (mem_range.1 hk))]
  simp only [sum_add_distrib, sum_sub_distrib, ← sum_div]
  rw [← sum_add_distrib, conduction_telescopes (fun k => ua1 mat g s k (2 * c)) (fun k => s.ext k (2 * c + 1)) g.n
      (by simp [ua1]) (by simp [ua1]),
    sum_ports g (fun i k => uaPort mat g s i * ((s.port i).T - T s k (2 * c))) hc hn,
    sum_ports g (fun i k => dmPort s i * (mat.cp (s.port i).T * (s.port i).T
            - mat.cp (T s k (2 * c)) * T s k (2 * c))) hc hn, ← sum_add_distrib]
  have ad := adv_side g s (fun k => mat.cp (s.ext k (2 * c + 1)) * s.ext k (2 * c + 1))
    (fun i => mat.cp (s.port i).T * (s.port i).T) c hn
  have hg : heatGiven mat g s c = |s.dm c| * ((if 0 ≤ s.dm c then mat.cp (s.port (2 * c)).T * (s.port (2 * c)).T
      else mat.cp (s.port (2 * c + 1)).T * (s.port (2 * c + 1)).T) -
      (if 0 ≤ s.dm c then mat.cp (s.ext g.n (2 * c + 1)) * s.ext g.n (2 * c + 1)
        else mat.cp (s.ext 1 (2 * c + 1)) * s.ext 1 (2 * c + 1))) := by
    unfold heatGiven inletT outletT
    split_ifs <;> rfl
  rw [hg, ← ad]
  have hT0 : T s 0 (2 * c) = s.ext 1 (2 * c + 1) := rfl
  have hTn : T s (g.n - 1) (2 * c) = s.ext g.n (2 * c + 1) := by
    unfold T; rw [Nat.sub_add_cancel hn]
  simp only [hT0, hTn, portHeat, wallHeat]
  ring

/-- Balance of the wall. -/
theorem wall_balance (hn : 1 ≤ g.n) (hm : g.mcpWll ≠ 0) :
    ∑ k ∈ range g.n, g.mcpWll * dT mat g s k 1 = wallHeat g s 0 + wallHeat g s 1 := by
  have e : ∀ k ∈ range g.n, g.mcpWll * dT mat g s k 1 =
      (ua1 mat g s k 1 * (s.ext k 2 - s.ext (k + 1) 2) + ua1 mat g s (k + 1) 1 * (s.ext (k + 2) 2 - s.ext (k + 1) 2))
      + (ua2 g s k (0 + 1) * (T s k (2 * 0) - T s k 1) + ua2 g s k (1 + 1) * (T s k (2 * 1) - T s k 1)) := by
    intro k _
    have : ∑ i ∈ range 4, (if portIdx g i = k * 3 + 1 then
        uaPort mat g s i * ((s.port i).T - T s k 1) / g.mcpWll else 0) = 0 :=
      sum_eq_zero fun i _ => if_neg (no_port_wall g i k hn)
    simp only [dT, dTcond, dTadv, mcp, if_true, this, add_zero]
    rw [mul_div_cancel₀ _ hm]
    simp only [T]
    ring
  rw [sum_congr rfl e, sum_add_distrib, conduction_telescopes (fun k => ua1 mat g s k 1) (fun k => s.ext k 2) g.n
      (by simp [ua1]) (by simp [ua1]), sum_add_distrib, zero_add]
  rfl

/-! ## Witness -/

/-- Water with constant properties. -/
def exMat : Mat ℚ := ⟨fun _ => 1, fun _ => 1, fun _ => 1⟩
/-- Two plates more than needed for two supply channels and one demand channel; one row of cells. -/
def exGeo : Geo ℚ := ⟨1, 2, 1, 1, 1, 1, 2, 2, 1, 1, 1, 1⟩
/-- Water of 10 degC enters the supply side, water of 0 degC the demand side; ports without conduction. -/
def exInp : Inp ℚ :=
  ⟨fun _ j => if j = 1 then 15 / 2 else if j = 2 then 5 else if j = 3 then 5 / 2 else 0,
    fun c => if c = 0 then 2 else 1, fun _ _ => 1, fun i => if i < 2 then ⟨10, 0, 1, 0⟩ else ⟨0, 0, 1, 0⟩, fun _ => 1⟩

theorem ex_steady : Steady exMat exGeo exInp := by
  have : ∀ k < 1, ∀ j < 3, dT exMat exGeo exInp k j = 0 := by decide +kernel
  exact this

/-! ## C83 -/

/-- Heat capacity of a cell: volume, density and specific heat capacity of the water in it, or what is given for the
wall. -/
def heatCap (k j : ℕ) : K :=
  if j = 1 then g.mcpWll else g.vCell * mat.rho (s.ext (k + 1) (j + 1)) * mat.cp (s.ext (k + 1) (j + 1))

theorem mcp_eq (k j : ℕ) : mcp mat g s k j = heatCap mat g s k j := by
  unfold mcp heatCap T
  split_ifs <;> ring

/-- **C83** (`_partial`: a pair of channels, not the whole exchanger): at every moment the heat content of one
supply channel, one wall and one demand channel together changes by what the water of *one* channel of each side
leaves behind and by what is conducted through the ports.  Missing: the same for all channels together, which is
false (`C83_fails_one_pass`). -/
theorem C83_channel_balance_partial (hn : 1 ≤ g.n) (hm : ∀ k < g.n, ∀ j < 3, heatCap mat g s k j ≠ 0) :
    ∑ k ∈ range g.n, ∑ j ∈ range 3, heatCap mat g s k j * dT mat g s k j =
      heatGiven mat g s 0 / g.chSup + heatGiven mat g s 1 / g.chDmd + portHeat mat g s 0 + portHeat mat g s 1 := by
  simp only [← mcp_eq] at hm ⊢
  have b0 := side_balance mat g s (c := 0) (by omega) hn (fun k hk => hm k hk 0 (by omega))
  have b1 := side_balance mat g s (c := 1) (by omega) hn (fun k hk => hm k hk 2 (by omega))
  have hw : g.mcpWll ≠ 0 := by simpa [mcp] using hm 0 (by omega) 1 (by omega)
  have bw := wall_balance mat g s hn hw
  simp only [sum_range_succ, sum_range_zero, zero_add, sum_add_distrib]
  simp only [mul_zero, mul_one, divisor, if_true, one_ne_zero, if_false] at b0 b1
  have : ∀ k, mcp mat g s k 1 = g.mcpWll := fun k => by simp [mcp]
  simp only [this]
  rw [b0, bw, b1]
  ring

example : 1 ≤ exGeo.n ∧ ∀ k < exGeo.n, ∀ j < 3, heatCap exMat exGeo exInp k j ≠ 0 := by decide +kernel

/-- **C83** (`_partial`: in place of equality, the ratio): in a steady state without conduction through the ports
the heat given up on the two sides is in the ratio of the numbers of channels. -/
theorem C83_steady_ratio_partial (hn : 1 ≤ g.n) (hm : ∀ k < g.n, ∀ j < 3, mcp mat g s k j ≠ 0) (hs : g.chSup ≠ 0)
    (hd : g.chDmd ≠ 0) (h : Steady mat g s) (hp : portHeat mat g s 0 + portHeat mat g s 1 = 0) :
    heatGiven mat g s 0 * g.chDmd + heatGiven mat g s 1 * g.chSup = 0 := by
  have b := C83_channel_balance_partial mat g s hn (by simpa only [mcp_eq] using hm)
  rw [sum_eq_zero (fun k hk => sum_eq_zero fun j hj => by
    rw [h k (mem_range.1 hk) j (mem_range.1 hj), mul_zero]), add_assoc, hp, add_zero] at b
  field_simp at b
  linear_combination -b

/-- **C83** (`_partial`: for equal numbers of channels, that is for two or more passes): in a steady state the
demand side takes up exactly the heat the supply side gives up. -/
theorem C83_steady_equal_partial (hn : 1 ≤ g.n) (hm : ∀ k < g.n, ∀ j < 3, mcp mat g s k j ≠ 0) (hs : g.chSup ≠ 0)
    (he : g.chSup = g.chDmd) (h : Steady mat g s) (hp : portHeat mat g s 0 + portHeat mat g s 1 = 0) :
    heatGiven mat g s 0 = -heatGiven mat g s 1 := by
  have b := C83_steady_ratio_partial mat g s hn hm hs (he ▸ hs) h hp
  rw [← he] at b
  have : (heatGiven mat g s 0 + heatGiven mat g s 1) * g.chSup = 0 := by linear_combination b
  rcases mul_eq_zero.1 this with h0 | h0
  · linear_combination h0
  · exact absurd h0 hs

/-- Two or more passes: the numbers of channels are equal. -/
theorem channels_passes {plates passes : ℤ} {side : Side} {a b : ℤ} (hp : 2 ≤ passes)
    (h : channels plates passes side = some (a, b)) : a = b := by
  unfold channels at h
  rw [if_neg (by omega), if_neg (by omega)] at h
  split_ifs at h
  simp only [Option.some.injEq, Prod.mk.injEq] at h
  rw [← h.1, ← h.2]

/-- One pass: the numbers of channels differ by one. -/
theorem channels_one_pass {plates : ℤ} {side : Side} {a b : ℤ} (h : channels plates 1 side = some (a, b)) :
    a ≠ b := by
  unfold channels at h
  rw [if_neg (by omega), if_pos rfl] at h
  split_ifs at h
  cases side <;> simp only [Option.some.injEq, Prod.mk.injEq] at h <;> omega

/-- **C83 fails** for every exchanger with one pass: whenever heat is transferred in a steady state, the demand
side does not take up the heat which the supply side gives up. -/
theorem C83_fails_one_pass (hn : 1 ≤ g.n) (hm : ∀ k < g.n, ∀ j < 3, mcp mat g s k j ≠ 0) {plates : ℤ} {side : Side}
    {a b : ℤ} (hc : channels plates 1 side = some (a, b)) (ha : 0 < a) (hb : 0 < b) (hs : g.chSup = a)
    (hd : g.chDmd = b) (h : Steady mat g s) (hp : portHeat mat g s 0 + portHeat mat g s 1 = 0)
    (hq : heatGiven mat g s 0 ≠ 0) : heatGiven mat g s 0 ≠ -heatGiven mat g s 1 := by
  intro he
  have ha' : (a : K) ≠ 0 := Int.cast_ne_zero.2 ha.ne'
  have hb' : (b : K) ≠ 0 := Int.cast_ne_zero.2 hb.ne'
  have r := C83_steady_ratio_partial mat g s hn hm (hs ▸ ha') (hd ▸ hb') h hp
  rw [hs, hd] at r
  have : heatGiven mat g s 0 * ((b : K) - a) = 0 := by linear_combination r - (a : K) * he
  rcases mul_eq_zero.1 this with h0 | h0
  · exact hq h0
  · exact channels_one_pass hc (Int.cast_injective (sub_eq_zero.1 h0)).symm

example : channels 4 1 .supply = some (2, 1) ∧ exGeo.chSup = (2 : ℤ) ∧ exGeo.chDmd = (1 : ℤ) ∧
    portHeat exMat exGeo exInp 0 + portHeat exMat exGeo exInp 1 = 0 ∧ heatGiven exMat exGeo exInp 0 = 5 ∧
    heatGiven exMat exGeo exInp 1 = -(5 / 2) := by
  decide +kernel

/-! ## C84 -/

/-- **C84 fails**: the conductance between a side and the wall, summed over the cells, is proportional to the
number of grid points: every cell gets the area of the whole plate. -/
theorem C84_total_conductance {side : ℕ} (hside : side < 2) {alpha : K} (hα : ∀ k < g.n, s.alpha k side = alpha) :
    ∑ k ∈ range g.n, ua2 g s k (side + 1) = g.n * (g.aPlate / (1 / alpha + g.sPlate / 2 / g.lamWll)) := by
  rw [sum_congr rfl fun k hk => show ua2 g s k (side + 1) = g.aPlate / (1 / alpha + g.sPlate / 2 / g.lamWll) by
    unfold ua2
    rw [if_pos (by omega), Nat.add_sub_cancel, hα k (mem_range.1 hk)], sum_const, card_range, nsmul_eq_mul]

/-- **C84 fails**: two descriptions of the same exchanger which differ only in the discretisation have different
total conductances. -/
theorem C84_fails_grid (g' : Geo K) (s' : Inp K) {side : ℕ} (hside : side < 2) {alpha : K}
    (hα : ∀ k < g.n, s.alpha k side = alpha) (hα' : ∀ k < g'.n, s'.alpha k side = alpha) (h0 : 0 < alpha) (hA : 0 < g.aPlate) (hs : 0 ≤ g.sPlate)
    (hl : 0 < g.lamWll) (eA : g'.aPlate = g.aPlate) (es : g'.sPlate = g.sPlate) (el : g'.lamWll = g.lamWll)
    (hn : g.n ≠ g'.n) :
    ∑ k ∈ range g.n, ua2 g s k (side + 1) ≠ ∑ k ∈ range g'.n, ua2 g' s' k (side + 1) := by
  rw [C84_total_conductance g s hside hα, C84_total_conductance g' s' hside hα', eA, es, el]
  have : g.aPlate / (1 / alpha + g.sPlate / 2 / g.lamWll) ≠ 0 := by positivity
  intro h
  exact hn (Nat.cast_injective (mul_right_cancel₀ this h))

example : (∀ k < exGeo.n, exInp.alpha k 0 = 1) ∧ 0 < exGeo.aPlate ∧ 0 ≤ exGeo.sPlate ∧ 0 < exGeo.lamWll ∧
    exGeo.n ≠ 2 ∧ ∑ k ∈ range exGeo.n, ua2 exGeo exInp k 1 = 1 ∧
    ∑ k ∈ range 2, ua2 { exGeo with n := 2 } exInp k 1 = 2 := by
  decide +kernel

/-! ## C85 -/

/-- **C85 fails**: a number of plates is accepted for which one side has no channel; its flow is then divided
by zero. -/
theorem C85_fails_two_plates : channels 2 1 .supply = some (1, 0) ∧ channels 1 2 .supply = some (0, 0) ∧
    channels 0 1 .supply = some (0, -1) := by decide

/-- **C85** (`_partial`: for more than four plates, as the error message demands but the check does not): every
side has a channel. -/
theorem C85_documented_partial {plates passes : ℤ} {side : Side} {a b : ℤ} (hp : 4 < plates)
    (h : channels plates passes side = some (a, b)) : 0 < a ∧ 0 < b := by
  unfold channels at h
  split_ifs at h with h1 h2 h3 h4
  · cases side <;> simp only [Option.some.injEq, Prod.mk.injEq] at h <;> omega
  · simp only [Option.some.injEq, Prod.mk.injEq] at h
    have : 0 < (plates - 1) / (2 * passes) := by
      obtain ⟨q, hq⟩ := Int.dvd_of_emod_eq_zero h4
      rw [hq, Int.mul_ediv_cancel_left _ (by omega)]
      by_contra hq0
      have : 2 * passes * q ≤ 0 := mul_nonpos_of_nonneg_of_nonpos (by omega) (by omega)
      omega
    omega

example : channels 6 1 .demand = some (2, 3) ∧ channels 9 2 .supply = some (2, 2) := by decide

/-- C51 in the numeric heat exchanger: the water on both sides of a face conducts like two half cells in series, with
the cross section of a channel. -/
theorem C51_numeric (k j : ℕ) (hk : k + 1 < g.n) (hj : j ≠ 1) (hA : 0 < g.aChannel) (hgs : 0 < g.gs)
    (h1 : 0 < mat.lam (T s k j)) (h2 : 0 < mat.lam (T s (k + 1) j)) :
    1 / ua1 mat g s (k + 1) j =
      g.gs / 2 / (g.aChannel * mat.lam (T s k j)) + g.gs / 2 / (g.aChannel * mat.lam (T s (k + 1) j)) := by
  unfold ua1 lamMean
  rw [if_neg (by omega), if_neg hj, Nat.add_sub_cancel]
  have := add_pos h1 h2
  field_simp
  ring

example : ua1 (⟨fun _ => 1, fun _ => 1, fun T => T⟩ : Mat ℚ) ⟨2, 1, 1, 1, 4, 2, 1, 1, 1, 1, 1, 1⟩
    ⟨fun k _ => if k = 1 then 1 else 3, fun _ => 0, fun _ _ => 1, fun _ => ⟨0, 0, 1, 0⟩, fun _ => 0⟩ 1 0 = 3 := by
  decide +kernel

end Verif.HexNum
