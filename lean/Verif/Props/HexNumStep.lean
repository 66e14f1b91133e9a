import Verif.Props.HexNumMax
import Verif.Props.MaxPrinciple
import Verif.Props.Water

/-!
# C87 and C88: ports and stability of the numeric plate heat exchanger
-/

set_option linter.unusedSectionVars false

namespace Verif.HexNum

open Finset
open Verif.Cells (Mat lamMean Pull EnthalpySlope enthalpy)

variable {K : Type*} [Field K] [LinearOrder K] [IsStrictOrderedRing K]
variable (mat : Mat K) (g : Geo K) (s : Inp K)

/-- **C86** for water: the hypothesis on the enthalpy holds. -/
theorem C86_water (g : Geo ℝ) (s : Inp ℝ) (h : Physical Water.water g s)
    (hst : Steady Water.water g s) {c0 : ℕ} (hc0 : c0 < 2) (hdm : s.dm c0 ≠ 0) {lo hi : ℝ}
    (hlo : ∀ i < 4, lo ≤ (s.port i).T) (hhi : ∀ i < 4, (s.port i).T ≤ hi) :
    ∀ k < g.n, ∀ j < 3, lo ≤ T s k j ∧ T s k j ≤ hi :=
  C86_steady_between_ports Water.water g s h Water.enth_strictMono hst hc0 hdm hlo hhi

/-! ## C87 -/

/-- **C87** (`_partial`: only the first port of the supply side, and its second port if there is one row of cells):
the conduction between a port and its cell is made of the conductivities of both.  Missing: the other ports, for
which it is false (`C87_fails_other_cell`, `C87_fails_memory`). -/
theorem C87_first_port_partial (hn : 1 ≤ g.n) :
    uaPort mat g s 0 = portConductance mat g s 0 ∧
      (g.n = 1 → uaPort mat g s 1 = portConductance mat g s 1) := by
  constructor
  · simp [uaPort, portConductance, portRow, lamFlat, portIdx, show 0 < 2 * g.n by omega]
  · intro h
    simp [uaPort, portConductance, portRow, lamFlat, portIdx, h]

/-- **C87** fails: the demand side's inlet uses the conductivity of the second cell of the *supply* side, and with
two rows the supply side's outlet uses that of a cell of the *demand* side. -/
theorem C87_fails_other_cell (hn : 2 ≤ g.n) :
    uaPort mat g s 2 = (s.port 2).area / ((s.port 2).gsp / (2 * mat.lam (s.port 2).T)
        + g.gs / (2 * mat.lam (T s 1 0))) + (s.port 2).uaWll ∧
    (g.n = 2 → uaPort mat g s 1 = (s.port 1).area / ((s.port 1).gsp / (2 * mat.lam (s.port 1).T)
        + g.gs / (2 * mat.lam (T s 1 2))) + (s.port 1).uaWll) := by
  constructor
  · simp [uaPort, lamFlat, portIdx, show 2 < 2 * g.n by omega]
  · intro h
    simp [uaPort, lamFlat, portIdx, h]

theorem uaPort_junk (hn : 1 ≤ g.n) (harea : 0 < (s.port 3).area) (hgsp : 0 ≤ (s.port 3).gsp)
    (hlam : 0 < mat.lam (s.port 3).T) (hgs : 0 < g.gs) :
    uaPort mat g { s with junk := fun _ => 1 } 3 ≠ uaPort mat g { s with junk := fun _ => 2 } 3 := by
  have h3 : ¬ g.n * 3 - 1 < 2 * g.n := by omega
  have i3 : portIdx g 3 = g.n * 3 - 1 := by simp [portIdx]
  simp only [uaPort, lamFlat, i3, if_neg h3, ne_eq, add_left_inj]
  have h1 : 0 ≤ (s.port 3).gsp / (2 * mat.lam (s.port 3).T) := by positivity
  have h2 : g.gs / (2 * 2) < g.gs / (2 * 1) := div_lt_div_of_pos_left hgs (by norm_num) (by norm_num)
  exact (div_lt_div_of_pos_left harea (by positivity) (by linarith)).ne

/-- **C87** fails: the change of temperature in the last cell of the demand side is not a function of the
temperatures and flows.  Whatever the exchanger is like, two contents of the memory behind the array give different
results, as soon as port and cell differ in temperature. -/
theorem C87_fails_memory (hn : 2 ≤ g.n) (harea : 0 < (s.port 3).area) (hgsp : 0 ≤ (s.port 3).gsp)
    (hlam : 0 < mat.lam (s.port 3).T) (hgs : 0 < g.gs) (hm : mcp mat g s (g.n - 1) 2 ≠ 0)
    (hT : (s.port 3).T ≠ T s (g.n - 1) 2) :
    ∃ j1 j2 : ℕ → K, (∀ i, 0 < j1 i ∧ 0 < j2 i) ∧
      dT mat g { s with junk := j1 } (g.n - 1) 2 ≠ dT mat g { s with junk := j2 } (g.n - 1) 2 := by
  refine ⟨fun _ => 1, fun _ => 2, fun _ => ⟨one_pos, two_pos⟩, fun e => ?_⟩
  have b1 := cell_balance mat g { s with junk := fun _ => 1 } (c := 1) (by omega) (g.n - 1) hm
  have b2 := cell_balance mat g { s with junk := fun _ => 2 } (c := 1) (by omega) (g.n - 1) hm
  have hp0 : portIdx g 0 ≠ (g.n - 1) * 3 + 2 * 1 := by simp [portIdx]
  have hp1 : portIdx g 1 ≠ (g.n - 1) * 3 + 2 * 1 := by simp [portIdx]
  have hp2 : portIdx g 2 ≠ (g.n - 1) * 3 + 2 * 1 := by simp [portIdx]; omega
  have hp3 : portIdx g 3 = (g.n - 1) * 3 + 2 * 1 := by simp [portIdx]; omega
  simp only [sum_range_succ, sum_range_zero, zero_add, if_neg hp0, if_neg hp1, if_neg hp2, if_pos hp3] at b1 b2
  have em : mcp mat g { s with junk := fun _ => 1 } (g.n - 1) (2 * 1)
      = mcp mat g { s with junk := fun _ => 2 } (g.n - 1) (2 * 1) := rfl
  have ed : mcp mat g { s with junk := fun _ => 1 } (g.n - 1) (2 * 1)
        * dT mat g { s with junk := fun _ => 1 } (g.n - 1) (2 * 1)
      = mcp mat g { s with junk := fun _ => 2 } (g.n - 1) (2 * 1)
        * dT mat g { s with junk := fun _ => 2 } (g.n - 1) (2 * 1) := by
    rw [em]; exact congrArg _ e
  rw [b1, b2] at ed
  simp only [ua1, ua2, T, dmTop, dmBot, dmPort] at ed
  have key : (uaPort mat g { s with junk := fun _ => 1 } 3 - uaPort mat g { s with junk := fun _ => 2 } 3)
      * ((s.port 3).T - T s (g.n - 1) 2) = 0 := by
    unfold T
    linear_combination ed
  rcases mul_eq_zero.1 key with k | k
  · exact uaPort_junk mat g s (by omega) harea hgsp hlam hgs (sub_eq_zero.1 k)
  · exact hT (sub_eq_zero.1 k)

/-- Two rows of cells, ports with conduction, the last port warmer than its cell. -/
def exInp2 : Inp ℚ :=
  ⟨fun _ _ => 5, fun _ => 1, fun _ _ => 1, fun i => ⟨i, 1, 1, 0⟩, fun _ => 1⟩

example : 2 ≤ ({ exGeo with n := 2 } : Geo ℚ).n ∧ 0 < (exInp2.port 3).area ∧ 0 ≤ (exInp2.port 3).gsp ∧
    0 < exMat.lam (exInp2.port 3).T ∧ 0 < exGeo.gs ∧ mcp exMat { exGeo with n := 2 } exInp2 1 2 ≠ 0 ∧
    (exInp2.port 3).T ≠ T exInp2 1 2 := by decide +kernel

/-! ## C88 -/

/-- The ports at a cell. -/
theorem ports_at (f : ℕ → K) {c : ℕ} (hc : c < 2) (hn : 1 ≤ g.n) {k : ℕ} (hk : k < g.n) :
    (∑ i ∈ range 4, if portIdx g i = k * 3 + 2 * c then f i else 0) =
      (if k = 0 then f (2 * c) else 0) + (if k + 1 = g.n then f (2 * c + 1) else 0) := by
  simp only [sum_range_succ, sum_range_zero, zero_add]
  have e0 : portIdx g 0 = 0 := by simp [portIdx]
  have e1 : portIdx g 1 = (g.n - 1) * 3 := by simp [portIdx]
  have e2 : portIdx g 2 = 2 := by simp [portIdx]
  have e3 : portIdx g 3 = g.n * 3 - 1 := by simp [portIdx]
  rw [e0, e1, e2, e3]
  interval_cases c
  · rw [if_neg (show ¬ 2 = k * 3 + 2 * 0 by omega), if_neg (show ¬ g.n * 3 - 1 = k * 3 + 2 * 0 by omega)]
    have a : (0 = k * 3 + 2 * 0) = (k = 0) := by apply propext; omega
    have b : ((g.n - 1) * 3 = k * 3 + 2 * 0) = (k + 1 = g.n) := by apply propext; omega
    simp only [a, b]; ring
  · rw [if_neg (show ¬ 0 = k * 3 + 2 * 1 by omega), if_neg (show ¬ (g.n - 1) * 3 = k * 3 + 2 * 1 by omega)]
    have a : (2 = k * 3 + 2 * 1) = (k = 0) := by apply propext; omega
    have b : (g.n * 3 - 1 = k * 3 + 2 * 1) = (k + 1 = g.n) := by apply propext; omega
    simp only [a, b]; ring

/-- The water that enters a cell is what flows through its side. -/
theorem inflow_eq {c : ℕ} (hc : c < 2) (hn : 1 ≤ g.n) {k : ℕ} (hk : k < g.n) :
    dmTop s c k + dmBot g s c k + (∑ i ∈ range 4, if portIdx g i = k * 3 + 2 * c then dmPort s i else 0) = |s.dm c| := by
  rw [ports_at g (dmPort s) hc hn hk]
  have e1 : (2 * c) % 2 = 0 := by omega
  have e2 : (2 * c) / 2 = c := by omega
  have e3 : ¬ (2 * c + 1) % 2 = 0 := by omega
  have e4 : (2 * c + 1) / 2 = c := by omega
  simp only [dmTop, dmBot, dmPort, e1, e2, e3, e4, if_true, if_false]
  rcases le_or_gt 0 (s.dm c) with h | h
  · simp only [if_pos h, abs_of_nonneg h]
    split_ifs <;> simp
  · simp only [if_neg (not_le.2 h), abs_of_neg h]
    split_ifs <;> simp


/-- **C88** (`_partial`: under a bound on the step which differs from the one the code checks): if all temperatures
the exchanger sees lie between `m` and `M`, one explicit step leaves every cell between `m` and `M`, provided the step
times everything connected to a cell does not exceed the cell's heat capacity.  `L` bounds the specific heat.
Missing: that a step which passes the code's own check is short enough, which is false
(`C88_fails_checked_step`). -/
theorem C88_no_new_extreme_partial (hph : Physical mat g s) {m M L h : K} (hw : Within g s m M)
    (hL : EnthalpySlope mat m M L) (hL0 : 0 ≤ L) (hh : 0 ≤ h)
    (hfl : ∀ k < g.n, ∀ c < 2, h * fluidLoad mat g s L k c ≤ mcp mat g s k (2 * c))
    (hwl : ∀ k < g.n, h * wallLoad mat g s k ≤ g.mcpWll) :
    ∀ k < g.n, ∀ j < 3, m ≤ eulerStep mat g s h k j ∧ eulerStep mat g s h k j ≤ M := by
  have hn := hph.n
  have up : ∀ k < g.n, ∀ j < 3, ∀ u : ℕ → K, u 0 = 0 → 0 ≤ u k →
      Pull (T s k j) m M (u k) (u k * (s.ext k (j + 1) - T s k j)) := by
    intro k hk j hj u u0 uk
    rcases Nat.eq_zero_or_pos k with e | e
    · subst e; rw [u0, zero_mul]; exact Pull.zero _ _ _
    · have := hw.cells (k - 1) (by omega) j hj
      unfold T at this
      rw [Nat.sub_add_cancel e] at this
      exact Pull.cond uk this.1 this.2
  have down : ∀ k < g.n, ∀ j < 3, ∀ u : ℕ → K, u g.n = 0 → 0 ≤ u (k + 1) →
      Pull (T s k j) m M (u (k + 1)) (u (k + 1) * (s.ext (k + 2) (j + 1) - T s k j)) := by
    intro k hk j hj u un uk
    rcases Nat.lt_or_ge (k + 1) g.n with e | e
    · have := hw.cells (k + 1) e j hj
      unfold T at this
      exact Pull.cond uk this.1 this.2
    · have e : k + 1 = g.n := by omega
      rw [e, un, zero_mul]; exact Pull.zero _ _ _
  -- cells with water
  have fluid : ∀ k < g.n, ∀ c < 2, m ≤ eulerStep mat g s h k (2 * c) ∧ eulerStep mat g s h k (2 * c) ≤ M := by
    intro k hk c hc
    have hm := hph.mcp_pos hk (j := 2 * c) (by omega)
    have hb := cell_balance mat g s hc k hm.ne'
    have hT := hw.cells k hk (2 * c) (by omega)
    have hdiv : 0 < divisor g c := by
      unfold divisor; split_ifs
      · exact hph.chSup
      · exact hph.chDmd
    have p1 := up k hk (2 * c) (by omega) (fun k => ua1 mat g s k (2 * c)) (by simp [ua1])
      (hph.ua1_nonneg hk.le (by omega))
    have p2 := down k hk (2 * c) (by omega) (fun k => ua1 mat g s k (2 * c)) (by simp [ua1])
      (hph.ua1_nonneg (by omega) (by omega))
    have p3 : Pull (T s k (2 * c)) m M (ua2 g s k (c + 1)) (ua2 g s k (c + 1) * (T s k 1 - T s k (2 * c))) :=
      Pull.cond (hph.ua2_pos hk hc).le (hw.cells k hk 1 (by omega)).1 (hw.cells k hk 1 (by omega)).2
    have q : ∀ i < 4, Pull (T s k (2 * c)) m M (uaPort mat g s i) (uaPort mat g s i * ((s.port i).T - T s k (2 * c))) :=
      fun i hi => Pull.cond (hph.port i hi) (hw.ports i hi).1 (hw.ports i hi).2
    have p4 : Pull (T s k (2 * c)) m M (if k = 0 then uaPort mat g s (2 * c) else 0)
        (if k = 0 then uaPort mat g s (2 * c) * ((s.port (2 * c)).T - T s k (2 * c)) else 0) := by
      split_ifs
      · exact q _ (by omega)
      · exact Pull.zero _ _ _
    have p5 : Pull (T s k (2 * c)) m M (if k + 1 = g.n then uaPort mat g s (2 * c + 1) else 0)
        (if k + 1 = g.n then uaPort mat g s (2 * c + 1) * ((s.port (2 * c + 1)).T - T s k (2 * c)) else 0) := by
      split_ifs
      · exact q _ (by omega)
      · exact Pull.zero _ _ _
    -- advection
    have a1 : Pull (T s k (2 * c)) m M (L * (dmTop s c k / divisor g c)) ((dmTop s c k / divisor g c)
        * (enthalpy mat (s.ext k (2 * c + 1)) - enthalpy mat (T s k (2 * c)))) := by
      rcases Nat.eq_zero_or_pos k with e | e
      · subst e; simp [dmTop, Pull.zero]
      · have := hw.cells (k - 1) (by omega) (2 * c) (by omega)
        unfold T at this
        rw [Nat.sub_add_cancel e] at this
        exact Pull.adv hL (div_nonneg (dmTop_nonneg s c k) hdiv.le) hT this hL0
    have a2 : Pull (T s k (2 * c)) m M (L * (dmBot g s c k / divisor g c)) ((dmBot g s c k / divisor g c)
        * (enthalpy mat (s.ext (k + 2) (2 * c + 1)) - enthalpy mat (T s k (2 * c)))) := by
      by_cases e : k + 1 = g.n
      · simp [dmBot, e, Pull.zero]
      · exact Pull.adv hL (div_nonneg (dmBot_nonneg g s c k) hdiv.le) hT (hw.cells (k + 1) (by omega) (2 * c) (by omega))
          hL0
    have q' : ∀ i < 4, Pull (T s k (2 * c)) m M (L * (dmPort s i / divisor g c)) ((dmPort s i / divisor g c)
        * (enthalpy mat (s.port i).T - enthalpy mat (T s k (2 * c)))) :=
      fun i hi => Pull.adv hL (div_nonneg (dmPort_nonneg s i) hdiv.le) hT (hw.ports i hi) hL0
    have a3 : Pull (T s k (2 * c)) m M (if k = 0 then L * (dmPort s (2 * c) / divisor g c) else 0)
        (if k = 0 then (dmPort s (2 * c) / divisor g c)
          * (enthalpy mat (s.port (2 * c)).T - enthalpy mat (T s k (2 * c))) else 0) := by
      split_ifs
      · exact q' _ (by omega)
      · exact Pull.zero _ _ _
    have a4 : Pull (T s k (2 * c)) m M (if k + 1 = g.n then L * (dmPort s (2 * c + 1) / divisor g c) else 0)
        (if k + 1 = g.n then (dmPort s (2 * c + 1) / divisor g c)
          * (enthalpy mat (s.port (2 * c + 1)).T - enthalpy mat (T s k (2 * c))) else 0) := by
      split_ifs
      · exact q' _ (by omega)
      · exact Pull.zero _ _ _
    have all := (((((((p1.add p2).add p3).add p4).add p5).add a1).add a2).add a3).add a4
    have hload : ua1 mat g s k (2 * c) + ua1 mat g s (k + 1) (2 * c) + ua2 g s k (c + 1)
        + (if k = 0 then uaPort mat g s (2 * c) else 0) + (if k + 1 = g.n then uaPort mat g s (2 * c + 1) else 0)
        + L * (dmTop s c k / divisor g c) + L * (dmBot g s c k / divisor g c)
        + (if k = 0 then L * (dmPort s (2 * c) / divisor g c) else 0)
        + (if k + 1 = g.n then L * (dmPort s (2 * c + 1) / divisor g c) else 0) = fluidLoad mat g s L k c := by
      have := inflow_eq g s hc hn hk
      rw [ports_at g (dmPort s) hc hn hk] at this
      unfold fluidLoad
      rw [← this]
      split_ifs <;> ring
    have hd : dT mat g s k (2 * c) = (ua1 mat g s k (2 * c) * (s.ext k (2 * c + 1) - T s k (2 * c))
        + ua1 mat g s (k + 1) (2 * c) * (s.ext (k + 2) (2 * c + 1) - T s k (2 * c))
        + ua2 g s k (c + 1) * (T s k 1 - T s k (2 * c))
        + (if k = 0 then uaPort mat g s (2 * c) * ((s.port (2 * c)).T - T s k (2 * c)) else 0)
        + (if k + 1 = g.n then uaPort mat g s (2 * c + 1) * ((s.port (2 * c + 1)).T - T s k (2 * c)) else 0)
        + (dmTop s c k / divisor g c)
          * (enthalpy mat (s.ext k (2 * c + 1)) - enthalpy mat (T s k (2 * c)))
        + (dmBot g s c k / divisor g c)
          * (enthalpy mat (s.ext (k + 2) (2 * c + 1)) - enthalpy mat (T s k (2 * c)))
        + (if k = 0 then (dmPort s (2 * c) / divisor g c)
          * (enthalpy mat (s.port (2 * c)).T - enthalpy mat (T s k (2 * c))) else 0)
        + (if k + 1 = g.n then (dmPort s (2 * c + 1) / divisor g c)
          * (enthalpy mat (s.port (2 * c + 1)).T - enthalpy mat (T s k (2 * c))) else 0))
        / mcp mat g s k (2 * c) := by
      rw [eq_div_iff hm.ne', mul_comm, hb, ports_at g (fun i => uaPort mat g s i * ((s.port i).T - T s k (2 * c))) hc hn hk,
        ports_at g (fun i => dmPort s i * (mat.cp (s.port i).T * (s.port i).T
            - mat.cp (T s k (2 * c)) * T s k (2 * c))) hc hn hk]
      have eT : s.ext (k + 1) (2 * c + 1) = T s k (2 * c) := rfl
      simp only [eT, enthalpy]
      split_ifs <;> ring
    unfold eulerStep
    rw [hd]
    refine Pull.step all hh hm ?_ hT.1 hT.2
    show h * (_ : K) ≤ _
    rw [hload]
    exact hfl k hk c hc
  -- cells of the wall
  have wall : ∀ k < g.n, m ≤ eulerStep mat g s h k 1 ∧ eulerStep mat g s h k 1 ≤ M := by
    intro k hk
    have hT := hw.cells k hk 1 (by omega)
    have p1 := up k hk 1 (by omega) (fun k => ua1 mat g s k 1) (by simp [ua1]) (hph.ua1_nonneg hk.le (by omega))
    have p2 := down k hk 1 (by omega) (fun k => ua1 mat g s k 1) (by simp [ua1])
      (hph.ua1_nonneg (by omega) (by omega))
    have p3 : Pull (T s k 1) m M (ua2 g s k 1) (ua2 g s k 1 * (T s k 0 - T s k 1)) :=
      Pull.cond (hph.ua2_pos hk (c := 0) (by omega)).le (hw.cells k hk 0 (by omega)).1 (hw.cells k hk 0 (by omega)).2
    have p4 : Pull (T s k 1) m M (ua2 g s k 2) (ua2 g s k 2 * (T s k 2 - T s k 1)) :=
      Pull.cond (hph.ua2_pos hk (c := 1) (by omega)).le (hw.cells k hk 2 (by omega)).1 (hw.cells k hk 2 (by omega)).2
    have all := ((p1.add p2).add p3).add p4
    have np : ∑ i ∈ range 4, (if portIdx g i = k * 3 + 1 then
        uaPort mat g s i * ((s.port i).T - T s k 1) / g.mcpWll else 0) = 0 :=
      sum_eq_zero fun i _ => if_neg (no_port_wall g i k hn)
    unfold eulerStep
    have hm : mcp mat g s k 1 = g.mcpWll := by simp [mcp]
    have hd : dT mat g s k 1 = (ua1 mat g s k 1 * (s.ext k (1 + 1) - T s k 1)
        + ua1 mat g s (k + 1) 1 * (s.ext (k + 2) (1 + 1) - T s k 1) + ua2 g s k 1 * (T s k 0 - T s k 1)
        + ua2 g s k 2 * (T s k 2 - T s k 1)) / g.mcpWll := by
      simp only [dT, dTcond, dTadv, hm, if_true, np, add_zero]
      rfl
    rw [hd]
    exact Pull.step all hh hph.mcpWll (hwl k hk) hT.1 hT.2
  intro k hk j hj
  interval_cases j
  · exact fluid k hk 0 (by omega)
  · exact wall k hk
  · exact fluid k hk 1 (by omega)

/-- An exchanger with a thin wall between two cold channels. -/
def exGeo3 : Geo ℚ := ⟨1, 2, 1, 1, 1, 1, 2, 2, 1, 1, 1 / 10, 1⟩
def exInp3 : Inp ℚ :=
  ⟨fun _ j => if j = 2 then 100 else 0, fun _ => 1, fun _ _ => 1, fun _ => ⟨0, 1, 1, 0⟩, fun _ => 1⟩

example : Physical exMat exGeo3 exInp3 ∧ Within exGeo3 exInp3 0 100 ∧ EnthalpySlope exMat 0 100 1 ∧
    (∀ k < exGeo3.n, ∀ c < 2, (1 / 20 : ℚ) * fluidLoad exMat exGeo3 exInp3 1 k c ≤ mcp exMat exGeo3 exInp3 k (2 * c)) ∧
    (∀ k < exGeo3.n, (1 / 20 : ℚ) * wallLoad exMat exGeo3 exInp3 k ≤ exGeo3.mcpWll) := by
  refine ⟨⟨?_, ?_, ?_, ?_, ?_, ?_, ?_, ?_, ?_, ?_, ?_, ?_, ?_, ?_, ?_, ?_⟩, ⟨?_, ?_⟩, ?_, ?_, ?_⟩
  case refine_19 =>
    intro a b _ h _
    simp [enthalpy, exMat, h]
  all_goals decide +kernel

/-- **C88** fails: a step which passes the code's stability check cools the wall below everything around it.  The
check divides by the volume `A_plate_eff * grid_spacing` instead of that of the cells, and does not know the heat
capacity of the wall at all. -/
theorem C88_fails_checked_step : Physical exMat exGeo3 exInp3 ∧ Within exGeo3 exInp3 0 100 ∧
    Stability.check (.hex (stabilityData exMat exGeo3 exInp3 [1, 1, 1, 1])) (1 / 5) = none ∧
    eulerStep exMat exGeo3 exInp3 (1 / 5) 0 1 < 0 := by
  refine ⟨⟨?_, ?_, ?_, ?_, ?_, ?_, ?_, ?_, ?_, ?_, ?_, ?_, ?_, ?_, ?_, ?_⟩, ⟨?_, ?_⟩, ?_, ?_⟩ <;> decide +kernel

/-- **C88** fails for every exchanger in which some part of the wall is warmer than its surroundings: for every
step, however short, and every temperature `B`, a wall thin enough passes or fails the check as before and is taken
below `B` by that step. -/
theorem C88_fails_thin_wall (hph : Physical mat g s) (subs : List K) {k : ℕ} (hk : k < g.n)
    (h0 : T s k 0 < T s k 1) (h2 : T s k 2 ≤ T s k 1) (hup : 0 < k → T s (k - 1) 1 ≤ T s k 1)
    (hdn : k + 1 < g.n → T s (k + 1) 1 ≤ T s k 1) {h : K} (hh : 0 < h) (B : K) :
    ∃ x > 0, Stability.check (.hex (stabilityData mat { g with mcpWll := x } s subs)) h =
        Stability.check (.hex (stabilityData mat g s subs)) h ∧
      eulerStep mat { g with mcpWll := x } s h k 1 < B := by
  -- heat flow out of the cell
  set q := ua1 mat g s k 1 * (T s k 1 - s.ext k 2) + ua1 mat g s (k + 1) 1 * (T s k 1 - s.ext (k + 2) 2)
    + ua2 g s k 1 * (T s k 1 - T s k 0) + ua2 g s k 2 * (T s k 1 - T s k 2) with hq
  have q1 : 0 ≤ ua1 mat g s k 1 * (T s k 1 - s.ext k 2) := by
    rcases Nat.eq_zero_or_pos k with e | e
    · subst e; simp [ua1]
    · have := hup e
      unfold T at this
      rw [Nat.sub_add_cancel e] at this
      exact mul_nonneg (hph.ua1_nonneg hk.le (by omega)) (sub_nonneg.2 this)
  have q2 : 0 ≤ ua1 mat g s (k + 1) 1 * (T s k 1 - s.ext (k + 2) 2) := by
    rcases Nat.lt_or_ge (k + 1) g.n with e | e
    · exact mul_nonneg (hph.ua1_nonneg e.le (by omega)) (sub_nonneg.2 (hdn e))
    · have e : k + 1 = g.n := by omega
      simp [ua1, e]
  have q3 : 0 < ua2 g s k 1 * (T s k 1 - T s k 0) :=
    mul_pos (hph.ua2_pos hk (c := 0) (by omega)) (sub_pos.2 h0)
  have q4 : 0 ≤ ua2 g s k 2 * (T s k 1 - T s k 2) :=
    mul_nonneg (hph.ua2_pos hk (c := 1) (by omega)).le (sub_nonneg.2 h2)
  have qpos : 0 < q := by linarith
  have hb : 0 < |T s k 1 - B| + 1 := by positivity
  refine ⟨h * q / (|T s k 1 - B| + 1), by positivity, rfl, ?_⟩
  have np : ∀ x : K, ∑ i ∈ range 4, (if portIdx { g with mcpWll := x } i = k * 3 + 1 then
      uaPort mat { g with mcpWll := x } s i * ((s.port i).T - T s k 1) / x else 0) = 0 :=
    fun x => sum_eq_zero fun i _ => if_neg (no_port_wall g i k hph.n)
  have hd : ∀ x : K, dT mat { g with mcpWll := x } s k 1 = -q / x := by
    intro x
    simp only [dT, dTcond, dTadv, mcp, if_true, np, add_zero]
    congr 1
    rw [hq]
    have e : ∀ k', ua1 mat { g with mcpWll := x } s k' 1 = ua1 mat g s k' 1 := fun _ => rfl
    have e' : ∀ f, ua2 { g with mcpWll := x } s k f = ua2 g s k f := fun _ => rfl
    simp only [e, e', T]
    ring
  unfold eulerStep
  rw [hd]
  have : h * (-q / (h * q / (|T s k 1 - B| + 1))) = -(|T s k 1 - B| + 1) := by
    field_simp
  rw [this]
  have := neg_abs_le (T s k 1 - B)
  have := le_abs_self (T s k 1 - B)
  linarith

example : 0 < exGeo3.n ∧ T exInp3 0 0 < T exInp3 0 1 ∧ T exInp3 0 2 ≤ T exInp3 0 1 := by decide +kernel

end Verif.HexNum
