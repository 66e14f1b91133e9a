import Verif.Props.Conductance
import Mathlib.Analysis.SpecialFunctions.Log.Basic

/-!
# C189: better insulation, smaller losses
-/

namespace Verif.Conductance

/-- Part of the resistance that depends on the insulation of a shell, per inner radius. -/
noncomputable def insResistance (rO r lam alphaInf : ℝ) : ℝ := Real.log (r / rO) / lam + 1 / (r * alphaInf)

theorem ins_lt_of_crit {rO a b lam α : ℝ} (hO : 0 < rO) (ha : 0 < a) (hab : a < b) (hl : 0 < lam) (hα : 0 < α) (hc : lam ≤ a * α) :
    insResistance rO a lam α < insResistance rO b lam α := by
  have hb : 0 < b := ha.trans hab
  have h1 : Real.log (b / rO) - Real.log (a / rO) = -Real.log (a / b) := by
    rw [Real.log_div hb.ne' hO.ne', Real.log_div ha.ne' hO.ne', Real.log_div ha.ne' hb.ne']; ring
  have h2 : Real.log (a / b) < a / b - 1 := Real.log_lt_sub_one_of_pos (by positivity) ((div_lt_one hb).2 hab).ne
  have h3 : 1 / (a * α) - 1 / (b * α) = (1 - a / b) / (a * α) := by field_simp
  have h4 : 0 < 1 - a / b := sub_pos.2 ((div_lt_one hb).2 hab)
  have h5 : (1 - a / b) / (a * α) ≤ (1 - a / b) / lam := div_le_div_of_nonneg_left h4.le hl hc
  have h6 : (1 - a / b) / lam < (Real.log (b / rO) - Real.log (a / rO)) / lam := by
    rw [h1]
    exact div_lt_div_of_pos_right (by linarith) hl
  rw [sub_div (Real.log (b / rO))] at h6
  unfold insResistance
  linarith

theorem ins_gt_of_crit {rO a b lam α : ℝ} (hO : 0 < rO) (ha : 0 < a) (hab : a < b) (hl : 0 < lam) (hα : 0 < α) (hc : b * α ≤ lam) :
    insResistance rO b lam α < insResistance rO a lam α := by
  have hb : 0 < b := ha.trans hab
  have h1 : Real.log (b / rO) - Real.log (a / rO) = Real.log (b / a) := by
    rw [Real.log_div hb.ne' hO.ne', Real.log_div ha.ne' hO.ne', Real.log_div hb.ne' ha.ne']; ring
  have h2 : Real.log (b / a) < b / a - 1 := Real.log_lt_sub_one_of_pos (by positivity) ((one_lt_div ha).2 hab).ne'
  have h3 : 1 / (a * α) - 1 / (b * α) = (b / a - 1) / (b * α) := by field_simp
  have h4 : 0 < b / a - 1 := sub_pos.2 ((one_lt_div ha).2 hab)
  have h5 : (b / a - 1) / lam ≤ (b / a - 1) / (b * α) := div_le_div_of_nonneg_left h4.le (by positivity) hc
  have h6 : (Real.log (b / rO) - Real.log (a / rO)) / lam < (b / a - 1) / lam := by
    rw [h1]
    exact div_lt_div_of_pos_right h2 hl
  rw [sub_div (Real.log (b / rO))] at h6
  unfold insResistance
  linarith

theorem shell_ins (g : Shell) (α : ℝ) : g.rLnIns / g.lamIns + g.rRins / α = g.rI * insResistance g.rO g.rTotal g.lamIns α := by
  unfold Shell.rLnIns Shell.rRins insResistance
  rw [mul_add, mul_one_div, div_div, mul_div_assoc]

/-- The same shell with another insulation. -/
def Shell.insulated (g : Shell) (rTotal lam : ℝ) : Shell := { g with rTotal := rTotal, lamIns := lam }

theorem Shell.Valid.insulated {g : Shell} (v : g.Valid) {r lam : ℝ} (hr : g.rO ≤ r) (hl : 0 < lam) : (g.insulated r lam).Valid :=
  ⟨v.rI, v.rO, hr, v.gs, v.lamWll, hl, v.flowLength⟩

section
variable {g : Shell} (v : g.Valid)
include v

theorem ins_pos {r lam α : ℝ} (hr : g.rO ≤ r) (hl : 0 < lam) (hα : 0 < α) : 0 < insResistance g.rO r lam α := by
  have hO : 0 < g.rO := v.rI.trans v.rO
  have h0 : 0 < r := hO.trans_le hr
  have : 0 ≤ Real.log (r / g.rO) := Real.log_nonneg ((one_le_div hO).2 hr)
  unfold insResistance
  positivity

/-- Less resistance of the insulation, more conductance of the shell, from the water and from the wall. -/
theorem shell_order {r r' lam lam' alphaI α : ℝ} (hr : g.rO ≤ r) (hl : 0 < lam) (hI : 0 < alphaI) (hα : 0 < α)
    (h : insResistance g.rO r lam α < insResistance g.rO r' lam' α) :
    uaFldWllInsAmbCyl (g.insulated r' lam') alphaI α < uaFldWllInsAmbCyl (g.insulated r lam) alphaI α ∧
      uaWllInsAmbCyl (g.insulated r' lam') α < uaWllInsAmbCyl (g.insulated r lam) α := by
  have hO : 0 < g.rO := v.rI.trans v.rO
  have hI0 := v.rI
  have hw := v.lamWll
  have hA : 0 < g.aShellI := by
    have := v.gs
    unfold Shell.aShellI
    have := Real.pi_pos
    positivity
  have hp := ins_pos v hr hl hα
  have hW : 0 ≤ g.rLnWll / g.lamWll := by
    have : 0 ≤ Real.log (g.rO / g.rI) := Real.log_nonneg ((one_le_div v.rI).2 v.rO.le)
    unfold Shell.rLnWll
    positivity
  have hM : 0 ≤ g.rI * Real.log (2 / (g.rI / g.rO + 1)) / g.lamWll := by
    have h1 : g.rI / g.rO ≤ 1 := (div_le_one hO).2 v.rO.le
    have : 0 ≤ Real.log (2 / (g.rI / g.rO + 1)) := Real.log_nonneg ((one_le_div (by positivity)).2 (by linarith))
    positivity
  have hlt : g.rI * insResistance g.rO r lam α < g.rI * insResistance g.rO r' lam' α := mul_lt_mul_of_pos_left h v.rI
  have hpos : 0 < g.rI * insResistance g.rO r lam α := mul_pos v.rI hp
  have e : ∀ s l, (g.insulated s l).rLnIns / (g.insulated s l).lamIns + (g.insulated s l).rRins / α =
      g.rI * insResistance g.rO s l α := fun s l => shell_ins (g.insulated s l) α
  constructor
  · unfold uaFldWllInsAmbCyl
    rw [add_assoc (1 / alphaI + _), add_assoc (1 / alphaI + _), e, e]
    exact div_lt_div_of_pos_left hA (by
      have : 0 < 1 / alphaI := by positivity
      change 0 < 1 / alphaI + g.rLnWll / g.lamWll + _
      linarith) (by
      change 1 / alphaI + g.rLnWll / g.lamWll + _ < 1 / alphaI + g.rLnWll / g.lamWll + _
      linarith)
  · unfold uaWllInsAmbCyl
    rw [add_assoc, add_assoc, e, e]
    exact div_lt_div_of_pos_left hA (by
      change 0 < g.rI * Real.log (2 / (g.rI / g.rO + 1)) / g.lamWll + _
      linarith) (by
      change g.rI * Real.log (2 / (g.rI / g.rO + 1)) / g.lamWll + _ < g.rI * Real.log (2 / (g.rI / g.rO + 1)) / g.lamWll + _
      linarith)

/-- **C189** (material): at the same outer coefficient, a shell loses less heat the worse its insulation conducts. -/
theorem C189_material {r lam lam' alphaI α : ℝ} (hr : g.rO < r) (hl : 0 < lam) (hll : lam < lam') (hI : 0 < alphaI) (hα : 0 < α) :
    uaFldWllInsAmbCyl (g.insulated r lam) alphaI α < uaFldWllInsAmbCyl (g.insulated r lam') alphaI α ∧
      uaWllInsAmbCyl (g.insulated r lam) α < uaWllInsAmbCyl (g.insulated r lam') α := by
  have hO : 0 < g.rO := v.rI.trans v.rO
  refine shell_order v hr.le (hl.trans hll) hI hα ?_
  have : 0 < Real.log (r / g.rO) := Real.log_pos ((one_lt_div hO).2 hr)
  have := div_lt_div_of_pos_left this hl hll
  unfold insResistance
  linarith

/-- **C189** (thickness; partial: from the critical radius `lam / α` on): at the same outer coefficient, a shell loses less heat the
thicker its insulation is. -/
theorem C189_thickness_partial {r r' lam alphaI α : ℝ} (hr : g.rO ≤ r) (hrr : r < r') (hl : 0 < lam) (hI : 0 < alphaI) (hα : 0 < α)
    (hc : lam / α ≤ r) :
    uaFldWllInsAmbCyl (g.insulated r' lam) alphaI α < uaFldWllInsAmbCyl (g.insulated r lam) alphaI α ∧
      uaWllInsAmbCyl (g.insulated r' lam) α < uaWllInsAmbCyl (g.insulated r lam) α :=
  shell_order v hr hl hI hα
    (ins_lt_of_crit (v.rI.trans v.rO) ((v.rI.trans v.rO).trans_le hr) hrr hl hα ((div_le_iff₀ hα).1 hc))

/-- **C189** fails below the critical radius, as in reality: there more insulation of the same material loses *more* heat, the more the
thicker it is. -/
theorem C189_fails_thin {r r' lam alphaI α : ℝ} (hr : g.rO ≤ r) (hrr : r < r') (hl : 0 < lam) (hI : 0 < alphaI) (hα : 0 < α)
    (hc : r' ≤ lam / α) :
    uaFldWllInsAmbCyl (g.insulated r lam) alphaI α < uaFldWllInsAmbCyl (g.insulated r' lam) alphaI α ∧
      uaWllInsAmbCyl (g.insulated r lam) α < uaWllInsAmbCyl (g.insulated r' lam) α :=
  shell_order v (hr.trans hrr.le) hl hI hα
    (ins_gt_of_crit (v.rI.trans v.rO) ((v.rI.trans v.rO).trans_le hr) hrr hl hα ((le_div_iff₀ hα).1 hc))

end

/-- **C189** (lids and plane walls): thicker insulation always loses less heat, and so does insulation that conducts worse. -/
theorem C189_plane {A sWll s s' aF α lamW lam lam' : ℝ} (hA : 0 < A) (hw : 0 ≤ sWll) (hF : 0 < aF) (hα : 0 < α) (hlw : 0 < lamW)
    (hl : 0 < lam) (hs : 0 ≤ s) (h : s < s' ∧ lam ≤ lam' ∨ s ≤ s' ∧ lam < lam' ∧ 0 < s') :
    uaFldWllInsAmbPlate A sWll s' aF α lamW lam < uaFldWllInsAmbPlate A sWll s aF α lamW lam' ∧
      uaWllInsAmbPlate A sWll s' lamW lam α < uaWllInsAmbPlate A sWll s lamW lam' α := by
  have hs' : 0 < s' := by rcases h with h | h; exact hs.trans_lt h.1; exact h.2.2
  have hl' : 0 < lam' := by rcases h with h | h; exact hl.trans_le h.2; exact hl.trans h.2.1
  have key : s / lam' < s' / lam := by
    rcases h with h | h
    · exact div_lt_div₀ h.1 h.2 hs'.le hl
    · exact div_lt_div₀' h.1 h.2.1 hs' hl
  have h0 : 0 ≤ s / lam' := by positivity
  have h1 : 0 ≤ sWll / lamW := by positivity
  have h2 : 0 < 1 / aF := by positivity
  have h3 : 0 < 1 / α := by positivity
  constructor
  · unfold uaFldWllInsAmbPlate
    rw [if_neg hα.ne', if_neg hα.ne']
    exact div_lt_div_of_pos_left hA (by linarith) (by linarith)
  · unfold uaWllInsAmbPlate
    exact div_lt_div_of_pos_left hA (by linarith) (by linarith)

/-! ## Witnesses -/

/-- A pipe of 20 mm with a wall of 1 mm. -/
noncomputable def thinPipe : Shell := ⟨0.01, 0.011, 0.011, 0.1, 50, 0.04, 1, false⟩

theorem thinPipe_valid : thinPipe.Valid := by constructor <;> norm_num [thinPipe]

/-- With rock wool and 5 W/m²K the critical radius is 8 mm: 2 cm of insulation are better than 1 cm, both better than none. -/
example : thinPipe.rO ≤ 0.021 ∧ (0.04 : ℝ) / 5 ≤ 0.021 ∧ (0.04 : ℝ) / 5 ≤ 0.011 := by norm_num [thinPipe]

/-- With wood (0.2 W/mK) it is 40 mm: 2 cm of insulation are worse than 1 cm. -/
example : thinPipe.rO ≤ 0.021 ∧ (0.031 : ℝ) ≤ 0.2 / 5 := by norm_num [thinPipe]

end Verif.Conductance
