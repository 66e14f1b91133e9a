import Verif.Props.Meters
import Verif.Props.Water

/-!
# C176: a heat meter shows the heat that the simulated water carries
-/

set_option linter.unusedSectionVars false

namespace Verif.Meters

section Field

variable {K : Type*} [Field K] [LinearOrder K] [IsStrictOrderedRing K]

/-- Specification: the heat that is carried away in the time `h`, if water enters with the return temperature and leaves
with the forward temperature of the row.  The differentials of the parts (C23) and the mixing of flows (C30) count water of
the temperature `T` with `cp T * T` per mass. -/
def carried (cp : K → K) (r : Row K) (h : K) : K := r.dm * h * (cp r.Tff * r.Tff - cp r.Trf * r.Trf)

/-- **C176**: what a row of a meter lacks is the mean temperature times the difference of the heat capacities, for each mass
unit. -/
theorem C176_difference (cp : K → K) (r : Row K) (h : K) :
    carried cp r h - heatflow cp r * 1000 * h = r.dm * h * ((r.Tff + r.Trf) / 2 * (cp r.Tff - cp r.Trf)) := by
  unfold carried heatflow
  norm_num
  ring

/-- **C176** (constant heat capacity): a heat meter counts exactly the heat which the water carries. -/
theorem C176_constant (c : K) (rho : K → K) {rows : List (Row K)} {t : List K} (hl : rows.length = t.length)
    (h2 : 2 ≤ t.length) {n : ℕ} (hn : n < rows.length) :
    ∃ q, (heatMeter (fun _ => c) rho rows t).heatMJ[n]? = some q ∧
      q * 1000000 = ((List.zipWith (carried fun _ => c) rows (stepVec t)).take (n + 1)).sum := by
  obtain ⟨-, -, ⟨q, hq, hs, -⟩, -⟩ := C54_sums_partial (fun _ => c) rho hl h2 hn
  refine ⟨q, hq, hs.trans ?_⟩
  have : joule (fun _ => c) = carried fun _ : K => c := by
    funext r h
    simp only [joule, carried]
    ring
  rw [this]

end Field

/-- Temperatures of liquid water, the forward flow not colder than the return flow, water from the cold to the warm end. -/
structure Heating (r : Row ℝ) : Prop where
  cold : 0 ≤ r.Trf
  warm : r.Trf ≤ r.Tff
  hot : r.Tff ≤ 100
  flow : 0 ≤ r.dm

theorem joule_near {r : Row ℝ} (hr : Heating r) {h : ℝ} (hh : 0 ≤ h) :
    0.953 * carried Water.cp r h ≤ joule Water.cp r h ∧ joule Water.cp r h ≤ 1.013 * carried Water.cp r h := by
  obtain ⟨s1, s2⟩ := Water.C50_enthalpy_slope hr.cold hr.warm hr.hot
  obtain ⟨-, ⟨c1, c2⟩, -⟩ := Water.C50_water_bounds hr.cold (hr.warm.trans hr.hot)
  obtain ⟨-, ⟨d1, d2⟩, -⟩ := Water.C50_water_bounds (hr.cold.trans hr.warm) hr.hot
  have hm : 0 ≤ r.dm * h := mul_nonneg hr.flow hh
  have hd : 0 ≤ r.Tff - r.Trf := sub_nonneg.2 hr.warm
  have e : joule Water.cp r h = r.dm * h * ((Water.cp r.Trf + Water.cp r.Tff) / 2 * (r.Tff - r.Trf)) := by
    unfold joule; ring
  rw [e, carried]
  constructor
  · rw [mul_left_comm]
    refine mul_le_mul_of_nonneg_left ?_ hm
    have := mul_le_mul_of_nonneg_right (show (4177 : ℝ) ≤ (Water.cp r.Trf + Water.cp r.Tff) / 2 by linarith) hd
    nlinarith
  · rw [mul_left_comm (1.013 : ℝ)]
    refine mul_le_mul_of_nonneg_left ?_ hm
    have := mul_le_mul_of_nonneg_right (show (Water.cp r.Trf + Water.cp r.Tff) / 2 ≤ (4219 : ℝ) by linarith) hd
    nlinarith

theorem sum_near {l : List (Row ℝ × ℝ)} (hl : ∀ p ∈ l, Heating p.1 ∧ 0 ≤ p.2) :
    0.953 * (l.map fun p => carried Water.cp p.1 p.2).sum ≤ (l.map fun p => joule Water.cp p.1 p.2).sum ∧
      (l.map fun p => joule Water.cp p.1 p.2).sum ≤ 1.013 * (l.map fun p => carried Water.cp p.1 p.2).sum := by
  induction l with
  | nil => simp
  | cons p l ih =>
    obtain ⟨i1, i2⟩ := ih fun q hq => hl q (List.mem_cons_of_mem _ hq)
    obtain ⟨j1, j2⟩ := joule_near (hl p List.mem_cons_self).1 (hl p List.mem_cons_self).2
    simp only [List.map_cons, List.sum_cons, mul_add]
    constructor <;> linarith

/-- **C176**, partial (water): as long as water between 0 and 100 degrees is heated, what a heat meter has counted is at
most five percent less and one and a half percent more than the heat which the simulated water has carried away.  Missing:
equality, which is wrong (`C176_fails_hot`). -/
theorem C176_water_partial (rho : ℝ → ℝ) {rows : List (Row ℝ)} {t : List ℝ} (hl : rows.length = t.length)
    (h2 : 2 ≤ t.length) (hr : ∀ r ∈ rows, Heating r) (hi : Increasing t) {n : ℕ} (hn : n < rows.length) :
    let heat := ((List.zipWith (carried Water.cp) rows (stepVec t)).take (n + 1)).sum
    ∃ q, (heatMeter Water.cp rho rows t).heatMJ[n]? = some q ∧ 0.953 * heat ≤ q * 1000000 ∧
      q * 1000000 ≤ 1.013 * heat := by
  obtain ⟨-, -, ⟨q, hq, hs, -⟩, -⟩ := C54_sums_partial Water.cp rho hl h2 hn
  have e : ∀ f : Row ℝ → ℝ → ℝ, (List.zipWith f rows (stepVec t)).take (n + 1) =
      ((rows.zip (stepVec t)).take (n + 1)).map fun p => f p.1 p.2 := by
    intro f
    rw [List.map_take, List.zip, List.map_zipWith]
  intro heat
  have hall : ∀ p ∈ (rows.zip (stepVec t)).take (n + 1), Heating p.1 ∧ 0 ≤ p.2 := by
    intro p hp
    have hp := List.mem_of_mem_take hp
    exact ⟨hr _ (List.of_mem_zip hp).1, (stepVec_pos hi _ (List.of_mem_zip hp).2).le⟩
  obtain ⟨s1, s2⟩ := sum_near hall
  refine ⟨q, hq, ?_, ?_⟩
  · rw [hs, e]
    simp only [heat, e]
    exact s1
  · rw [hs, e]
    simp only [heat, e]
    exact s2

/-- **C176** is false of hot water: if water is heated from 90 to 100 degrees, the meter counts at least two percent less
than is carried away. -/
theorem C176_fails_hot {m h : ℝ} (hm : 0 < m) (hh : 0 < h) :
    heatflow Water.cp ⟨100, 90, m⟩ * 1000 * h < 0.98 * carried Water.cp ⟨100, 90, m⟩ h := by
  have : 0 < m * h := mul_pos hm hh
  unfold heatflow carried Water.cp
  norm_num
  nlinarith

/-- Water heated from 20 to 60 degrees and from 30 to 90 degrees. -/
example : (∀ r ∈ [(⟨60, 20, 1⟩ : Row ℝ), ⟨90, 30, 2⟩], Heating r) ∧ Increasing [(0 : ℝ), 1] ∧
    2 ≤ [(0 : ℝ), 1].length := by
  refine ⟨?_, ?_, by norm_num⟩
  · intro r hr
    simp only [List.mem_cons, List.not_mem_nil, or_false] at hr
    rcases hr with rfl | rfl <;> constructor <;> norm_num
  · simp [Increasing]

end Verif.Meters
