import Verif.Model.Mixing
import Verif.Spec.Mixing
import Verif.Props.Water
import Mathlib.Tactic.FinCases
import Mathlib.Tactic.FieldSimp

/-!
# C29 – C31: connectors, valves and pumps
-/

set_option linter.unusedSectionVars false

namespace Verif.Mixing

variable {K : Type*} [Field K] [LinearOrder K] [IsStrictOrderedRing K]

theorem sum_three {M : Type*} [AddCommMonoid M] (f : Fin 3 → M) {i j k : Fin 3} (hij : i ≠ j)
    (hik : i ≠ k) (hjk : j ≠ k) : ∑ x, f x = f i + f j + f k := by
  have h : (Finset.univ : Finset (Fin 3)) = {i, j, k} := by
    revert i j k
    decide
  rw [h, Finset.sum_insert (by simp [hij, hik]), Finset.sum_insert (by simp [hjk]), Finset.sum_singleton,
    add_assoc]

/-- The outlet temperature the code calculates for two streams. -/
theorem connector_mix (cp : K → K) (dm T : Fin 3 → K) {i j k : Fin 3} (hij : i ≠ j) (hik : i ≠ k)
    (hjk : j ≠ k) (hi : 0 < dm i) (hj : 0 < dm j) (hk : dm k = -(dm i + dm j)) :
    connector cp dm T k = (dm i * cp (T i) * T i + dm j * cp (T j) * T j) /
      (cp ((T i + T j) / 2) * (dm i + dm j)) ∧
    connector cp dm T i = T k ∧ connector cp dm T j = T k := by
  have hk0 : dm k < 0 := by rw [hk]; linarith
  have hk' : ¬ 0 < dm k := not_lt.2 hk0.le
  have hi' : ¬ dm i < 0 := not_lt.2 hi.le
  have hj' : ¬ dm j < 0 := not_lt.2 hj.le
  have hc : count (fun i => decide (0 < dm i)) = 2 := by
    unfold count
    rw [sum_three _ hij hik hjk]
    simp [hi, hj, hk']
  have hsI : ∀ f : Fin 3 → K, sumOf (fun i => decide (0 < dm i)) f = f i + f j := by
    intro f
    unfold sumOf
    rw [sum_three _ hij hik hjk]
    simp [hi, hj, hk']
  have hsO : ∀ f : Fin 3 → K, sumOf (fun i => decide (dm i < 0)) f = f k := by
    intro f
    unfold sumOf
    rw [sum_three _ hij hik hjk]
    simp [hi', hj', hk0]
  unfold connector
  simp only [hc, if_true, hsI, hsO, setOf, hi, hj, hi', hj', hk0, decide_true, decide_false,
    Bool.false_eq_true, if_false]
  refine ⟨?_, trivial, trivial⟩
  rw [hk]
  congr 1
  ring

/-- One inflow and two outflows. -/
theorem connector_split (cp : K → K) (dm T : Fin 3 → K) {i j k : Fin 3} (hij : i ≠ j) (hik : i ≠ k)
    (hjk : j ≠ k) (hi : 0 < dm i) (hj : dm j < 0) (hk : dm k < 0) :
    connector cp dm T j = T i ∧ connector cp dm T k = T i ∧ connector cp dm T i = (T j + T k) / 2 := by
  have hi' : ¬ dm i < 0 := not_lt.2 hi.le
  have hj' : ¬ 0 < dm j := not_lt.2 hj.le
  have hk' : ¬ 0 < dm k := not_lt.2 hk.le
  have hc : count (fun i => decide (0 < dm i)) = 1 := by
    unfold count
    rw [sum_three _ hij hik hjk]
    simp [hi, hj', hk']
  have hc2 : count (fun i => decide (dm i < 0)) = 2 := by
    unfold count
    rw [sum_three _ hij hik hjk]
    simp [hi', hj, hk]
  have hsI : ∀ f : Fin 3 → K, sumOf (fun i => decide (0 < dm i)) f = f i := by
    intro f
    unfold sumOf
    rw [sum_three _ hij hik hjk]
    simp [hi, hj', hk']
  have hsO : ∀ f : Fin 3 → K, sumOf (fun i => decide (dm i < 0)) f = f j + f k := by
    intro f
    unfold sumOf
    rw [sum_three _ hij hik hjk]
    simp [hi', hj, hk]
  unfold connector
  simp only [hc, hc2, show ¬ (1 : ℕ) = 2 by decide, if_true, hsI, hsO, setOf, hi, hj', hk', hj, hk,
    decide_true, decide_false, Bool.false_eq_true, if_false, and_self]

/-- One inflow, one outflow, one port without flow. -/
theorem connector_through (cp : K → K) (dm T : Fin 3 → K) {i j k : Fin 3} (hij : i ≠ j) (hik : i ≠ k)
    (hjk : j ≠ k) (hi : 0 < dm i) (hj : dm j < 0) (hk : dm k = 0) :
    connector cp dm T j = T i ∧ connector cp dm T k = (T i + T j) / 2 ∧
      connector cp dm T i = (T i + (T i + T j) / 2) / 2 := by
  have hi' : ¬ dm i < 0 := not_lt.2 hi.le
  have hj' : ¬ 0 < dm j := not_lt.2 hj.le
  have hi0 : ¬ dm i = 0 := hi.ne'
  have hj0 : ¬ dm j = 0 := hj.ne
  have hc : count (fun i => decide (0 < dm i)) = 1 := by
    unfold count
    rw [sum_three _ hij hik hjk]
    simp [hi, hj', hk]
  have hc2 : count (fun i => decide (dm i < 0)) = 1 := by
    unfold count
    rw [sum_three _ hij hik hjk]
    simp [hi', hj, hk]
  have hsI : ∀ f : Fin 3 → K, sumOf (fun i => decide (0 < dm i)) f = f i := by
    intro f
    unfold sumOf
    rw [sum_three _ hij hik hjk]
    simp [hi, hj', hk]
  have hsN : ∀ f : Fin 3 → K, sumOf (fun i => !decide (0 < dm i)) f = f j + f k := by
    intro f
    unfold sumOf
    rw [sum_three _ hij hik hjk]
    simp [hi, hj', hk]
  have hs0 : ∀ f : Fin 3 → K, sumOf (fun i => !decide (dm i = 0)) f = f i + f j := by
    intro f
    unfold sumOf
    rw [sum_three _ hij hik hjk]
    simp [hi0, hj0, hk]
  unfold connector
  simp only [hc, hc2, show ¬ (1 : ℕ) = 2 by decide, if_true, hsI, hs0, hsN, setOf, hi, hj', hj, hk, hi0, hj0,
    lt_irrefl, decide_true, decide_false, Bool.false_eq_true, if_false, and_self]

/-- No inflow: all ports see the mean of the other two. -/
theorem connector_rest (cp : K → K) (dm T : Fin 3 → K) (h : ∀ i, dm i = 0) {i j k : Fin 3} (hij : i ≠ j)
    (hik : i ≠ k) (hjk : j ≠ k) : connector cp dm T i = (T j + T k) / 2 := by
  have hc : count (fun i => decide (0 < dm i)) = 0 := by
    unfold count; simp [h]
  have hc2 : count (fun i => decide (dm i < 0)) = 0 := by
    unfold count; simp [h]
  unfold connector
  simp only [hc, hc2, show ¬ (0 : ℕ) = 2 by decide, show ¬ (0 : ℕ) = 1 by decide, if_false]
  revert hij hik hjk
  fin_cases i <;> fin_cases j <;> fin_cases k <;> intro hij hik hjk <;>
    first
      | exact absurd rfl hij
      | exact absurd rfl hik
      | exact absurd rfl hjk
      | rfl
      | exact congrArg (· / 2) (add_comm _ _)

/-- Outlet temperature of two mixed streams as the code calculates it. -/
def outletT (cp : K → K) (s1 s2 : Stream K) : K :=
  (s1.dm * cp s1.T * s1.T + s2.dm * cp s2.T * s2.T) / (cp ((s1.T + s2.T) / 2) * (s1.dm + s2.dm))

/-- Both mixing parts calculate `outletT` of their two inflows. -/
theorem mixers (cp : K → K) (s1 s2 : Stream K) (h1 : 0 < s1.dm) (h2 : 0 < s2.dm) (x : K) :
    (∀ i j k : Fin 3, i ≠ j → i ≠ k → j ≠ k → ∀ dm T : Fin 3 → K, dm i = s1.dm → dm j = s2.dm →
      dm k = -(s1.dm + s2.dm) → T i = s1.T → T j = s2.T → connector cp dm T k = outletT cp s1 s2) ∧
    mixValve cp ![s1.dm, s2.dm, s1.dm + s2.dm] ![s1.T, s2.T, x] 2 = outletT cp s1 s2 := by
  refine ⟨fun i j k hij hik hjk dm T e1 e2 e3 e4 e5 => ?_, ?_⟩
  · have := (connector_mix cp dm T hij hik hjk (e1 ▸ h1) (e2 ▸ h2) (by rw [e1, e2, e3])).1
    rw [this, e1, e2, e4, e5]
    rfl
  · unfold mixValve outletT
    have : s1.dm + s2.dm ≠ 0 := by positivity
    have h : ![s1.dm, s2.dm, s1.dm + s2.dm] 2 ≠ 0 := this
    rw [if_pos h, mul_comm (cp _)]
    rfl

/-! ## C29 -/

theorem outlet_bounds {cp : K → K} {s1 s2 : Stream K} (h1 : 0 < s1.dm) (h2 : 0 < s2.dm) {a b m M : K}
    (ha : 0 < a) (hm : 0 ≤ m) (t1 : m ≤ s1.T ∧ s1.T ≤ M) (t2 : m ≤ s2.T ∧ s2.T ≤ M)
    (c1 : a ≤ cp s1.T ∧ cp s1.T ≤ b) (c2 : a ≤ cp s2.T ∧ cp s2.T ≤ b)
    (c3 : a ≤ cp ((s1.T + s2.T) / 2) ∧ cp ((s1.T + s2.T) / 2) ≤ b) :
    a / b * m ≤ outletT cp s1 s2 ∧ outletT cp s1 s2 ≤ b / a * M := by
  have hb : 0 < b := lt_of_lt_of_le ha (c1.1.trans c1.2)
  have hden : 0 < cp ((s1.T + s2.T) / 2) * (s1.dm + s2.dm) :=
    mul_pos (lt_of_lt_of_le ha c3.1) (by linarith)
  have hM : 0 ≤ M := hm.trans (t1.1.trans t1.2)
  have p : ∀ s : Stream K, 0 < s.dm → m ≤ s.T → s.T ≤ M → a ≤ cp s.T → cp s.T ≤ b →
      s.dm * (a * m) ≤ s.dm * cp s.T * s.T ∧ s.dm * cp s.T * s.T ≤ s.dm * (b * M) := by
    intro s hs q1 q2 q3 q4
    constructor
    · have := mul_le_mul q3 q1 hm (ha.le.trans q3)
      have := mul_le_mul_of_nonneg_left this hs.le
      linarith
    · have := mul_le_mul q4 q2 (hm.trans q1) hb.le
      have := mul_le_mul_of_nonneg_left this hs.le
      linarith
  obtain ⟨p1, p2⟩ := p s1 h1 t1.1 t1.2 c1.1 c1.2
  obtain ⟨p3, p4⟩ := p s2 h2 t2.1 t2.2 c2.1 c2.2
  unfold outletT
  rw [le_div_iff₀ hden, div_le_iff₀ hden]
  have hs : 0 < s1.dm + s2.dm := by linarith
  constructor
  · have e : a / b * m * (cp ((s1.T + s2.T) / 2) * (s1.dm + s2.dm)) ≤ a / b * m * (b * (s1.dm + s2.dm)) := by
      have : 0 ≤ a / b * m := by positivity
      exact mul_le_mul_of_nonneg_left (mul_le_mul_of_nonneg_right c3.2 hs.le) this
    have e2 : a / b * m * (b * (s1.dm + s2.dm)) = (s1.dm + s2.dm) * (a * m) := by field_simp
    linarith
  · have e : b / a * M * (a * (s1.dm + s2.dm)) ≤ b / a * M * (cp ((s1.T + s2.T) / 2) * (s1.dm + s2.dm)) := by
      have : 0 ≤ b / a * M := by positivity
      exact mul_le_mul_of_nonneg_left (mul_le_mul_of_nonneg_right c3.1 hs.le) this
    have e2 : b / a * M * (a * (s1.dm + s2.dm)) = (s1.dm + s2.dm) * (b * M) := by field_simp
    linarith

/-- **C29**, partial (constant heat capacity): if the heat capacity is the same at the three temperatures
involved, the outlet temperature of a connector and of a mixing valve is between the inlet temperatures.
Missing: with the heat capacity of water it is not, see `C29_fails_water`; then
`C29_water_overshoot_partial` applies. -/
theorem C29_constant_cp_partial (cp : K → K) (s1 s2 : Stream K) (h1 : 0 < s1.dm) (h2 : 0 < s2.dm) (c : K)
    (hc : 0 < c) (c1 : cp s1.T = c) (c2 : cp s2.T = c) (c3 : cp ((s1.T + s2.T) / 2) = c) (x : K) :
    (∀ i j k : Fin 3, i ≠ j → i ≠ k → j ≠ k → ∀ dm T : Fin 3 → K, dm i = s1.dm → dm j = s2.dm →
      dm k = -(s1.dm + s2.dm) → T i = s1.T → T j = s2.T → Between (connector cp dm T k) s1.T s2.T) ∧
    Between (mixValve cp ![s1.dm, s2.dm, s1.dm + s2.dm] ![s1.T, s2.T, x] 2) s1.T s2.T := by
  have key : Between (outletT cp s1 s2) s1.T s2.T := by
    have hs : 0 < s1.dm + s2.dm := by linarith
    have e : outletT cp s1 s2 = (s1.dm * s1.T + s2.dm * s2.T) / (s1.dm + s2.dm) := by
      unfold outletT
      rw [c1, c2, c3]
      field_simp
    unfold Between
    rw [e, le_div_iff₀ hs, div_le_iff₀ hs]
    have a1 := mul_le_mul_of_nonneg_left (min_le_left s1.T s2.T) h1.le
    have a2 := mul_le_mul_of_nonneg_left (min_le_right s1.T s2.T) h2.le
    have a3 := mul_le_mul_of_nonneg_left (le_max_left s1.T s2.T) h1.le
    have a4 := mul_le_mul_of_nonneg_left (le_max_right s1.T s2.T) h2.le
    constructor <;> linarith
  obtain ⟨m1, m2⟩ := mixers cp s1 s2 h1 h2 x
  refine ⟨fun i j k hij hik hjk dm T e1 e2 e3 e4 e5 => ?_, by rw [m2]; exact key⟩
  rw [m1 i j k hij hik hjk dm T e1 e2 e3 e4 e5]
  exact key

/-- **C29**, partial (water): for inlet temperatures between 0 and 100 degrees the outlet temperature leaves
the range of the inlet temperatures by at most 1.01 percent. -/
theorem C29_water_overshoot_partial (s1 s2 : Stream K) (h1 : 0 < s1.dm) (h2 : 0 < s2.dm)
    (t1 : 0 ≤ s1.T ∧ s1.T ≤ 100) (t2 : 0 ≤ s2.T ∧ s2.T ≤ 100) (x : K) :
    (∀ i j k : Fin 3, i ≠ j → i ≠ k → j ≠ k → ∀ dm T : Fin 3 → K, dm i = s1.dm → dm j = s2.dm →
      dm k = -(s1.dm + s2.dm) → T i = s1.T → T j = s2.T →
      min s1.T s2.T / 1.0101 ≤ connector Water.cp dm T k ∧
        connector Water.cp dm T k ≤ 1.0101 * max s1.T s2.T) ∧
    (min s1.T s2.T / 1.0101 ≤ mixValve Water.cp ![s1.dm, s2.dm, s1.dm + s2.dm] ![s1.T, s2.T, x] 2 ∧
      mixValve Water.cp ![s1.dm, s2.dm, s1.dm + s2.dm] ![s1.T, s2.T, x] 2 ≤ 1.0101 * max s1.T s2.T) := by
  have key : min s1.T s2.T / 1.0101 ≤ outletT Water.cp s1 s2 ∧
      outletT Water.cp s1 s2 ≤ 1.0101 * max s1.T s2.T := by
    have hm : 0 ≤ min s1.T s2.T := le_min t1.1 t2.1
    have hM : 0 ≤ max s1.T s2.T := t1.1.trans (le_max_left _ _)
    have hmean : 0 ≤ (s1.T + s2.T) / 2 ∧ (s1.T + s2.T) / 2 ≤ 100 := by
      constructor <;> linarith [t1.1, t1.2, t2.1, t2.2]
    obtain ⟨k1, k2⟩ := outlet_bounds (cp := Water.cp) h1 h2 (a := 4177) (b := 4219) (by norm_num) hm
      ⟨min_le_left _ _, le_max_left _ _⟩ ⟨min_le_right _ _, le_max_right _ _⟩
      ⟨Water.cp_ge t1.1 t1.2, Water.cp_le t1.1 t1.2⟩ ⟨Water.cp_ge t2.1 t2.2, Water.cp_le t2.1 t2.2⟩
      ⟨Water.cp_ge hmean.1 hmean.2, Water.cp_le hmean.1 hmean.2⟩
    constructor
    · refine le_trans ?_ k1
      rw [div_eq_mul_inv, mul_comm]
      exact mul_le_mul_of_nonneg_right (by norm_num) hm
    · exact k2.trans (mul_le_mul_of_nonneg_right (by norm_num) hM)
  obtain ⟨m1, m2⟩ := mixers Water.cp s1 s2 h1 h2 x
  refine ⟨fun i j k hij hik hjk dm T e1 e2 e3 e4 e5 => ?_, by rw [m2]; exact key⟩
  rw [m1 i j k hij hik hjk dm T e1 e2 e3 e4 e5]
  exact key

/-- A main stream of hot water and a trickle of cold water. -/
example : (0 : ℚ) < (⟨1, 90⟩ : Stream ℚ).dm ∧ (0 : ℚ) < (⟨1 / 1000, 10⟩ : Stream ℚ).dm := by norm_num

/-- **C29** is false of the code: mixing 1 kg/s at 90 degrees with 1 g/s at 10 degrees gives more than 90.4
degrees, in a connector as well as in a mixing valve. -/
theorem C29_fails_water :
    904 / 10 < connector Water.cp ![1, 1 / 1000, -(1 + 1 / 1000)] ![90, 10, (50 : ℚ)] 2 ∧
    904 / 10 < mixValve Water.cp ![1, 1 / 1000, 1 + 1 / 1000] ![90, 10, (50 : ℚ)] 2 := by
  have key : (904 / 10 : ℚ) < outletT Water.cp ⟨1, 90⟩ ⟨1 / 1000, 10⟩ := by
    norm_num [outletT, Water.cp]
  obtain ⟨m1, m2⟩ := mixers Water.cp (⟨1, 90⟩ : Stream ℚ) ⟨1 / 1000, 10⟩ (by norm_num) (by norm_num) 50
  rw [m1 0 1 2 (by decide) (by decide) (by decide) _ _ rfl rfl rfl rfl rfl, m2]
  exact ⟨key, key⟩

/-! ## C30 -/

/-- **C30**, partial: outlet flow times the heat capacity at the mean inlet temperature times the outlet
temperature is the sum of the inflowing enthalpy flows.  Missing: the parts downstream calculate the enthalpy
of the same stream with the heat capacity at its own temperature, and that is not the sum
(`C30_fails_water`); the difference is bounded by `C30_enthalpy_error_partial`. -/
theorem C30_mean_cp_partial (cp : K → K) (s1 s2 : Stream K) (h1 : 0 < s1.dm) (h2 : 0 < s2.dm)
    (hc : cp ((s1.T + s2.T) / 2) ≠ 0) (x : K) :
    (∀ i j k : Fin 3, i ≠ j → i ≠ k → j ≠ k → ∀ dm T : Fin 3 → K, dm i = s1.dm → dm j = s2.dm →
      dm k = -(s1.dm + s2.dm) → T i = s1.T → T j = s2.T →
      (s1.dm + s2.dm) * (cp ((s1.T + s2.T) / 2) * connector cp dm T k) =
        s1.enthalpy cp + s2.enthalpy cp) ∧
    (s1.dm + s2.dm) * (cp ((s1.T + s2.T) / 2) *
      mixValve cp ![s1.dm, s2.dm, s1.dm + s2.dm] ![s1.T, s2.T, x] 2) = s1.enthalpy cp + s2.enthalpy cp := by
  have key : (s1.dm + s2.dm) * (cp ((s1.T + s2.T) / 2) * outletT cp s1 s2) =
      s1.enthalpy cp + s2.enthalpy cp := by
    have : s1.dm + s2.dm ≠ 0 := by positivity
    unfold outletT Stream.enthalpy
    field_simp
  obtain ⟨m1, m2⟩ := mixers cp s1 s2 h1 h2 x
  refine ⟨fun i j k hij hik hjk dm T e1 e2 e3 e4 e5 => ?_, by rw [m2]; exact key⟩
  rw [m1 i j k hij hik hjk dm T e1 e2 e3 e4 e5]
  exact key

/-- **C30**, partial: for water between 0 and 98 degrees the enthalpy flow that leaves a connector or mixing
valve, as the next part sees it, differs from the enthalpy flows that enter by at most 1.01 percent. -/
theorem C30_enthalpy_error_partial (s1 s2 : Stream K) (h1 : 0 < s1.dm) (h2 : 0 < s2.dm)
    (t1 : 0 ≤ s1.T ∧ s1.T ≤ 98) (t2 : 0 ≤ s2.T ∧ s2.T ≤ 98) (x : K) :
    let E := s1.enthalpy Water.cp + s2.enthalpy Water.cp
    (∀ i j k : Fin 3, i ≠ j → i ≠ k → j ≠ k → ∀ dm T : Fin 3 → K, dm i = s1.dm → dm j = s2.dm →
      dm k = -(s1.dm + s2.dm) → T i = s1.T → T j = s2.T →
      |Stream.enthalpy Water.cp ⟨s1.dm + s2.dm, connector Water.cp dm T k⟩ - E| ≤ 101 / 10000 * E) ∧
    |Stream.enthalpy Water.cp ⟨s1.dm + s2.dm,
      mixValve Water.cp ![s1.dm, s2.dm, s1.dm + s2.dm] ![s1.T, s2.T, x] 2⟩ - E| ≤ 101 / 10000 * E := by
  intro E
  have key : |Stream.enthalpy Water.cp ⟨s1.dm + s2.dm, outletT Water.cp s1 s2⟩ - E| ≤ 101 / 10000 * E := by
    have hmean : 0 ≤ (s1.T + s2.T) / 2 ∧ (s1.T + s2.T) / 2 ≤ 100 := by
      constructor <;> linarith [t1.1, t1.2, t2.1, t2.2]
    have cm1 := Water.cp_ge hmean.1 hmean.2
    have cm2 := Water.cp_le hmean.1 hmean.2
    have hE : (s1.dm + s2.dm) * (Water.cp ((s1.T + s2.T) / 2) * outletT Water.cp s1 s2) = E := by
      have a1 : s1.dm + s2.dm ≠ 0 := by positivity
      have a2 : Water.cp ((s1.T + s2.T) / 2) ≠ 0 := by linarith
      simp only [E]
      unfold outletT Stream.enthalpy
      field_simp
    obtain ⟨o1, o2⟩ := outlet_bounds (cp := Water.cp) h1 h2 (a := 4177) (b := 4219) (m := 0) (M := 98)
      (by norm_num) le_rfl t1 t2
      ⟨Water.cp_ge t1.1 (by linarith [t1.2]), Water.cp_le t1.1 (by linarith [t1.2])⟩
      ⟨Water.cp_ge t2.1 (by linarith [t2.2]), Water.cp_le t2.1 (by linarith [t2.2])⟩ ⟨cm1, cm2⟩
    rw [mul_zero] at o1
    have o3 : outletT Water.cp s1 s2 ≤ 100 := o2.trans (by norm_num)
    have co1 := Water.cp_ge o1 o3
    have co2 := Water.cp_le o1 o3
    set t := outletT Water.cp s1 s2
    set cm := Water.cp ((s1.T + s2.T) / 2)
    have hs : 0 ≤ (s1.dm + s2.dm) * t := mul_nonneg (by linarith) o1
    have e1 : Stream.enthalpy Water.cp ⟨s1.dm + s2.dm, t⟩ - E = (Water.cp t - cm) * ((s1.dm + s2.dm) * t) := by
      rw [← hE]; unfold Stream.enthalpy; ring
    have e2 : E = cm * ((s1.dm + s2.dm) * t) := by rw [← hE]; ring
    rw [e1, e2, abs_mul, abs_of_nonneg hs, ← mul_assoc (101 / 10000)]
    refine mul_le_mul_of_nonneg_right ?_ hs
    rw [abs_le]
    constructor <;> linarith
  obtain ⟨m1, m2⟩ := mixers Water.cp s1 s2 h1 h2 x
  refine ⟨fun i j k hij hik hjk dm T e1 e2 e3 e4 e5 => ?_, by rw [m2]; exact key⟩
  rw [m1 i j k hij hik hjk dm T e1 e2 e3 e4 e5]
  exact key

/-- **C30** is false of the code: with 1 kg/s at 90 degrees and 1 g/s at 10 degrees more than half a percent
of the enthalpy appears out of nothing (the comment at `precomp_funs.py:3300` promises much less). -/
theorem C30_fails_water :
    let s1 : Stream ℚ := ⟨1, 90⟩
    let s2 : Stream ℚ := ⟨1 / 1000, 10⟩
    (1 + 1 / 200) * (s1.enthalpy Water.cp + s2.enthalpy Water.cp) <
      Stream.enthalpy Water.cp ⟨s1.dm + s2.dm,
        connector Water.cp ![1, 1 / 1000, -(1 + 1 / 1000)] ![90, 10, (50 : ℚ)] 2⟩ := by
  obtain ⟨m1, -⟩ := mixers Water.cp (⟨1, 90⟩ : Stream ℚ) ⟨1 / 1000, 10⟩ (by norm_num) (by norm_num) 50
  rw [m1 0 1 2 (by decide) (by decide) (by decide) _ _ rfl rfl rfl rfl rfl]
  norm_num [outletT, Water.cp, Stream.enthalpy]

/-! ## C31 -/

/-- **C31** (valve and pump): a splitting valve shows the inlet temperature at both outlets and the mean of
the outlets at the inlet; a pump shows each side the temperature of the other side. -/
theorem C31_split_and_pump (a b c : K) :
    (splitValve ![a, b, c] 0 = c ∧ splitValve ![a, b, c] 1 = c ∧ splitValve ![a, b, c] 2 = (a + b) / 2) ∧
    pump ![a, b] 0 = b ∧ pump ![a, b] 1 = a := ⟨⟨rfl, rfl, rfl⟩, rfl, rfl⟩

/-- **C31** (connector): the only inflow is shown unchanged at every outflow. -/
theorem C31_connector_passes_inflow (cp : K → K) (dm T : Fin 3 → K) (i : Fin 3)
    (hi : 0 < dm i) (honly : ∀ j, j ≠ i → dm j ≤ 0) :
    ∀ j, dm j < 0 → connector cp dm T j = T i := by
  intro j hj
  have hij : i ≠ j := by rintro rfl; linarith
  obtain ⟨k, hik, hjk⟩ : ∃ k : Fin 3, i ≠ k ∧ j ≠ k := by
    clear hi honly hj
    revert i j
    decide
  rcases lt_or_eq_of_le (honly k hik.symm) with hk | hk
  · exact (connector_split cp dm T hij hik hjk hi hj hk).1
  · exact (connector_through cp dm T hij hik hjk hi hj hk).1

/-- The possible sign patterns of balanced flows. -/
theorem patterns (dm : Fin 3 → K) (hb : ∑ i, dm i = 0) :
    (∀ i, dm i = 0) ∨ ∃ i j k : Fin 3, i ≠ j ∧ i ≠ k ∧ j ≠ k ∧
      ((0 < dm i ∧ 0 < dm j ∧ dm k = -(dm i + dm j)) ∨ (0 < dm i ∧ dm j < 0 ∧ dm k < 0) ∨
        (0 < dm i ∧ dm j < 0 ∧ dm k = 0)) := by
  rw [Fin.sum_univ_three] at hb
  have d01 : (0 : Fin 3) ≠ 1 := by decide
  have d02 : (0 : Fin 3) ≠ 2 := by decide
  have d12 : (1 : Fin 3) ≠ 2 := by decide
  rcases lt_trichotomy (dm 0) 0 with h0 | h0 | h0 <;> rcases lt_trichotomy (dm 1) 0 with h1 | h1 | h1 <;>
    rcases lt_trichotomy (dm 2) 0 with h2 | h2 | h2 <;>
    first
      | exact (by exfalso; linarith)
      | exact .inl (Fin.forall_fin_succ.2 ⟨h0, Fin.forall_fin_two.2 ⟨h1, h2⟩⟩)
      | exact .inr ⟨0, 1, 2, d01, d02, d12, .inl ⟨h0, h1, by linarith⟩⟩
      | exact .inr ⟨0, 2, 1, d02, d01, d12.symm, .inl ⟨h0, h2, by linarith⟩⟩
      | exact .inr ⟨1, 2, 0, d12, d01.symm, d02.symm, .inl ⟨h1, h2, by linarith⟩⟩
      | exact .inr ⟨0, 1, 2, d01, d02, d12, .inr (.inl ⟨h0, h1, h2⟩)⟩
      | exact .inr ⟨1, 0, 2, d01.symm, d12, d02, .inr (.inl ⟨h1, h0, h2⟩)⟩
      | exact .inr ⟨2, 0, 1, d02.symm, d12.symm, d01, .inr (.inl ⟨h2, h0, h1⟩)⟩
      | exact .inr ⟨0, 1, 2, d01, d02, d12, .inr (.inr ⟨h0, h1, h2⟩)⟩
      | exact .inr ⟨0, 2, 1, d02, d01, d12.symm, .inr (.inr ⟨h0, h2, h1⟩)⟩
      | exact .inr ⟨1, 0, 2, d01.symm, d12, d02, .inr (.inr ⟨h1, h0, h2⟩)⟩
      | exact .inr ⟨1, 2, 0, d12, d01.symm, d02.symm, .inr (.inr ⟨h1, h2, h0⟩)⟩
      | exact .inr ⟨2, 0, 1, d02.symm, d12.symm, d01, .inr (.inr ⟨h2, h0, h1⟩)⟩
      | exact .inr ⟨2, 1, 0, d12.symm, d02.symm, d01.symm, .inr (.inr ⟨h2, h1, h0⟩)⟩

/-- **C31** (range): for balanced flows, every value a connector, a valve or a pump shows to its neighbours
lies within the range of the temperatures read, except the mixed temperature of two inflows (C29). -/
theorem C31_values_in_range (cp : K → K) (m M : K) :
    (∀ dm T : Fin 3 → K, ∑ i, dm i = 0 → (∀ i, m ≤ T i ∧ T i ≤ M) → ∀ k,
      (∀ i j, i ≠ j → 0 < dm i → 0 < dm j → ¬ dm k < 0) →
      m ≤ connector cp dm T k ∧ connector cp dm T k ≤ M) ∧
    (∀ dm T : Fin 3 → K, (∀ i, m ≤ T i ∧ T i ≤ M) → ∀ k, (dm 2 = 0 ∨ k ≠ 2) →
      m ≤ mixValve cp dm T k ∧ mixValve cp dm T k ≤ M) ∧
    (∀ T : Fin 3 → K, (∀ i, m ≤ T i ∧ T i ≤ M) → ∀ k, m ≤ splitValve T k ∧ splitValve T k ≤ M) ∧
    (∀ T : Fin 2 → K, (∀ i, m ≤ T i ∧ T i ≤ M) → ∀ k, m ≤ pump T k ∧ pump T k ≤ M) := by
  have mean : ∀ a b : K, m ≤ a ∧ a ≤ M → m ≤ b ∧ b ≤ M → m ≤ (a + b) / 2 ∧ (a + b) / 2 ≤ M := by
    intro a b h1 h2
    constructor <;> linarith [h1.1, h1.2, h2.1, h2.2]
  refine ⟨fun dm T hb hT k hk => ?_, fun dm T hT k hk => ?_, fun T hT k => ?_, fun T hT k => ?_⟩
  · rcases patterns dm hb with h | ⟨a, b, c, hab, hac, hbc, h | h | h⟩
    · obtain ⟨i, j, h1, h2, h3⟩ : ∃ i j : Fin 3, k ≠ i ∧ k ≠ j ∧ i ≠ j := by
        clear hk; revert k; decide
      rw [connector_rest cp dm T h h1 h2 h3]
      exact mean _ _ (hT _) (hT _)
    · obtain ⟨-, e2, e3⟩ := connector_mix cp dm T hab hac hbc h.1 h.2.1 h.2.2
      have hkc : k ≠ c := by
        rintro rfl
        exact hk a b hab h.1 h.2.1 (by rw [h.2.2]; linarith [h.1, h.2.1])
      have : k = a ∨ k = b := by
        clear hk e2 e3 h
        revert k a b c
        decide
      rcases this with rfl | rfl
      · rw [e2]; exact hT _
      · rw [e3]; exact hT _
    · obtain ⟨e1, e2, e3⟩ := connector_split cp dm T hab hac hbc h.1 h.2.1 h.2.2
      have : k = a ∨ k = b ∨ k = c := by
        clear hk e1 e2 e3 h
        revert k a b c
        decide
      rcases this with rfl | rfl | rfl
      · rw [e3]; exact mean _ _ (hT _) (hT _)
      · rw [e1]; exact hT _
      · rw [e2]; exact hT _
    · obtain ⟨e1, e2, e3⟩ := connector_through cp dm T hab hac hbc h.1 h.2.1 h.2.2
      have : k = a ∨ k = b ∨ k = c := by
        clear hk e1 e2 e3 h
        revert k a b c
        decide
      rcases this with rfl | rfl | rfl
      · rw [e3]; exact mean _ _ (hT _) (mean _ _ (hT _) (hT _))
      · rw [e1]; exact hT _
      · rw [e2]; exact mean _ _ (hT _) (hT _)
  · unfold mixValve
    split_ifs with h
    · have hk' := hk.resolve_left h
      fin_cases k
      · exact mean _ _ (hT _) (hT _)
      · exact mean _ _ (hT _) (hT _)
      · exact absurd rfl hk'
    · fin_cases k
      · exact mean _ _ (hT _) (hT _)
      · exact mean _ _ (hT _) (hT _)
      · exact mean _ _ (hT _) (hT _)
  · fin_cases k
    · exact hT _
    · exact hT _
    · exact mean _ _ (hT _) (hT _)
  · fin_cases k
    · exact hT _
    · exact hT _

example : ∑ i, (![2, -3, 1] : Fin 3 → ℚ) i = 0 ∧ (∀ i, (10 : ℚ) ≤ (![20, 30, 40] : Fin 3 → ℚ) i ∧
    (![20, 30, 40] : Fin 3 → ℚ) i ≤ 50) := by
  constructor
  · decide +kernel
  · decide +kernel

end Verif.Mixing
