import Verif.Props.PlateCount
import Verif.Props.PlatePower

/-!
# C188: a larger plate heat exchanger transfers more heat
-/

namespace Verif.PlateCount

open Verif.FlowAlpha Verif.HexNum Verif.PlateHex Verif.Conductance Verif.PlatePower

/-- The same channels and numbers of plates, but plates that are not smaller, not thicker and do not conduct worse. -/
structure Better (g g' : Plates) : Prop where
  aChannel : g'.aChannel = g.aChannel
  dh : g'.dh = g.dh
  length : g'.length = g.length
  corr : g'.corr = g.corr
  chSup : g'.chSup = g.chSup
  chDmd : g'.chDmd = g.chDmd
  numA : g'.numA = g.numA
  aPlate : g.aPlate ≤ g'.aPlate
  sPlate : g'.sPlate ≤ g.sPlate
  lamWll : g.lamWll ≤ g'.lamWll

/-- One of the three differs. -/
def Differs (g g' : Plates) : Prop := g.aPlate < g'.aPlate ∨ g'.sPlate < g.sPlate ∨ g.lamWll < g'.lamWll

theorem onePlate_pos {A s lam aS aD : ℝ} (hA : 0 < A) (hs : 0 < s) (hl : 0 < lam) (h1 : 0 < aS) (h2 : 0 < aD) :
    0 < onePlate A s lam aS aD := by unfold onePlate; positivity

theorem onePlate_le {A A' s s' lam lam' aS aD : ℝ} (hA : 0 < A) (hs : 0 < s') (hl : 0 < lam) (h1 : 0 < aS) (h2 : 0 < aD)
    (ha : A ≤ A') (hss : s' ≤ s) (hll : lam ≤ lam') : onePlate A s lam aS aD ≤ onePlate A' s' lam' aS aD := by
  unfold onePlate
  have h3 : s' / lam' ≤ s / lam := div_le_div₀ (hs.le.trans hss) hss hl hll
  have h4 : 0 < s' / lam' := div_pos hs (hl.trans_le hll)
  exact div_le_div₀ (hA.le.trans ha) ha (by positivity) (by linarith)

theorem onePlate_lt {A A' s s' lam lam' aS aD : ℝ} (hA : 0 < A) (hs : 0 < s') (hl : 0 < lam) (h1 : 0 < aS) (h2 : 0 < aD)
    (ha : A ≤ A') (hss : s' ≤ s) (hll : lam ≤ lam') (hd : A < A' ∨ s' < s ∨ lam < lam') :
    onePlate A s lam aS aD < onePlate A' s' lam' aS aD := by
  unfold onePlate
  have h3 : s' / lam' ≤ s / lam := div_le_div₀ (hs.le.trans hss) hss hl hll
  have h4 : 0 < s' / lam' := div_pos hs (hl.trans_le hll)
  have h5 : 0 < 1 / aS + s' / lam' + 1 / aD := by positivity
  have hs0 : 0 < s := hs.trans_le hss
  rcases hd with h | h
  · exact div_lt_div₀ h (by linarith) (hA.le.trans ha) h5
  · have h6 : s' / lam' < s / lam := by
      rcases h with h | h
      · exact div_lt_div₀ h hll hs0.le hl
      · exact div_lt_div₀' hss h hs0 hl
    exact div_lt_div₀' ha (by linarith) (hA.trans_le ha) h5

/-- Heat per degree grows with the heat transfer value, whatever side of the limit the formula is on. -/
theorem power_le {U V C D : ℝ} (hU : 0 < U) (hUV : U ≤ V) (hC : 0 < C) (hD : 0 < D) (h1 : (C / D - 1) * (U / C) ≠ 100)
    (h2 : (C / D - 1) * (V / C) ≠ 100) :
    pSup (U / C) (C / D) * C ≤ pSup (V / C) (C / D) * C ∧
      (U < V → (C / D - 1) * (U / C) < 100 → pSup (U / C) (C / D) * C < pSup (V / C) (C / D) * C) := by
  have hV : 0 < V := hU.trans_le hUV
  rcases lt_or_gt_of_ne h1 with a | a
  · rcases lt_or_gt_of_ne h2 with b | b
    · rw [power_eq hU hC hD a, power_eq hV hC hD b]
      have p := psi_pos hV (1 / C - 1 / D)
      constructor
      · rcases eq_or_lt_of_le hUV with e | e
        · rw [e]
        · have := psi_anti hU e (1 / C - 1 / D)
          exact one_div_le_one_div_of_le (by positivity) (by linarith)
      · intro e _
        have := psi_anti hU e (1 / C - 1 / D)
        exact one_div_lt_one_div_of_lt (by positivity) (by linarith)
    · rw [power_eq hU hC hD a, power_above hC hD b]
      exact ⟨(power_lt_capacity hU hD).le, fun _ _ => power_lt_capacity hU hD⟩
  · have b : 100 < (C / D - 1) * (V / C) := by
      have k : 0 < C / D - 1 := by
        by_contra hh
        have : (C / D - 1) * (U / C) ≤ 0 := mul_nonpos_of_nonpos_of_nonneg (not_lt.1 hh) (by positivity)
        linarith
      refine a.trans_le (mul_le_mul_of_nonneg_left ?_ k.le)
      gcongr
    rw [power_above hC hD a, power_above hC hD b]
    exact ⟨le_rfl, fun _ h => absurd h (not_lt.2 a.le)⟩

section
variable {g g' : Plates} (v : g.Valid) (v' : g'.Valid) (hb : Better g g') {Tp : Fin 4 → ℝ} (s0 : 0 ≤ meanS Tp)
  (s1 : meanS Tp ≤ 100) (d0 : 0 ≤ meanD Tp) (d1 : meanD Tp ≤ 100)
include v v' hb s0 s1 d0 d1

/-- **C188** (plates; partial: plates ten times as long as the hydraulic diameter, not exactly at the limit of the formula):
with the same channels, flows and temperatures, a heat exchanger with larger, thinner or better conducting plates
transfers at least as much heat, and more unless the formula is cut off already. -/
theorem C188_plates_partial {a c : ℝ} (ha : a ≠ 0) (hc : c ≠ 0) (hot : Tp (dmdIn c) < Tp (supIn a))
    (h1 : ∀ ua, plateUA g |a| |c| (meanS Tp) (meanD Tp) = some ua → excess a c Tp ua ≠ 100)
    (h2 : ∀ ua, plateUA g' |a| |c| (meanS Tp) (meanD Tp) = some ua → excess a c Tp ua ≠ 100) :
    ∃ T T', solvePlates g a c Tp = some T ∧ solvePlates g' a c Tp = some T' ∧
      given a Tp T ≤ given a Tp T' ∧
      (Differs g g' → (∀ ua, plateUA g |a| |c| (meanS Tp) (meanD Tp) = some ua → excess a c Tp ua < 100) →
        given a Tp T < given a Tp T') := by
  have hcs : 0 < Water.cp (meanS Tp) := lt_of_lt_of_le (by norm_num) (Water.cp_ge s0 s1)
  have hcd : 0 < Water.cp (meanD Tp) := lt_of_lt_of_le (by norm_num) (Water.cp_ge d0 d1)
  have big : ∀ z : ℝ, |z| < |(|z| + 1)| := by
    intro z
    rw [abs_of_pos (show 0 < |z| + 1 by positivity)]
    linarith
  obtain ⟨⟨u, -, hu, -, u0, -⟩, -⟩ := C126_value_partial v (a := |a|) (b := |(|a|)| + 1) (c := |c|) s0 s1 d0 d1 (big _)
  obtain ⟨⟨w, -, hw, -, w0, -⟩, -⟩ := C126_value_partial v' (a := |a|) (b := |(|a|)| + 1) (c := |c|) s0 s1 d0 d1 (big _)
  obtain ⟨T, hT, qT⟩ := given_eq (Tp := Tp) ha hc hu
  obtain ⟨T', hT', qT'⟩ := given_eq (Tp := Tp) ha hc hw
  obtain ⟨aS, aD, e1, e2, e3⟩ := plateUA_eq hu
  obtain ⟨aS', aD', f1, f2, f3⟩ := plateUA_eq hw
  rw [hb.chSup, hb.aChannel, hb.dh, hb.length, hb.corr, e1] at f1
  rw [hb.chDmd, hb.aChannel, hb.dh, hb.length, hb.corr, e2] at f2
  cases f1
  cases f2
  rw [hb.numA] at f3
  have pos : ∀ {t m x : ℝ}, 0 ≤ t → t ≤ 100 → phexAlpha m t t g.aChannel g.dh g.length g.corr = some x → 0 < x := by
    intro t m x t0 t1 hx
    obtain ⟨α, -, k, -, -, k0, -⟩ := C126_more_flow_partial t0 t1 t0 t1 v.aChannel v.dh v.length v.corr _ _ (big m)
    rw [hx] at k
    cases k
    exact k0
  have pS := pos s0 s1 e1
  have pD := pos d0 d1 e2
  have huw : u ≤ w := by
    rw [e3, f3]
    exact mul_le_mul_of_nonneg_right
      (onePlate_le v.aPlate v'.sPlate v.lamWll pS pD hb.aPlate hb.sPlate hb.lamWll) v.numA.le
  have hA : 0 < |a| * Water.cp (meanS Tp) := mul_pos (abs_pos.2 ha) hcs
  have hC : 0 < |c| * Water.cp (meanD Tp) := mul_pos (abs_pos.2 hc) hcd
  obtain ⟨l1, l2⟩ := power_le u0 huw hA hC (h1 u hu) (h2 w hw)
  have hΔ : 0 < Tp (supIn a) - Tp (dmdIn c) := by linarith
  refine ⟨T, T', hT, hT', ?_, fun hd hx => ?_⟩
  · rw [qT, qT']
    exact mul_le_mul_of_nonneg_right l1 hΔ.le
  · rw [qT, qT']
    refine mul_lt_mul_of_pos_right (l2 ?_ (hx u hu)) hΔ
    rw [e3, f3]
    exact mul_lt_mul_of_pos_right
      (onePlate_lt v.aPlate v'.sPlate v.lamWll pS pD hb.aPlate hb.sPlate hb.lamWll hd) v.numA

end

/-- The twenty plates of the example of C126 with twice their area. -/
example : Better someP { someP with aPlate := 0.06 } ∧ Differs someP { someP with aPlate := 0.06 } ∧
    Plates.Valid { someP with aPlate := 0.06 } := by
  refine ⟨by constructor <;> norm_num [someP], Or.inl (by norm_num [someP]), by constructor <;> norm_num [someP]⟩

/-! ## More plates -/

/-- The coefficient between plates at mean temperature `T` and a Reynolds number. -/
noncomputable def alphaAt (g : Plates) (T Re : ℝ) : ℝ := plateNu Re (Water.Pr T) g.dh g.length * Water.lam T / g.dh

theorem alpha_at {g : Plates} (v : g.Valid) {T dm : ℝ} (t0 : 0 ≤ T) (t1 : T ≤ 100) :
    phexAlpha dm T T g.aChannel g.dh g.length g.corr = some (alphaAt g T (reynolds dm T g.aChannel g.dh + g.corr)) := by
  have := reynolds_nonneg t0 t1 v.aChannel v.dh dm
  rw [phexAlpha_eq (by linarith [v.corr]), wallFactor_self t0 t1, mul_one]
  rfl

/-- The jump of the coefficient: every turbulent one is at least a fixed amount above the one at a Reynolds number of 2300. -/
theorem alpha_jump {g : Plates} (v : g.Valid) {T : ℝ} (t0 : 0 ≤ T) (t1 : T ≤ 100) :
    0 < alphaAt g T 2300 ∧ ∃ β, alphaAt g T 2300 < β ∧ ∀ Re, 2300 < Re → β ≤ alphaAt g T Re := by
  have hl : 0 < Water.lam T := lt_of_lt_of_le (by norm_num) (Water.lam_ge t0 t1)
  have hp : (1 : ℝ) ≤ Water.Pr T := le_trans (by norm_num) (Water.Pr_ge t0 t1)
  have hd := v.dh
  have hx : 0 < g.length := by linarith [v.length]
  have h1 := plateNu_pos (a := 2300) (x := g.length) (by norm_num) hp hd hx
  have h2 := plate_transition hp hd v.length
  refine ⟨by unfold alphaAt; positivity, plateTurbulentNu 2300 (Water.Pr T) g.dh g.length * Water.lam T / g.dh, ?_, ?_⟩
  · unfold alphaAt plateNu
    rw [if_neg (lt_irrefl _)]
    gcongr
  · intro Re hRe
    unfold alphaAt plateNu
    rw [if_pos hRe]
    have : plateTurbulentNu 2300 (Water.Pr T) g.dh g.length ≤ plateTurbulentNu Re (Water.Pr T) g.dh g.length := by
      rw [plateTurbulentNu_eq, plateTurbulentNu_eq]
      exact mul_le_mul_of_nonneg_right (core_lt le_rfl hRe hp).le (by positivity)
    gcongr

theorem onePlate_alpha {A s lam a a' b b' : ℝ} (hA : 0 < A) (hs : 0 < s) (hl : 0 < lam) (ha : 0 < a) (hb : 0 < b) (h1 : a ≤ a')
    (h2 : b ≤ b') : onePlate A s lam a b ≤ onePlate A s lam a' b' := by
  unfold onePlate
  have k1 := one_div_le_one_div_of_le ha h1
  have k2 := one_div_le_one_div_of_le hb h2
  have a' : 0 < a' := ha.trans_le h1
  have b' : 0 < b' := hb.trans_le h2
  exact div_le_div_of_nonneg_left hA.le (by positivity) (by linarith)

theorem onePlate_alpha_lt {A s lam a a' b b' : ℝ} (hA : 0 < A) (hs : 0 < s) (hl : 0 < lam) (ha : 0 < a) (hb : 0 < b) (h1 : a < a')
    (h2 : b ≤ b') : onePlate A s lam a b < onePlate A s lam a' b' := by
  unfold onePlate
  have k1 := one_div_lt_one_div_of_lt ha h1
  have k2 := one_div_le_one_div_of_le hb h2
  have a' : 0 < a' := ha.trans h1
  have b' : 0 < b' := hb.trans_le h2
  exact div_lt_div_of_pos_left hA (by positivity) (by linarith)

theorem channels_even (k : ℤ) : channels (2 * k) 1 .demand = some (k - 1, k) := by
  unfold channels
  rw [if_neg (by norm_num), if_pos rfl, if_pos (by omega)]
  simp

/-- The heat exchanger with `2 k` plates in one pass. -/
noncomputable def evenPlates (g : Plates) (k : ℤ) : Plates :=
  { g with chSup := ((k - 1 : ℤ) : ℝ), chDmd := (k : ℝ), aPlate := g.aPlate * ((1 : ℤ) : ℝ), numA := ((2 * k - 2 : ℤ) : ℝ) }

theorem build_even (g : Plates) (k : ℤ) : build g (2 * k) 1 .demand = some (evenPlates g k) := by
  unfold build evenPlates
  rw [channels_even]
  simp [numA]

/-- **C188** fails for the number of plates: for every kind of plates (whose correction does not make every flow turbulent) there are
a heat exchanger, flows and temperatures for which *two more plates* transfer *less* heat: the coefficient jumps where the formula for
turbulent flow ends, and more channels have less flow each. -/
theorem C188_fails_plates {g : Plates} (v : g.Valid) (hcorr : g.corr < 2300) :
    ∃ (plates : ℤ) (dmS dmD : ℝ) (Tp : Fin 4 → ℝ) (g₁ g₂ : Plates) (T₁ T₂ : Fin 4 → ℝ), 4 < plates ∧ 0 < dmS ∧ 0 < dmD ∧
      Tp 2 < Tp 0 ∧ build g plates 1 .demand = some g₁ ∧ build g (plates + 2) 1 .demand = some g₂ ∧
      solvePlates g₁ dmS dmD Tp = some T₁ ∧ solvePlates g₂ dmS dmD Tp = some T₂ ∧
      given dmS Tp T₂ < given dmS Tp T₁ := by
  obtain ⟨l0, β, hβ, hjump⟩ := alpha_jump v (T := 50) (by norm_num) (by norm_num)
  set α := alphaAt g 50 2300
  have b0 : 0 < β := l0.trans hβ
  have q0 := onePlate_pos v.aPlate v.sPlate v.lamWll l0 l0
  have q1 := onePlate_alpha_lt v.aPlate v.sPlate v.lamWll l0 l0 hβ hβ.le
  set p := onePlate g.aPlate g.sPlate g.lamWll α α
  set q := onePlate g.aPlate g.sPlate g.lamWll β β
  obtain ⟨n, hn⟩ := exists_nat_gt (q / (q - p))
  obtain ⟨k, hk, hk3⟩ : ∃ k : ℤ, q / (q - p) < (k : ℝ) ∧ 3 ≤ k := by
    refine ⟨n + 3, ?_, by omega⟩
    push_cast
    linarith
  have hkR : (3 : ℝ) ≤ k := by exact_mod_cast hk3
  have hgain : (k : ℝ) * p < (k - 1) * q := by
    rw [div_lt_iff₀ (by linarith)] at hk
    linarith
  have slope := reynolds_slope (T := 50) (by norm_num) (by norm_num) v.aChannel v.dh
  set r := g.dh / (Water.rho 50 * g.aChannel * Water.ny 50)
  -- the flows
  set R := 2300 - g.corr
  have hR : 0 < R := by simp only [R]; linarith
  have k1 : (0 : ℝ) < k - 1 := by linarith
  have k0 : (0 : ℝ) < k := by linarith
  have hS : 0 < R * k / r := by positivity
  have hD : 0 < R * (k + 1) / r := by positivity
  have re : ∀ dm : ℝ, 0 < dm → reynolds dm 50 g.aChannel g.dh = dm * r := by
    intro dm hdm
    rw [reynolds_eq (by norm_num) (by norm_num) v.aChannel v.dh, abs_of_pos hdm]
  have vk : ∀ j : ℤ, 3 ≤ j → (evenPlates g j).Valid := by
    intro j hj
    have hjR : (3 : ℝ) ≤ j := by exact_mod_cast hj
    constructor
    · exact v.aChannel
    · exact v.dh
    · exact v.length
    · exact v.corr
    · simp only [evenPlates]; push_cast; linarith
    · simp only [evenPlates]; linarith
    · simp only [evenPlates]; push_cast; linarith [v.aPlate]
    · exact v.sPlate
    · exact v.lamWll
    · simp only [evenPlates]; push_cast; linarith
  have val : ∀ j : ℤ, 3 ≤ j → plateUA (evenPlates g j) (R * k / r) (R * (k + 1) / r) 50 50 =
      some (onePlate g.aPlate g.sPlate g.lamWll (alphaAt g 50 (R * k / (j - 1) + g.corr)) (alphaAt g 50 (R * (k + 1) / j + g.corr))
        * (2 * j - 2)) := by
    intro j hj
    have hjR : (3 : ℝ) ≤ j := by exact_mod_cast hj
    obtain ⟨⟨u, -, hu, -, -, -⟩, -⟩ := C126_value_partial (vk j hj) (Ts := 50) (Td := 50) (a := R * k / r) (b := |R * k / r| + 1)
      (c := R * (k + 1) / r) (by norm_num) (by norm_num) (by norm_num) (by norm_num) (by
        rw [abs_of_pos (show (0 : ℝ) < |R * k / r| + 1 by positivity)]; linarith)
    obtain ⟨aS, aD, e1, e2, e3⟩ := plateUA_eq hu
    simp only [evenPlates] at e1 e2 e3
    rw [alpha_at v (by norm_num) (by norm_num), re _ (div_pos hS (by push_cast; linarith))] at e1
    rw [alpha_at v (by norm_num) (by norm_num), re _ (div_pos hD (by linarith))] at e2
    have x1 : R * k / r / ((j - 1 : ℤ) : ℝ) * r = R * k / (j - 1) := by
      push_cast
      have : (j : ℝ) - 1 ≠ 0 := by linarith
      field_simp
    have x2 : R * (k + 1) / r / (j : ℝ) * r = R * (k + 1) / j := by
      have : (j : ℝ) ≠ 0 := by linarith
      field_simp
    rw [x1] at e1
    rw [x2] at e2
    rw [hu, e3, ← Option.some.inj e1, ← Option.some.inj e2]
    push_cast
    rw [mul_one]
  have v1 := val k hk3
  have v2 := val (k + 1) (by omega)
  -- two more plates: laminar
  have y1 : R * k / (((k + 1 : ℤ) : ℝ) - 1) + g.corr = 2300 := by
    push_cast
    rw [add_sub_cancel_right]
    simp only [R]
    field_simp
    ring
  have y2 : R * (k + 1) / ((k + 1 : ℤ) : ℝ) + g.corr = 2300 := by
    push_cast
    have : (k : ℝ) + 1 ≠ 0 := by linarith
    simp only [R]
    field_simp
    ring
  rw [y1, y2] at v2
  -- before: turbulent
  have z1 : 2300 < R * k / ((k : ℝ) - 1) + g.corr := by
    have : R < R * k / ((k : ℝ) - 1) := by rw [lt_div_iff₀ k1]; nlinarith
    simp only [R] at this ⊢
    linarith
  have z2 : 2300 < R * (k + 1) / (k : ℝ) + g.corr := by
    have : R < R * (k + 1) / (k : ℝ) := by rw [lt_div_iff₀ k0]; nlinarith
    simp only [R] at this ⊢
    linarith
  have w1 := hjump _ z1
  have w2 := hjump _ z2
  have ge := onePlate_alpha v.aPlate v.sPlate v.lamWll b0 b0 w1 w2
  set u := onePlate g.aPlate g.sPlate g.lamWll (alphaAt g 50 (R * k / ((k : ℝ) - 1) + g.corr))
    (alphaAt g 50 (R * (k + 1) / (k : ℝ) + g.corr)) * (2 * k - 2) with hu
  have hlt : p * (2 * ((k + 1 : ℤ) : ℝ) - 2) < u := by
    have : q * (2 * k - 2) ≤ u := mul_le_mul_of_nonneg_right ge (by linarith)
    push_cast
    nlinarith
  have hw0 : 0 < p * (2 * ((k + 1 : ℤ) : ℝ) - 2) := mul_pos q0 (by push_cast; linarith)
  -- the temperatures
  set Tp : Fin 4 → ℝ := ![60, 40, 40, 60]
  have t0 : Tp 0 = 60 := rfl
  have t1 : Tp 1 = 40 := rfl
  have t2 : Tp 2 = 40 := rfl
  have t3 : Tp 3 = 60 := rfl
  have m1 : meanS Tp = 50 := by rw [meanS, t0, t1]; norm_num
  have m2 : meanD Tp = 50 := by rw [meanD, t2, t3]; norm_num
  have aS : |R * k / r| = R * k / r := abs_of_pos hS
  have aD : |R * (k + 1) / r| = R * (k + 1) / r := abs_of_pos hD
  obtain ⟨T₁, g1, g2⟩ := given_eq (g := evenPlates g k) (Tp := Tp) hS.ne' hD.ne' (by rw [aS, aD, m1, m2]; exact v1)
  obtain ⟨T₂, g3, g4⟩ := given_eq (g := evenPlates g (k + 1)) (Tp := Tp) hS.ne' hD.ne' (by rw [aS, aD, m1, m2]; exact v2)
  refine ⟨2 * k, R * k / r, R * (k + 1) / r, Tp, evenPlates g k, evenPlates g (k + 1), T₁, T₂, by omega, hS, hD, ?_,
    build_even g k, ?_, g1, g3, ?_⟩
  · rw [t0, t2]; norm_num
  · rw [show 2 * k + 2 = 2 * (k + 1) by ring]
    exact build_even g (k + 1)
  · have i1 : supIn (R * k / r) = 0 := if_pos hS.le
    have i2 : dmdIn (R * (k + 1) / r) = 2 := if_pos hD.le
    have hΔ : 0 < Tp (supIn (R * k / r)) - Tp (dmdIn (R * (k + 1) / r)) := by
      rw [i1, i2, t0, t2]; norm_num
    rw [g2, g4, aS, aD, m1, m2]
    have hcp : 0 < Water.cp (50 : ℝ) := lt_of_lt_of_le (by norm_num) (Water.cp_ge (by norm_num) (by norm_num))
    have hC : 0 < R * k / r * Water.cp 50 := mul_pos hS hcp
    have hC' : 0 < R * (k + 1) / r * Water.cp 50 := mul_pos hD hcp
    have hle : R * k / r * Water.cp 50 < R * (k + 1) / r * Water.cp 50 := by
      apply mul_lt_mul_of_pos_right _ hcp
      apply div_lt_div_of_pos_right _ slope
      exact mul_lt_mul_of_pos_left (by linarith) hR
    have neg : ∀ U : ℝ, 0 < U → (R * k / r * Water.cp 50 / (R * (k + 1) / r * Water.cp 50) - 1) * (U / (R * k / r * Water.cp 50)) < 100 := by
      intro U hU
      have := (div_lt_one hC').2 hle
      have h3 : 0 < U / (R * k / r * Water.cp 50) := by positivity
      exact (mul_neg_of_neg_of_pos (sub_neg.2 this) h3).trans (by norm_num)
    exact mul_lt_mul_of_pos_right ((power_le hw0 hlt.le hC hC' (neg _ hw0).ne (neg _ (hw0.trans hlt)).ne).2 hlt (neg _ hw0)) hΔ

/-- The plates of the example of C126. -/
example : someP.Valid ∧ someP.corr < 2300 := ⟨someP_valid, by norm_num [someP]⟩

end Verif.PlateCount
