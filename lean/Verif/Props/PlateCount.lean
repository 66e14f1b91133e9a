import Verif.Model.PlateCount
import Verif.Props.FlowAlpha

/-!
# C182: heat passes through all inner plates of a plate heat exchanger
-/

namespace Verif.PlateCount

open Verif.FlowAlpha Verif.HexNum

/-- Specification: the conductance of one plate of area `A` between water with the coefficients `aS` and `aD`: two layers of water and the
plate in series. -/
noncomputable def onePlate (A s lam aS aD : ℝ) : ℝ := A / (1 / aS + s / lam + 1 / aD)

theorem series_plate {A s lam aS aD : ℝ} :
    1 / (1 / Conductance.uaFldWllPlate A (s / 2) aS lam + 1 / Conductance.uaFldWllPlate A (s / 2) aD lam) = onePlate A s lam aS aD := by
  unfold Conductance.uaFldWllPlate onePlate
  by_cases hA : A = 0
  · simp [hA]
  · rw [one_div_div, one_div_div, ← add_div, one_div_div]
    congr 1
    ring

/-- The heat transfer value is that of one plate times a number. -/
theorem plateUA_eq {g : Plates} {dmS dmD Ts Td ua : ℝ} (h : plateUA g dmS dmD Ts Td = some ua) :
    ∃ aS aD, phexAlpha (dmS / g.chSup) Ts Ts g.aChannel g.dh g.length g.corr = some aS ∧
      phexAlpha (dmD / g.chDmd) Td Td g.aChannel g.dh g.length g.corr = some aD ∧
      ua = onePlate g.aPlate g.sPlate g.lamWll aS aD * g.numA := by
  unfold plateUA at h
  obtain ⟨aS, hS, h⟩ := Option.bind_eq_some_iff.1 h
  obtain ⟨aD, hD, h⟩ := Option.bind_eq_some_iff.1 h
  rw [series_two] at h
  refine ⟨aS, aD, hS, hD, ?_⟩
  rw [← series_plate]
  exact (Option.some.inj h).symm

theorem onePlate_mul (A c s lam aS aD : ℝ) : onePlate (A * c) s lam aS aD = c * onePlate A s lam aS aD := by
  unfold onePlate
  ring

/-- Accepted numbers with one pass. -/
theorem channels_one {plates : ℤ} {side : Side} {a b : ℤ} (h : channels plates 1 side = some (a, b)) : a + b = plates - 1 := by
  unfold channels at h
  rw [if_neg (by norm_num), if_pos rfl] at h
  split_ifs at h with h2
  cases side <;> simp only [Option.some.injEq, Prod.mk.injEq] at h <;> omega

/-- Accepted numbers with more passes. -/
theorem channels_more {plates passes : ℤ} {side : Side} {a b : ℤ} (h1 : 1 < passes) (h : channels plates passes side = some (a, b)) :
    a = b ∧ plates - 1 = 2 * passes * a := by
  unfold channels at h
  rw [if_neg (by omega), if_neg (by omega)] at h
  split_ifs at h with h4
  simp only [Option.some.injEq, Prod.mk.injEq] at h
  obtain ⟨rfl, rfl⟩ := h
  exact ⟨rfl, (Int.mul_ediv_cancel' (Int.dvd_of_emod_eq_zero h4)).symm⟩

/-- Walls between neighbouring channels: one less than channels in a pass. -/
theorem numA_eq {plates passes : ℤ} {side : Side} {a b : ℤ} (h4 : 4 < plates) (hp : 0 < passes)
    (h : channels plates passes side = some (a, b)) : numA plates passes = a + b - 1 := by
  unfold numA
  by_cases h1 : passes = 1
  · subst h1
    have := channels_one h
    rw [Int.tdiv_one]
    omega
  · obtain ⟨rfl, e⟩ := channels_more (by omega) h
    have ha : 0 < a := by
      by_contra hn
      have : 2 * passes * a ≤ 0 := mul_nonpos_of_nonneg_of_nonpos (by omega) (by omega)
      omega
    rw [show plates - 2 = (passes - 1) + passes * (2 * a - 1) by linarith [e]]
    rw [Int.tdiv_eq_ediv_of_nonneg (by
      have : 0 ≤ passes * (2 * a - 1) := mul_nonneg (by omega) (by omega)
      omega), Int.add_mul_ediv_left _ _ (by omega), Int.ediv_eq_zero_of_lt (by omega) (by omega)]
    ring

/-- **C182** (channels): every gap between two plates is one channel of one pass, and each pass has one wall less than channels that take
part in the heat transfer. -/
theorem C182_channels {plates passes : ℤ} {side : Side} {a b : ℤ} (h4 : 4 < plates) (hp : 0 < passes)
    (h : channels plates passes side = some (a, b)) : passes * (a + b) = plates - 1 ∧ numA plates passes = a + b - 1 := by
  refine ⟨?_, numA_eq h4 hp h⟩
  by_cases h1 : passes = 1
  · subst h1; rw [one_mul]; exact channels_one h
  · obtain ⟨rfl, e⟩ := channels_more (by omega) h
    linarith

/-- **C182**, partial: with one pass, the heat transfer value is that of all inner plates (all but the first and the last one), each with
water on both sides. -/
theorem C182_one_pass_partial {g g' : Plates} {plates : ℤ} {side : Side} (hb : build g plates 1 side = some g') {dmS dmD Ts Td ua : ℝ}
    (h : plateUA g' dmS dmD Ts Td = some ua) :
    ∃ a b aS aD, channels plates 1 side = some (a, b) ∧
      phexAlpha (dmS / (a : ℝ)) Ts Ts g.aChannel g.dh g.length g.corr = some aS ∧
      phexAlpha (dmD / (b : ℝ)) Td Td g.aChannel g.dh g.length g.corr = some aD ∧
      ua = (plates - 2 : ℤ) * onePlate g.aPlate g.sPlate g.lamWll aS aD := by
  obtain ⟨⟨a, b⟩, hc, rfl⟩ := Option.map_eq_some_iff.1 hb
  obtain ⟨aS, aD, hS, hD, rfl⟩ := plateUA_eq h
  refine ⟨a, b, aS, aD, hc, hS, hD, ?_⟩
  simp only [numA, Int.tdiv_one, Int.cast_one, mul_one]
  ring

/-- **C182** fails for several passes: always the plates between two passes are left out; the heat transfer value is that of
`plates - 1 - passes` plates instead of `plates - 2`. -/
theorem C182_fails_passes {g g' : Plates} {plates passes : ℤ} {side : Side} (h4 : 4 < plates) (h1 : 1 < passes)
    (hb : build g plates passes side = some g') {dmS dmD Ts Td ua : ℝ} (h : plateUA g' dmS dmD Ts Td = some ua) :
    ∃ aS aD, phexAlpha (dmS / g'.chSup) Ts Ts g.aChannel g.dh g.length g.corr = some aS ∧
      phexAlpha (dmD / g'.chDmd) Td Td g.aChannel g.dh g.length g.corr = some aD ∧
      ua = (plates - 1 - passes : ℤ) * onePlate g.aPlate g.sPlate g.lamWll aS aD ∧
      (0 < onePlate g.aPlate g.sPlate g.lamWll aS aD → ua < (plates - 2 : ℤ) * onePlate g.aPlate g.sPlate g.lamWll aS aD) := by
  obtain ⟨⟨a, b⟩, hc, rfl⟩ := Option.map_eq_some_iff.1 hb
  obtain ⟨aS, aD, hS, hD, rfl⟩ := plateUA_eq h
  obtain ⟨e1, e2⟩ := C182_channels h4 (by omega) hc
  have e : passes * numA plates passes = plates - 1 - passes := by rw [e2]; linarith
  have key : onePlate (g.aPlate * passes) g.sPlate g.lamWll aS aD * (numA plates passes : ℤ) =
      (plates - 1 - passes : ℤ) * onePlate g.aPlate g.sPlate g.lamWll aS aD := by
    rw [onePlate_mul, ← e]
    push_cast
    ring
  refine ⟨aS, aD, hS, hD, key, fun hpos => ?_⟩
  dsimp only
  rw [key]
  apply mul_lt_mul_of_pos_right _ hpos
  exact_mod_cast (by omega : plates - 1 - passes < plates - 2)

/-! ## Witnesses -/

/-- The hypotheses of `C182_channels` can be met. -/
example : channels 20 1 .supply = some (10, 9) ∧ numA 20 1 = 18 ∧ channels 9 2 .supply = some (2, 2) ∧ numA 9 2 = 3 := by decide

/-- Five plates, two passes: two of the three inner plates. -/
example : channels 5 2 .supply = some (1, 1) ∧ (2 : ℤ) * numA 5 2 = 2 := by decide

/-- There are exchangers with a heat transfer value, with one pass and with two. -/
example : (∃ g' ua, build someP 20 1 .supply = some g' ∧ plateUA g' 0.1 0.2 60 40 = some ua) ∧
    ∃ g' ua, build someP 9 2 .supply = some g' ∧ plateUA g' 0.1 0.2 60 40 = some ua := by
  constructor
  · refine ⟨{ someP with chSup := (10 : ℤ), chDmd := (9 : ℤ), aPlate := someP.aPlate * (1 : ℤ), numA := (18 : ℤ) }, ?_⟩
    obtain ⟨u, _, hu, _⟩ := (C126_value_partial
      (g := { someP with chSup := (10 : ℤ), chDmd := (9 : ℤ), aPlate := someP.aPlate * (1 : ℤ), numA := (18 : ℤ) })
      (by constructor <;> norm_num [someP]) (a := 0.1) (b := 0.3) (c := 0.2) (Ts := 60) (Td := 40)
      (by norm_num) (by norm_num) (by norm_num) (by norm_num) (by norm_num [abs_of_pos])).1
    refine ⟨u, ?_, hu⟩
    unfold build
    rw [show channels 20 1 .supply = some (10, 9) by decide, show numA 20 1 = 18 by decide]
    rfl
  · refine ⟨{ someP with chSup := (2 : ℤ), chDmd := (2 : ℤ), aPlate := someP.aPlate * (2 : ℤ), numA := (3 : ℤ) }, ?_⟩
    obtain ⟨u, _, hu, _⟩ := (C126_value_partial
      (g := { someP with chSup := (2 : ℤ), chDmd := (2 : ℤ), aPlate := someP.aPlate * (2 : ℤ), numA := (3 : ℤ) })
      (by constructor <;> norm_num [someP]) (a := 0.1) (b := 0.3) (c := 0.2) (Ts := 60) (Td := 40)
      (by norm_num) (by norm_num) (by norm_num) (by norm_num) (by norm_num [abs_of_pos])).1
    refine ⟨u, ?_, hu⟩
    unfold build
    rw [show channels 9 2 .supply = some (2, 2) by decide, show numA 9 2 = 3 by decide]
    rfl

end Verif.PlateCount
