import Verif.Model.ChpPower
import Mathlib.Tactic.Linarith
import Mathlib.Tactic.NormNum
import Mathlib.Tactic.FieldSimp
import Mathlib.Tactic.Positivity
import Mathlib.Tactic.GCongr
import Mathlib.Analysis.Complex.ExponentialBounds

/-! # Power output of a CHP plant: C64, C65 -/

namespace Verif.ChpPower
open Real

theorem clip01_mem (x : ℝ) : 0 ≤ clip01 x ∧ clip01 x ≤ 1 := by
  unfold clip01
  split_ifs with h1 h2
  · simp
  · simp
  · exact ⟨not_lt.1 h1, not_lt.1 h2⟩

theorem thermalPower_pos (m : ℝ) : 0 < thermalPower m := by
  unfold thermalPower limGrowth
  have : (0 : ℝ) < 3.5990506789130166 ^ m := rpow_pos_of_pos (by norm_num) _
  nlinarith

theorem gasPower_eq (m : ℝ) :
    gasPower m = -1.17 + 2.165828402366862 * (1.9507547298681704 : ℝ) ^ m := by
  unfold gasPower limGrowth; ring

theorem gasPower_pos {m : ℝ} (hm : 0 ≤ m) : 0 < gasPower m := by
  rw [gasPower_eq]
  have : (1 : ℝ) ≤ (1.9507547298681704 : ℝ) ^ m := one_le_rpow (by norm_num) hm
  linarith

/-- The procedure state is sound: factors in [0, 1], no negative residual heat. -/
structure Ok (s : St) : Prop where
  th : 0 ≤ s.facTh ∧ s.facTh ≤ 1
  el : 0 ≤ s.facEl ∧ s.facEl ≤ 1
  gas : 0 ≤ s.facGas ∧ s.facGas ≤ 1
  shut : 0 ≤ s.shutFac
  last : 0 ≤ s.lastDQ

theorem factors_ok {s : St} (h : Ok s) (i : In) : Ok (factors s i) := by
  have one : (0 : ℝ) ≤ 1 ∧ (1 : ℝ) ≤ 1 := ⟨zero_le_one, le_rfl⟩
  unfold factors
  simp only
  split_ifs with h1 h2 h3 h4 h5 h6 h7 h8
  all_goals first
    | exact ⟨one, one, one, le_rfl, h.last⟩
    | exact ⟨one, one, one, h.shut, h.last⟩
    | exact ⟨clip01_mem _, clip01_mem _, clip01_mem _, le_rfl, h.last⟩
    | exact ⟨clip01_mem _, clip01_mem _, clip01_mem _, h.shut, h.last⟩
    | exact ⟨h.th, h.el, h.gas, le_rfl, h.last⟩
    | exact ⟨h.th, h.el, h.gas, h.shut, h.last⟩
    | exact ⟨h.th, h.el, h.gas, by simp only; linarith, h.last⟩

/-- Admissible inputs: a running plant has a non-negative modulation (C44). -/
def In.Ok (i : In) : Prop := i.on = true → 0 ≤ i.mod

theorem output_nonneg {p : Par} (hp : p.Valid) {s : St} (h : Ok s) {i : In} (hi : i.Ok) :
    0 ≤ (output p s i).heat ∧ 0 ≤ (output p s i).gas ∧ 0 ≤ (output p s i).pel ∧
      (output p s i).pel ≤ bin i * i.mod * p.pel := by
  have hr : 0 < p.p2hRatio := by
    unfold Par.p2hRatio; have := thermalPower_pos 1; have := hp.p2h_pos; positivity
  have he : 0 < p.etaElFac := by
    unfold Par.etaElFac; have := gasPower_pos (m := 1) (by norm_num); have := hp.eta_pos; positivity
  have hpel := hp.pel_pos
  have ht := thermalPower_pos i.mod
  have h1 := h.th.1
  have h2 := h.gas.1
  have h3 := h.el.1
  have h4 := h.el.2
  have h5 := h.shut
  have h6 := h.last
  by_cases hon : i.on = true
  · have hm : 0 ≤ i.mod := hi hon
    have hg := gasPower_pos hm
    have hb : bin i = 1 := by simp [bin, hon]
    refine ⟨?_, ?_, ?_, ?_⟩
    · unfold output; simp only [hb]; split_ifs <;> positivity
    · unfold output; simp only [hb]; positivity
    · unfold output; simp only [hb]; positivity
    · unfold output; simp only [hb]
      have : 0 ≤ i.mod * p.pel := by positivity
      nlinarith
  · have hb : bin i = 0 := by simp [bin, hon]
    refine ⟨?_, ?_, ?_, ?_⟩
    · unfold output; simp only [hb]; split_ifs
      · positivity
      · simp
    · unfold output; simp [hb]
    · unfold output; simp [hb]
    · unfold output; simp [hb]

theorem run_ok {p : Par} (hp : p.Valid) : ∀ (is : List In) {s : St}, Ok s → (∀ i ∈ is, i.Ok) →
    Ok (run p s is)
  | [], _, h, _ => h
  | i :: is, s, h, hi => by
    refine run_ok hp is ?_ (fun j hj => hi j (List.mem_cons_of_mem _ hj))
    have hf := factors_ok h i
    have ho := output_nonneg hp hf (hi i List.mem_cons_self)
    unfold step
    simp only
    split_ifs
    · exact hf
    · exact ⟨hf.th, hf.el, hf.gas, hf.shut, ho.1⟩

theorem init_ok (b : Bool) : Ok (St.init b) := by
  cases b <;> constructor <;> simp [St.init]

/-- **C64**.  After any history of requests, starts, stops and durations, the electrical power is between 0
and the nominal power times the modulation, and heat flow and gas power are not negative; a plant that is
switched off neither produces electricity nor burns gas. -/
theorem C64_powers_in_range (p : Par) (hp : p.Valid) (b : Bool) (hist : List In) (i : In)
    (hok : ∀ j ∈ hist, j.Ok) (hi : i.Ok) :
    let o := (step p (run p (St.init b) hist) i).2
    0 ≤ o.heat ∧ 0 ≤ o.gas ∧ 0 ≤ o.pel ∧ (i.on = true → o.pel ≤ i.mod * p.pel) ∧
      (i.on = false → o.pel = 0 ∧ o.gas = 0) := by
  have hs := run_ok hp hist (init_ok b) hok
  have ho := output_nonneg hp (factors_ok hs i) hi
  refine ⟨ho.1, ho.2.1, ho.2.2.1, fun h => ?_, fun h => ?_⟩
  · have := ho.2.2.2
    rw [show bin i = 1 by simp [bin, h], one_mul] at this
    exact this
  · simp [step, output, bin, h]

/-- The default plant. -/
noncomputable def samplePar : Par := ⟨20000, 0.516796, 0.32733⟩

theorem samplePar_valid : samplePar.Valid := by
  constructor <;> norm_num [samplePar]

example : ∀ j ∈ [(⟨true, 1, true, false, true, 0, 0⟩ : In), ⟨false, 0, false, true, false, 0, 0⟩], j.Ok := by
  simp [In.Ok]

/-! ### Upper bounds -/

theorem thermalPower_mono {a b : ℝ} (h : a ≤ b) : thermalPower a ≤ thermalPower b := by
  unfold thermalPower limGrowth
  have : (3.5990506789130166 : ℝ) ^ a ≤ (3.5990506789130166 : ℝ) ^ b :=
    rpow_le_rpow_of_exponent_le (by norm_num) h
  nlinarith

theorem gasPower_mono {a b : ℝ} (h : a ≤ b) : gasPower a ≤ gasPower b := by
  rw [gasPower_eq, gasPower_eq]
  have : (1.9507547298681704 : ℝ) ^ a ≤ (1.9507547298681704 : ℝ) ^ b :=
    rpow_le_rpow_of_exponent_le (by norm_num) h
  linarith

theorem shutdownTh_le_one {t : ℝ} (h : 0 ≤ t) : shutdownTh t ≤ 1 := by
  unfold shutdownTh
  have h1 : (-927.5198588530006 : ℝ) ^ 3 ≤ (t - 927.5198588530006) ^ 3 :=
    (Odd.strictMono_pow ⟨1, by norm_num⟩).monotone (by linarith)
  have h2 : (-800000000 : ℝ) ≤ (-927.5198588530006 : ℝ) ^ 3 := by norm_num
  have h3 : -1.2532286835042036e-09 * (t - 927.5198588530006 : ℝ) ^ 3
      ≤ -1.2532286835042036e-09 * (-927.5198588530006 : ℝ) ^ 3 :=
    mul_le_mul_of_nonpos_left h1 (by norm_num)
  refine h3.trans ?_
  norm_num

/-- Modulations and durations as the on/off logic delivers them. -/
structure In.Bounded (i : In) : Prop where
  mod : i.mod ≤ 1
  shut : 0 ≤ i.shutdownDuration

/-- Remembered heat and shut-down factor are bounded. -/
structure Top (p : Par) (s : St) : Prop where
  shut : s.shutFac ≤ 1
  last : s.lastDQ ≤ p.pel / p.p2h

theorem factors_top {p : Par} {s : St} (h : Top p s) {i : In} (hi : i.Bounded) : Top p (factors s i) := by
  have := shutdownTh_le_one hi.shut
  unfold factors
  simp only
  split_ifs
  all_goals first
    | exact ⟨zero_le_one, h.last⟩
    | exact ⟨h.shut, h.last⟩
    | exact ⟨this, h.last⟩

theorem output_top {p : Par} (hp : p.Valid) {s : St} (ho : Ok s) (h : Top p s) {i : In} (hok : i.Ok)
    (hi : i.Bounded) : (output p s i).heat ≤ p.pel / p.p2h ∧ (output p s i).gas ≤ p.pel / p.etaEl := by
  have hpel := hp.pel_pos
  have h2 := hp.p2h_pos
  have h3 := hp.eta_pos
  have ht1 := thermalPower_pos 1
  have hg1 := gasPower_pos (m := 1) (by norm_num)
  have hr : 0 < p.p2hRatio := by unfold Par.p2hRatio; positivity
  have he : 0 < p.etaElFac := by unfold Par.etaElFac; positivity
  have hQ : 0 ≤ p.pel / p.p2h := by positivity
  have hG : 0 ≤ p.pel / p.etaEl := by positivity
  constructor
  · unfold output
    simp only
    split_ifs
    · calc s.lastDQ * s.shutFac ≤ s.lastDQ * 1 := mul_le_mul_of_nonneg_left h.shut ho.last
        _ ≤ _ := by rw [mul_one]; exact h.last
    · by_cases hon : i.on = true
      · have hb : bin i = 1 := by simp [bin, hon]
        rw [hb, one_mul]
        have ht := thermalPower_pos i.mod
        have hm := thermalPower_mono hi.mod
        calc thermalPower i.mod * p.pel * s.facTh * p.p2hRatio
            ≤ thermalPower 1 * p.pel * 1 * p.p2hRatio := by
              have := ho.th.2; have := ho.th.1
              gcongr
          _ = p.pel / p.p2h := by unfold Par.p2hRatio; field_simp
      · have hb : bin i = 0 := by simp [bin, hon]
        simpa [hb] using hQ
  · unfold output
    simp only
    by_cases hon : i.on = true
    · have hb : bin i = 1 := by simp [bin, hon]
      rw [hb, mul_one]
      have hg := gasPower_pos (hok hon)
      have hm := gasPower_mono hi.mod
      calc s.facGas * p.etaElFac * gasPower i.mod * p.pel
          ≤ 1 * p.etaElFac * gasPower 1 * p.pel := by
            have := ho.gas.2; have := ho.gas.1
            gcongr
        _ = p.pel / p.etaEl := by unfold Par.etaElFac; field_simp
    · have hb : bin i = 0 := by simp [bin, hon]
      simpa [hb] using hG

theorem run_top {p : Par} (hp : p.Valid) : ∀ (is : List In) {s : St}, Ok s → Top p s →
    (∀ i ∈ is, i.Ok ∧ i.Bounded) → Top p (run p s is)
  | [], _, _, h, _ => h
  | i :: is, s, ho, h, hi => by
    have hi0 := hi i List.mem_cons_self
    have hf := factors_ok ho i
    have hft := factors_top h hi0.2
    have hout := output_nonneg hp hf hi0.1
    refine run_top hp is ?_ ?_ (fun j hj => hi j (List.mem_cons_of_mem _ hj))
    · unfold step
      simp only
      split_ifs
      · exact hf
      · exact ⟨hf.th, hf.el, hf.gas, hf.shut, hout.1⟩
    · unfold step
      simp only
      split_ifs
      · exact hft
      · exact ⟨hft.shut, (output_top hp hf hft hi0.1 hi0.2).1⟩

/-- **C64** (upper bounds).  After any history with modulations up to 1, the heat flow, also the residual heat
after a stop, is at most the nominal heat `P_el / p2h_ratio` and the gas power at most the nominal gas power
`P_el / eta_el`. -/
theorem C64_upper_bounds (p : Par) (hp : p.Valid) (b : Bool) (hist : List In) (i : In)
    (hok : ∀ j ∈ hist, j.Ok ∧ j.Bounded) (hi : i.Ok ∧ i.Bounded) :
    (step p (run p (St.init b) hist) i).2.heat ≤ p.pel / p.p2h ∧
      (step p (run p (St.init b) hist) i).2.gas ≤ p.pel / p.etaEl := by
  have h0 : Top p (St.init b) := by
    have hpel := hp.pel_pos
    have h2 := hp.p2h_pos
    have : 0 ≤ p.pel / p.p2h := by positivity
    cases b <;> constructor <;> simp [St.init, this]
  have hs := run_ok hp hist (init_ok b) (fun j hj => (hok j hj).1)
  have ht := run_top hp hist (init_ok b) h0 hok
  exact output_top hp (factors_ok hs i) (factors_top ht hi.2) hi.1 hi.2

/-- **C64** (residual heat).  In the first step after a stop the plant delivers at most the heat of the step
before. -/
theorem C64_residual_heat (p : Par) (hp : p.Valid) (b : Bool) (hist : List In) (j i : In)
    (hok : ∀ j ∈ hist, j.Ok ∧ j.Bounded) (hj : j.Ok ∧ j.Bounded) (hi : i.Bounded) (hoff : i.on = false)
    (hrun : (step p (run p (St.init b) hist) j).1.shutdownInProgress = false) :
    (step p (step p (run p (St.init b) hist) j).1 i).2.heat ≤ (step p (run p (St.init b) hist) j).2.heat := by
  set s := run p (St.init b) hist with hs
  have h0 : Top p (St.init b) := by
    have hpel := hp.pel_pos
    have h2 := hp.p2h_pos
    have : 0 ≤ p.pel / p.p2h := by positivity
    cases b <;> constructor <;> simp [St.init, this]
  have hso : Ok s := run_ok hp hist (init_ok b) (fun j hj => (hok j hj).1)
  have hst : Top p s := run_top hp hist (init_ok b) h0 hok
  have hfo := factors_ok hso j
  have hft := factors_top hst hj.2
  have hheat := (output_nonneg hp hfo hj.1).1
  have hF : (factors s j).shutdownInProgress = false := by
    by_contra hc
    rw [Bool.not_eq_false] at hc
    rw [step] at hrun
    simp [hc] at hrun
  have e1 : (step p s j).1 = { factors s j with lastDQ := (step p s j).2.heat } := by
    simp [step, hF]
  have hs1 : Ok (step p s j).1 := by
    rw [e1]; exact ⟨hfo.th, hfo.el, hfo.gas, hfo.shut, hheat⟩
  have hl : (step p s j).1.lastDQ = (step p s j).2.heat := by rw [e1]
  have hsh : (step p s j).1.shutFac ≤ 1 := by rw [e1]; exact hft.shut
  generalize (step p s j).1 = s1 at *
  rw [← hl]
  have hlast : (factors s1 i).lastDQ = s1.lastDQ := by
    unfold factors; simp only; split_ifs <;> rfl
  have hsh' : (factors s1 i).shutFac ≤ 1 := by
    have := shutdownTh_le_one hi.shut
    unfold factors; simp only
    split_ifs <;> first | exact zero_le_one | exact hsh | exact this
  have hso1 := factors_ok hs1 i
  simp only [step, output]
  split_ifs
  · rw [hlast]
    calc s1.lastDQ * (factors s1 i).shutFac ≤ s1.lastDQ * 1 := mul_le_mul_of_nonneg_left hsh' hs1.last
      _ = s1.lastDQ := mul_one _
  · simpa [bin, hoff] using hs1.last

example : (step samplePar (run samplePar (St.init true) []) ⟨true, 1, false, false, true, 0, 0⟩).1.shutdownInProgress
    = false := by
  simp [step, run, factors, St.init]

theorem shutdownTh_antitone {t u : ℝ} (h : t ≤ u) : shutdownTh u ≤ shutdownTh t := by
  unfold shutdownTh
  exact mul_le_mul_of_nonpos_left ((Odd.strictMono_pow ⟨1, by norm_num⟩).monotone (by linarith)) (by norm_num)

/-- **C64** (pause).  From step to step of a pause the heat flow does not rise, whatever happened before, and once the
plant has been off for 728 s it delivers no heat. -/
theorem C64_pause (p : Par) (hp : p.Valid) (b : Bool) (hist : List In) (i j : In) (hok : ∀ k ∈ hist, k.Ok)
    (hio : i.Ok) (hi : i.on = false ∧ i.startupRecent = false) (hj : j.on = false ∧ j.startupRecent = false)
    (hs : j.stopped = false) (ht : i.shutdownDuration ≤ j.shutdownDuration) :
    let s := run p (St.init b) hist
    (step p (step p s i).1 j).2.heat ≤ (step p s i).2.heat ∧
      (728 ≤ j.shutdownDuration → (step p (step p s i).1 j).2.heat = 0) := by
  intro s
  have hso : Ok s := run_ok hp hist (init_ok b) hok
  have hle := shutdownTh_antitone ht
  have hz : 728 ≤ j.shutdownDuration → shutdownTh j.shutdownDuration < 0.01 := fun h =>
    (shutdownTh_antitone h).trans_lt (by norm_num [shutdownTh])
  have hlast := hso.last
  clear_value s
  by_cases h1 : s.shutdownInProgress || i.stopped
  · by_cases h2 : shutdownTh i.shutdownDuration < 0.01
    · have h3 : shutdownTh j.shutdownDuration < 0.01 := hle.trans_lt h2
      simp [step, output, factors, bin, hi.1, hi.2, hj.1, hj.2, hs, h1, h2]
    · have h2' := not_lt.1 h2
      by_cases h3 : shutdownTh j.shutdownDuration < 0.01
      · simp only [step, output, factors, bin, hi.1, hi.2, hj.1, hj.2, hs, h1, h2, h3, if_true, if_false,
          Bool.false_eq_true, Bool.or_false, zero_mul, implies_true, and_true]
        exact mul_nonneg hlast (le_trans (by norm_num) h2')
      · have h3' : ¬ 728 ≤ j.shutdownDuration := fun h => h3 (hz h)
        simp only [step, output, factors, bin, hi.1, hi.2, hj.1, hj.2, hs, h1, h2, h3, h3', if_true, if_false,
          Bool.false_eq_true, Bool.or_false, false_implies, and_true]
        exact mul_le_mul_of_nonneg_left hle hlast
  · rw [Bool.not_eq_true] at h1
    simp [step, output, factors, bin, hi.1, hi.2, hj.1, hj.2, hs, h1]

/-- A plant that ran and is stopped delivers heat in the pause. -/
example : let s := run samplePar (St.init true) [⟨true, 1, false, false, true, 0, 0⟩]
    0 < (step samplePar s ⟨false, 0, false, true, false, 0, 60⟩).2.heat := by
  have ht := thermalPower_pos 1
  have h1 : ¬ shutdownTh 60 < 0.01 := by norm_num [shutdownTh]
  have h2 : 0 < shutdownTh 60 := lt_of_lt_of_le (by norm_num) (not_lt.1 h1)
  have h3 : 0 < samplePar.p2hRatio := by
    unfold Par.p2hRatio samplePar
    positivity
  have h4 : 0 < samplePar.pel := by norm_num [samplePar]
  simp only [step, output, factors, bin, run, St.init, if_true, if_false, Bool.or_false, Bool.or_true, Bool.false_eq_true, h1]
  norm_num
  positivity

/-- **C65** (full load).  A plant that has finished its start-up and runs at full modulation delivers exactly
its nominal electrical power, the heat `P_el / p2h_ratio` and needs the gas power `P_el / eta_el`; so its
total efficiency is the efficiency the constructor has checked (at most 96.1 %). -/
theorem C65_full_load_partial (p : Par) (hp : p.Valid) (s : St) (i : In) (hon : i.on = true)
    (hm : i.mod = 1) (hs : s.shutdownInProgress = false)
    (hf : s.facTh = 1 ∧ s.facEl = 1 ∧ s.facGas = 1) :
    (output p s i).pel = p.pel ∧ (output p s i).heat = p.pel / p.p2h ∧
      (output p s i).gas = p.pel / p.etaEl ∧
      (output p s i).pel + (output p s i).heat ≤ 0.961 * (output p s i).gas := by
  have ht := (thermalPower_pos 1).ne'
  have hg := (gasPower_pos (m := 1) (by norm_num)).ne'
  have h2 := hp.p2h_pos
  have h3 := hp.eta_pos
  have h4 := hp.pel_pos
  have e1 : (output p s i).pel = p.pel := by simp [output, bin, hon, hm, hf]
  have e2 : (output p s i).heat = p.pel / p.p2h := by
    simp [output, bin, hon, hm, hf, hs, Par.p2hRatio]; field_simp
  have e3 : (output p s i).gas = p.pel / p.etaEl := by
    simp [output, bin, hon, hm, hf, Par.etaElFac]; field_simp
  refine ⟨e1, e2, e3, ?_⟩
  rw [e1, e2, e3]
  have := hp.eta_sum
  calc p.pel + p.pel / p.p2h = (p.etaEl + p.etaEl / p.p2h) * (p.pel / p.etaEl) := by field_simp
    _ ≤ 0.961 * (p.pel / p.etaEl) := by
      apply mul_le_mul_of_nonneg_right this; positivity

example : (⟨false, false, 1, 1, 1, 0, 0⟩ : St).facTh = 1 := rfl

/-- **C65** (start-up).  Once the start-up curve of the heat flow has passed 99.9 %, a plant at full modulation
delivers exactly the nominal powers, whatever happened before. -/
theorem C65_after_startup_partial (p : Par) (hp : p.Valid) (s : St) (i : In) (hon : i.on = true)
    (hm : i.mod = 1) (hs : s.shutdownInProgress = false) (hst : i.stopped = false) (hr : i.startupRecent = true)
    (hin : s.startupInProgress = true ∨ i.started = true) (hd : 0.999 < startupTh i.startupDuration) :
    (step p s i).2.pel = p.pel ∧ (step p s i).2.heat = p.pel / p.p2h ∧ (step p s i).2.gas = p.pel / p.etaEl ∧
      (step p s i).1.startupInProgress = false := by
  have hc : 0.999 < clip01 (startupTh i.startupDuration) := by
    unfold clip01
    split_ifs with h1 h2
    · linarith
    · norm_num
    · exact hd
  have hin' : (s.startupInProgress || i.started) = true := by simpa using hin
  have hF : (factors s i).shutdownInProgress = false ∧ (factors s i).facTh = 1 ∧ (factors s i).facEl = 1 ∧
      (factors s i).facGas = 1 ∧ (factors s i).startupInProgress = false := by
    unfold factors
    simp only [hr, if_true, hs, hst, Bool.or_self]
    by_cases h : 0.01 < s.shutFac
    · simp only [h, if_true, hin', hc]; simp
    · simp only [h, if_false, hin', hc, if_true]; simp
  obtain ⟨f1, f2, f3, f4, f5⟩ := hF
  obtain ⟨a, b, c, -⟩ := C65_full_load_partial p hp (factors s i) i hon hm f1 ⟨f2, f3, f4⟩
  refine ⟨a, b, c, ?_⟩
  simp [step, f1, f5]

theorem startupEl_lower {t : ℝ} (ht : 0 ≤ t) : -3.6832212021813398e-09 ≤ startupEl t := by
  have h : (0.9997484824090741 : ℝ) ^ t ≤ 1 := rpow_le_one (by norm_num) (by norm_num) ht
  unfold startupEl limGrowth
  nlinarith

theorem startupTh_lower {t : ℝ} (ht : 0 ≤ t) : 4.3715647889609857e-4 ≤ startupTh t ∧ startupTh t ≤ 1 := by
  have h : exp (-8.61423130773867e-3 * 1 * t) ≤ 1 := exp_le_one_iff.2 (by linarith)
  have h' := exp_pos (-8.61423130773867e-3 * 1 * t)
  unfold startupTh
  set q := exp (-8.61423130773867e-3 * 1 * t)
  have hq : (0 : ℝ) ≤ 1 / 4.3715647889609857e-4 - 1 := by norm_num
  have hd : 0 < 1 + (1 / 4.3715647889609857e-4 - 1) * q := by positivity
  constructor
  · rw [le_div_iff₀ hd]
    have := mul_le_mul_of_nonneg_left h hq
    have e : (4.3715647889609857e-4 : ℝ) * (1 + (1 / 4.3715647889609857e-4 - 1)) = 1 := by norm_num
    nlinarith
  · rw [div_le_one hd]
    have := mul_nonneg hq h'.le
    linarith

/-- **C65** (during start-up).  A plant that starts up with full modulation delivers at no time more than 96.1 % of the
gas power it takes in. -/
theorem C65_during_startup_partial (p : Par) (hp : p.Valid) (s : St) (i : In) (hon : i.on = true)
    (hm : i.mod = 1) (hs : s.shutdownInProgress = false) (hst : i.stopped = false) (hr : i.startupRecent = true)
    (hin : s.startupInProgress = true ∨ i.started = true) (hd : 0 ≤ i.startupDuration) :
    (step p s i).2.pel + (step p s i).2.heat ≤ 0.961 * (step p s i).2.gas := by
  have ht := (thermalPower_pos 1).ne'
  have hg := (gasPower_pos (m := 1) (by norm_num)).ne'
  have h2 := hp.p2h_pos
  have h3 := hp.eta_pos
  have h4 := hp.pel_pos
  have hin' : (s.startupInProgress || i.started) = true := by simpa using hin
  have hF : (factors s i).shutdownInProgress = false ∧
      ((factors s i).facTh = 1 ∧ (factors s i).facEl = 1 ∧ (factors s i).facGas = 1 ∨
        (factors s i).facTh = clip01 (startupTh i.startupDuration) ∧
        (factors s i).facEl = clip01 (startupEl i.startupDuration) ∧
        (factors s i).facGas = clip01 (startupGas i.startupDuration)) := by
    unfold factors
    simp only [hr, if_true, hs, hst, Bool.or_self]
    by_cases h : 0.01 < s.shutFac <;> by_cases hc : 0.999 < clip01 (startupTh i.startupDuration) <;>
      simp [h, hin', hc, hs]
  obtain ⟨f1, hf | ⟨f2, f3, f4⟩⟩ := hF
  · exact (C65_full_load_partial p hp (factors s i) i hon hm f1 hf).2.2.2
  set F := factors s i
  have e1 : (output p F i).pel = p.pel * F.facEl := by simp [output, bin, hon, hm]
  have e2 : (output p F i).heat = p.pel / p.p2h * F.facTh := by
    simp [output, bin, hon, hm, f1, Par.p2hRatio]; field_simp
  have e3 : (output p F i).gas = p.pel / p.etaEl * F.facGas := by
    simp [output, bin, hon, hm, Par.etaElFac]; field_simp
  obtain ⟨t1, t2⟩ := startupTh_lower hd
  have l1 := startupEl_lower hd
  have hsum := hp.eta_sum
  set r := p.etaEl / p.p2h with hr'
  have r0 : 0 < r := by positivity
  -- shares of the gas power
  have key : p.etaEl * F.facEl + r * F.facTh ≤ 0.961 * F.facGas := by
    rw [f2, f3, f4]
    have a1 : clip01 (startupTh i.startupDuration) = startupTh i.startupDuration := by
      unfold clip01
      rw [if_neg (by linarith), if_neg (by linarith)]
    rw [a1]
    have b1 : clip01 (startupEl i.startupDuration) ≤ 1 := by
      unfold clip01; split_ifs <;> linarith
    have b2 : clip01 (startupEl i.startupDuration) ≤ startupEl i.startupDuration + 3.6832212021813398e-09 := by
      unfold clip01; split_ifs <;> linarith
    have b3 : 0 ≤ clip01 (startupEl i.startupDuration) := by
      unfold clip01; split_ifs <;> linarith
    have b4 : clip01 (startupEl i.startupDuration) ≤ clip01 (startupEl i.startupDuration) / 0.32733 := by
      rw [le_div_iff₀ (by norm_num)]; nlinarith
    set E := startupEl i.startupDuration
    set c := clip01 E
    set θ := startupTh i.startupDuration
    have hG : startupGas i.startupDuration = E / 0.32733 + θ / 0.6334 := rfl
    rw [hG]
    have u1 : p.etaEl * c ≤ 0.961 * c := mul_le_mul_of_nonneg_right (by linarith) b3
    have u2 : r * θ ≤ 0.961 * θ := mul_le_mul_of_nonneg_right (by linarith) (by linarith)
    have u3 : p.etaEl * c ≤ p.etaEl := mul_le_of_le_one_right h3.le b1
    have u4 : r * θ ≤ r := mul_le_of_le_one_right r0.le t2
    have v : c + θ ≤ E / 0.32733 + θ / 0.6334 := by
      norm_num at l1 b2 t1 ⊢
      linarith
    unfold clip01
    split_ifs with c1 c2
    · linarith
    · linarith
    · linarith
  change (output p F i).pel + (output p F i).heat ≤ 0.961 * (output p F i).gas
  rw [e1, e2, e3]
  calc p.pel * F.facEl + p.pel / p.p2h * F.facTh
      = p.pel / p.etaEl * (p.etaEl * F.facEl + r * F.facTh) := by rw [hr']; field_simp
    _ ≤ p.pel / p.etaEl * (0.961 * F.facGas) := mul_le_mul_of_nonneg_left key (by positivity)
    _ = 0.961 * (p.pel / p.etaEl * F.facGas) := by ring

/-- A plant that has just been started. -/
example : (step samplePar (St.init false) ⟨true, 1, true, false, true, 0, 0⟩).2.pel +
    (step samplePar (St.init false) ⟨true, 1, true, false, true, 0, 0⟩).2.heat ≤
      0.961 * (step samplePar (St.init false) ⟨true, 1, true, false, true, 0, 0⟩).2.gas :=
  C65_during_startup_partial samplePar samplePar_valid _ _ rfl rfl rfl rfl rfl (Or.inl rfl) le_rfl

example : (0.999 : ℝ) < startupTh 2000 := by
  unfold startupTh
  have h : exp (-8.61423130773867e-3 * 1 * 2000) ≤ 1e-7 := by
    have h1 : exp (-8.61423130773867e-3 * 1 * 2000 : ℝ) ≤ exp ((17 : ℕ) * (-1)) :=
      exp_le_exp.2 (by norm_num)
    refine h1.trans ?_
    rw [exp_nat_mul]
    have h2 : exp (-1) ≤ (0.37 : ℝ) := by
      rw [exp_neg]
      have : (2.7182818283 : ℝ) < exp 1 := exp_one_gt_d9
      rw [inv_le_comm₀ (exp_pos _) (by norm_num)]
      refine le_trans ?_ this.le
      norm_num
    calc exp (-1) ^ 17 ≤ (0.37 : ℝ) ^ 17 := by gcongr
      _ ≤ 1e-7 := by norm_num
  have hp := exp_pos (-8.61423130773867e-3 * 1 * 2000 : ℝ)
  rw [lt_div_iff₀ (by nlinarith)]
  nlinarith

/-- A plant accepted by the constructor, efficiency 0.3 + 0.3 / 0.4546 < 0.961. -/
noncomputable def wastefulPar : Par := ⟨20000, 0.4546, 0.3⟩

/-- **C65 fails** at part load: a plant with efficiency parameters that the constructor accepts delivers, at
a modulation of 10 % after its start-up, more electricity and heat than it takes in as gas. -/
theorem C65_fails_part_load :
    wastefulPar.Valid ∧
    ∀ (s : St) (i : In), i.on = true → i.mod = 1 / 10 → s.shutdownInProgress = false →
      s.facTh = 1 ∧ s.facEl = 1 ∧ s.facGas = 1 →
      (output wastefulPar s i).gas < (output wastefulPar s i).pel + (output wastefulPar s i).heat := by
  refine ⟨by constructor <;> norm_num [wastefulPar], fun s i hon hm hs hf => ?_⟩
  have k1 : (1.136 : ℝ) ≤ (3.5990506789130166 : ℝ) ^ ((1 : ℝ) / 10) := by
    rw [show (1 : ℝ) / 10 = (10 : ℝ)⁻¹ by norm_num]
    rw [le_rpow_inv_iff_of_pos (by norm_num) (by norm_num) (by norm_num)]
    norm_num
  have k2 : (1.9507547298681704 : ℝ) ^ ((1 : ℝ) / 10) ≤ 1.0692 := by
    rw [show (1 : ℝ) / 10 = (10 : ℝ)⁻¹ by norm_num]
    rw [rpow_inv_le_iff_of_pos (by norm_num) (by norm_num) (by norm_num)]
    norm_num
  have e1 : (output wastefulPar s i).pel = 2000 := by
    simp [output, bin, hon, hm, hf, wastefulPar]; norm_num
  have t1 : thermalPower 1 = 0.60275 + 0.370167 * 3.5990506789130166 := by
    unfold thermalPower limGrowth; norm_num
  have t2 : 0.60275 + 0.370167 * 1.136 ≤ thermalPower (1 / 10) := by
    unfold thermalPower limGrowth; linarith
  have g1 : gasPower 1 = -1.17 + 2.165828402366862 * 1.9507547298681704 := by
    rw [gasPower_eq]; norm_num
  have g2 : gasPower (1 / 10) ≤ -1.17 + 2.165828402366862 * 1.0692 := by
    rw [gasPower_eq]; linarith
  have e2 : (output wastefulPar s i).heat
      = thermalPower (1 / 10) * (20000 * (1 / thermalPower 1 / 0.4546)) := by
    simp [output, bin, hon, hm, hf, hs, Par.p2hRatio, wastefulPar]; ring
  have e3 : (output wastefulPar s i).gas
      = gasPower (1 / 10) * (20000 * (1 / gasPower 1 / 0.3)) := by
    simp [output, bin, hon, hm, hf, Par.etaElFac, wastefulPar]; ring
  rw [e1, e2, e3, t1, g1]
  norm_num at *
  linarith

end Verif.ChpPower
