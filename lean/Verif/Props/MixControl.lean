import Verif.Props.Mixing
import Verif.Props.Valve

/-!
# C190: temperatures set by a mixing valve

A mixing valve (`Model/Mixing`, `mixValve`) whose openings are set by a controller (`Model/Valve`, `run`): the flows of
the inlets A and B are the openings times the flow of the outlet (C18).
-/

set_option linter.unusedSectionVars false

namespace Verif.MixControl

open Mixing Valve

variable {K : Type*} [Field K] [LinearOrder K] [IsStrictOrderedRing K]

/-- The temperature of the outlet of a mixing valve with settings `c` after the actions `l` and then the control value
`cv`, when `dm` flows through the outlet and the inlets have the temperatures `TA` and `TB`; `x` is the temperature
behind the outlet. -/
def mixed (cp : K → K) (c : Cfg K) (l : List (Act K)) (dm TA TB x cv : K) : K :=
  let p := Valve.run c (l ++ [.control cv])
  mixValve cp ![p.a * dm, p.b * dm, dm] ![TA, TB, x] 2

theorem run_last (c : Cfg K) (l : List (Act K)) (cv : K) : Valve.run c (l ++ [.control cv]) = processCv c cv := by
  simp [Valve.run, act]

theorem mixed_eq (cp : K → K) (c : Cfg K) (h : accepts3w c) (l : List (Act K)) {dm : K} (hdm : dm ≠ 0)
    (TA TB x cv : K) :
    mixed cp c l dm TA TB x cv =
      (max c.llim (min c.ulim cv) * (cp TA * TA) + (1 - max c.llim (min c.ulim cv)) * (cp TB * TB)) /
        cp ((TA + TB) / 2) := by
  have h1 := C19_follows_control c h l cv
  have h2 := (C19_openings_partition c h (l ++ [.control cv])).2.2.1
  have h3 : (Valve.run c (l ++ [.control cv])).b = 1 - max c.llim (min c.ulim cv) := by rw [← h1, ← h2]; ring
  unfold mixed
  simp only [h1, h3]
  obtain ⟨a, ha⟩ : ∃ a, a = max c.llim (min c.ulim cv) := ⟨_, rfl⟩
  rw [← ha]
  have h4 : (![a * dm, (1 - a) * dm, dm] : Fin 3 → K) 2 ≠ 0 := hdm
  unfold mixValve
  rw [if_pos h4]
  simp only [Matrix.cons_val]
  rw [show a * dm * cp TA * TA + (1 - a) * dm * cp TB * TB = dm * (a * (cp TA * TA) + (1 - a) * (cp TB * TB)) by ring,
    mul_div_mul_left _ _ hdm]

/-- **C190** (further opening): with water, the higher the control value the hotter the outlet, if inlet A is the hotter
one; within the limits strictly.  The flow does not matter. -/
theorem C190_hotter (c : Cfg ℝ) (h : accepts3w c) (l l' : List (Act ℝ)) {dm dm' TA TB : ℝ} (hdm : dm ≠ 0) (hdm' : dm' ≠ 0)
    (h0 : 0 ≤ TB) (hT : TB < TA) (h1 : TA ≤ 100) (x x' : ℝ) :
    (∀ cv cv', cv ≤ cv' → mixed Water.cp c l dm TA TB x cv ≤ mixed Water.cp c l' dm' TA TB x' cv') ∧
    (∀ cv cv', c.llim ≤ cv → cv < cv' → cv' ≤ c.ulim →
      mixed Water.cp c l dm TA TB x cv < mixed Water.cp c l' dm' TA TB x' cv') := by
  have hc : 0 < Water.cp ((TA + TB) / 2) := by
    have := Water.cp_ge (T := (TA + TB) / 2) (by linarith) (by linarith)
    linarith
  have hE : Water.cp TB * TB < Water.cp TA * TA := Water.enth_strictMono hT
  have key : ∀ a b : ℝ, (b * (Water.cp TA * TA) + (1 - b) * (Water.cp TB * TB)) -
      (a * (Water.cp TA * TA) + (1 - a) * (Water.cp TB * TB)) =
      (b - a) * (Water.cp TA * TA - Water.cp TB * TB) := by intros; ring
  constructor
  · intro cv cv' hle
    rw [mixed_eq _ c h l hdm, mixed_eq _ c h l' hdm']
    refine div_le_div_of_nonneg_right ?_ hc.le
    have hm : max c.llim (min c.ulim cv) ≤ max c.llim (min c.ulim cv') :=
      max_le_max le_rfl (min_le_min le_rfl hle)
    have := key (max c.llim (min c.ulim cv)) (max c.llim (min c.ulim cv'))
    have := mul_nonneg (sub_nonneg.2 hm) (sub_pos.2 hE).le
    linarith
  · intro cv cv' ha hlt hb
    rw [mixed_eq _ c h l hdm, mixed_eq _ c h l' hdm', min_eq_right (hlt.le.trans hb), min_eq_right hb, max_eq_right ha,
      max_eq_right (ha.trans hlt.le)]
    refine div_lt_div_of_pos_right ?_ hc
    have := key cv cv'
    have := mul_pos (sub_pos.2 hlt) (sub_pos.2 hE)
    linarith

/-- **C190** (every temperature), partial: with constant heat capacity, every temperature between the one at the lower limit
and the one at the upper limit is reached with exactly one control value within the limits; without limits these are
all temperatures between those of the inlets.  Missing: with the heat capacity of water the range is
shifted (`C190_water_partial`, `C190_fails_open`, `C190_fails_cold`). -/
theorem C190_reach_partial (cp : K → K) (c : Cfg K) (h : accepts3w c) (l : List (Act K)) {dm TA TB : K} (hdm : dm ≠ 0)
    (hT : TB < TA) {k : K} (hk : 0 < k) (hA : cp TA = k) (hB : cp TB = k) (hM : cp ((TA + TB) / 2) = k) (x : K) :
    (∀ T, TB + c.llim * (TA - TB) ≤ T → T ≤ TB + c.ulim * (TA - TB) →
      ∃! cv, (c.llim ≤ cv ∧ cv ≤ c.ulim) ∧ mixed cp c l dm TA TB x cv = T) ∧
    (∀ cv, TB + c.llim * (TA - TB) ≤ mixed cp c l dm TA TB x cv ∧
      mixed cp c l dm TA TB x cv ≤ TB + c.ulim * (TA - TB)) := by
  have hd := sub_pos.2 hT
  have e : ∀ cv, mixed cp c l dm TA TB x cv = TB + max c.llim (min c.ulim cv) * (TA - TB) := by
    intro cv
    rw [mixed_eq _ c h l hdm, hA, hB, hM, div_eq_iff hk.ne']
    ring
  have e' : ∀ cv, c.llim ≤ cv → cv ≤ c.ulim → mixed cp c l dm TA TB x cv = TB + cv * (TA - TB) := by
    intro cv h1 h2
    rw [e, min_eq_right h2, max_eq_right h1]
  constructor
  · intro T t1 t2
    have b1 : c.llim ≤ (T - TB) / (TA - TB) := by rw [le_div_iff₀ hd]; linarith
    have b2 : (T - TB) / (TA - TB) ≤ c.ulim := by rw [div_le_iff₀ hd]; linarith
    refine ⟨(T - TB) / (TA - TB), ⟨⟨b1, b2⟩, ?_⟩, ?_⟩
    · rw [e' _ b1 b2, div_mul_cancel₀ _ hd.ne']
      ring
    · rintro cv ⟨⟨c1, c2⟩, c3⟩
      rw [e' cv c1 c2] at c3
      rw [eq_div_iff hd.ne']
      linarith
  · intro cv
    rw [e]
    have h3 : c.llim ≤ max c.llim (min c.ulim cv) := le_max_left _ _
    have h4 : max c.llim (min c.ulim cv) ≤ c.ulim := max_le h.2.2.1.le (min_le_left _ _)
    constructor
    · have := mul_le_mul_of_nonneg_right h3 hd.le
      linarith
    · have := mul_le_mul_of_nonneg_right h4 hd.le
      linarith

/-- **C190** (every temperature), partial (water): the same with water, but for a range whose ends differ by up to 1.01
percent from the temperatures of the inlets. -/
theorem C190_water_partial (c : Cfg ℝ) (h : accepts3w c) (hl : c.llim = 0) (hu : c.ulim = 1) (l : List (Act ℝ))
    {dm TA TB : ℝ} (hdm : dm ≠ 0) (h0 : 0 ≤ TB) (hT : TB < TA) (h1 : TA ≤ 100) (x : ℝ) :
    ∃ a b, |a - TB| ≤ 101 / 10000 * TB ∧ |b - TA| ≤ 101 / 10000 * TA ∧
      mixed Water.cp c l dm TA TB x 0 = a ∧ mixed Water.cp c l dm TA TB x 1 = b ∧
      ∀ T, a ≤ T → T ≤ b → ∃! cv, (0 ≤ cv ∧ cv ≤ 1) ∧ mixed Water.cp c l dm TA TB x cv = T := by
  have hM : 0 ≤ (TA + TB) / 2 ∧ (TA + TB) / 2 ≤ 100 := ⟨by linarith, by linarith⟩
  have g1 := Water.cp_ge hM.1 hM.2
  have g2 := Water.cp_le hM.1 hM.2
  have hc : 0 < Water.cp ((TA + TB) / 2) := by linarith
  have hE : Water.cp TB * TB < Water.cp TA * TA := Water.enth_strictMono hT
  have e : ∀ cv, 0 ≤ cv → cv ≤ 1 → mixed Water.cp c l dm TA TB x cv =
      (cv * (Water.cp TA * TA) + (1 - cv) * (Water.cp TB * TB)) / Water.cp ((TA + TB) / 2) := by
    intro cv a1 a2
    rw [mixed_eq _ c h l hdm, hl, hu, min_eq_right a2, max_eq_right a1]
  have bound : ∀ T, 0 ≤ T → T ≤ 100 → |Water.cp T * T / Water.cp ((TA + TB) / 2) - T| ≤ 101 / 10000 * T := by
    intro T t0 t1
    have k1 := Water.cp_ge t0 t1
    have k2 := Water.cp_le t0 t1
    rw [div_sub' hc.ne', abs_div, abs_of_pos hc, div_le_iff₀ hc,
      show Water.cp T * T - Water.cp ((TA + TB) / 2) * T = (Water.cp T - Water.cp ((TA + TB) / 2)) * T by ring,
      abs_mul, abs_of_nonneg t0]
    have : |Water.cp T - Water.cp ((TA + TB) / 2)| ≤ 42 := abs_le.2 ⟨by linarith, by linarith⟩
    have h42 : (42 : ℝ) ≤ 101 / 10000 * Water.cp ((TA + TB) / 2) := by linarith
    calc _ ≤ 42 * T := mul_le_mul_of_nonneg_right this t0
      _ ≤ (101 / 10000 * Water.cp ((TA + TB) / 2)) * T := mul_le_mul_of_nonneg_right h42 t0
      _ = _ := by ring
  refine ⟨Water.cp TB * TB / Water.cp ((TA + TB) / 2), Water.cp TA * TA / Water.cp ((TA + TB) / 2),
    bound TB h0 (by linarith), bound TA (by linarith) h1, ?_, ?_, ?_⟩
  · rw [e 0 le_rfl zero_le_one]; congr 1; ring
  · rw [e 1 zero_le_one le_rfl]; congr 1; ring
  · intro T t1 t2
    rw [div_le_iff₀ hc] at t1
    rw [le_div_iff₀ hc] at t2
    have hd := sub_pos.2 hE
    have b1 : 0 ≤ (T * Water.cp ((TA + TB) / 2) - Water.cp TB * TB) / (Water.cp TA * TA - Water.cp TB * TB) :=
      div_nonneg (by linarith) hd.le
    have b2 : (T * Water.cp ((TA + TB) / 2) - Water.cp TB * TB) / (Water.cp TA * TA - Water.cp TB * TB) ≤ 1 := by
      rw [div_le_one hd]; linarith
    refine ⟨_, ⟨⟨b1, b2⟩, ?_⟩, ?_⟩
    · rw [e _ b1 b2, div_eq_iff hc.ne']
      linear_combination div_mul_cancel₀ (T * Water.cp ((TA + TB) / 2) - Water.cp TB * TB) hd.ne'
    · rintro cv ⟨⟨c1, c2⟩, c3⟩
      rw [e cv c1 c2, div_eq_iff hc.ne'] at c3
      rw [eq_div_iff hd.ne', ← c3]
      ring

/-- **C190** is false of the code: with the hot inlet fully open and the cold one closed, the water leaves the valve hotter
(more than 90.4 degrees) than it enters (90): although nothing flows through it, the closed inlet (10 degrees) is used
for the heat capacity of the outlet.  A connector passes the water on unchanged. -/
theorem C190_fails_open :
    let c : Cfg ℚ := ⟨1 / 2, 0, 1⟩
    accepts3w c ∧ 904 / 10 < mixed Water.cp c [] 1 90 10 50 1 ∧
      connector Water.cp ![1, 0, -1] ![90, 10, (50 : ℚ)] 2 = 90 := by
  refine ⟨by norm_num [accepts3w], ?_, ?_⟩ <;> decide +kernel

/-- **C190** is false of the code: with 90 and 10 degrees at the inlets no opening gives 10.01 degrees. -/
theorem C190_fails_cold (cv : ℚ) :
    let c : Cfg ℚ := ⟨1 / 2, 0, 1⟩
    accepts3w c ∧ mixed Water.cp c [] 1 90 10 50 cv ≠ 1001 / 100 := by
  have h : accepts3w (⟨1 / 2, 0, 1⟩ : Cfg ℚ) := by norm_num [accepts3w]
  refine ⟨h, ?_⟩
  rw [mixed_eq _ _ h [] one_ne_zero]
  obtain ⟨a, ha⟩ : ∃ a : ℚ, a = max 0 (min 1 cv) := ⟨_, rfl⟩
  have h0 : 0 ≤ a := ha ▸ le_max_left _ _
  simp only
  rw [← ha]
  have e1 : (1001 / 100 : ℚ) * Water.cp ((90 + 10) / 2) < Water.cp 10 * 10 := by decide +kernel
  have e2 : (Water.cp (10 : ℚ)) * 10 < Water.cp 90 * 90 := by decide +kernel
  have hc : (0 : ℚ) < Water.cp ((90 + 10) / 2) := by decide +kernel
  intro hx
  rw [div_eq_iff hc.ne'] at hx
  have := mul_nonneg h0 (sub_pos.2 e2).le
  linarith

/-- A valve without limits, 80 and 20 degrees. -/
example : accepts3w (⟨1 / 2, 0, 1⟩ : Cfg ℝ) ∧ (0 : ℝ) ≤ 20 ∧ (20 : ℝ) < 80 ∧ (80 : ℝ) ≤ 100 := by
  norm_num [accepts3w]

/-- With constant heat capacity the middle position gives the middle temperature. -/
example : mixed (fun _ => (4200 : ℚ)) ⟨1 / 2, 0, 1⟩ [] 2 80 20 0 (1 / 2) = 50 := by decide +kernel

end Verif.MixControl
