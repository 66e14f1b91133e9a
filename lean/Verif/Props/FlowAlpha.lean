import Verif.Lemmas.FlowAlpha

/-!
# More flow transfers more heat (C125, C126)
-/

set_option linter.unusedSectionVars false

namespace Verif.FlowAlpha

open Verif.Conductance

theorem root_lt {a b : ℝ} (ha : 0 ≤ a) (h : a < b) : a ^ ((1 : ℝ) / 3) < b ^ ((1 : ℝ) / 3) :=
  Real.rpow_lt_rpow ha h (by norm_num)

theorem cube_ge {y c : ℝ} (hy : 0 ≤ y) (hc : 0 ≤ c) : -0.343 ≤ (c * y - 0.7) ^ 3 := by
  have h7 : (-0.7 : ℝ) ≤ c * y - 0.7 := by
    have := mul_nonneg hc hy
    linarith
  have := (Odd.pow_le_pow (by decide : Odd 3)).2 h7
  norm_num at this ⊢
  linarith

/-- The laminar Nusselt number as a function of `w = Pe * d / x`. -/
theorem laminarNu_lt {Pe Pe' d d' x x' : ℝ} (h0 : 0 ≤ Pe * d / x) (h : Pe * d / x < Pe' * d' / x') :
    laminarNu Pe d x < laminarNu Pe' d' x' := by
  unfold laminarNu
  have hr := root_lt h0 h
  have h1 : 0 ≤ (Pe * d / x) ^ ((1 : ℝ) / 3) := by positivity
  apply root_lt
  · have := cube_ge (c := 1.077) h1 (by norm_num)
    linarith
  · have : (1.077 * (Pe * d / x) ^ ((1 : ℝ) / 3) - 0.7) ^ 3 < (1.077 * (Pe' * d' / x') ^ ((1 : ℝ) / 3) - 0.7) ^ 3 :=
      (Odd.pow_lt_pow (by decide : Odd 3)).2 (by linarith)
    linarith

theorem root_2300 : (2300 : ℝ) ^ ((1 : ℝ) / 3) ≤ 13.21 := by
  have h : ((2300 : ℝ) ^ ((1 : ℝ) / 3)) ^ (3 : ℕ) ≤ 13.21 ^ 3 := by
    rw [← Real.rpow_natCast, ← Real.rpow_mul (by norm_num)]
    norm_num
  exact le_of_pow_le_pow_left₀ (by norm_num) (by norm_num) h

theorem cube_cube_root {a : ℝ} (h : 0 ≤ a) : (a ^ ((1 : ℝ) / 3)) ^ 3 = a := by
  rw [← Real.rpow_natCast, ← Real.rpow_mul h]; norm_num

theorem sq_cube_root {a : ℝ} (h : 0 ≤ a) : (a ^ ((1 : ℝ) / 3)) ^ 2 = a ^ ((2 : ℝ) / 3) := by
  rw [← Real.rpow_natCast, ← Real.rpow_mul h]; norm_num

/-- At the transition the turbulent correlation is above the laminar one. -/
theorem transition {Pr d x : ℝ} (hP : 1 ≤ Pr) (hd : 0 < d) (hx : 0 < x) :
    laminarNu (2300 * Pr) d x ≤ turbulentNu 2300 Pr d x := by
  obtain ⟨s1, s3, s2⟩ := cube_root hP
  have hc := core_2300_ge hP
  have hq : 0 ≤ d / x := by positivity
  rw [turbulentNu_eq, ← sq_cube_root hq]
  unfold laminarNu
  have e : (2300 * Pr * d / x) ^ ((1 : ℝ) / 3)
      = (2300 : ℝ) ^ ((1 : ℝ) / 3) * Pr ^ ((1 : ℝ) / 3) * (d / x) ^ ((1 : ℝ) / 3) := by
    rw [mul_div_assoc, Real.mul_rpow (by positivity) hq, Real.mul_rpow (by norm_num) (by linarith)]
  rw [e]
  have r := root_2300
  have hr0 : 0 ≤ (2300 : ℝ) ^ ((1 : ℝ) / 3) := by positivity
  have hy : 0 ≤ (d / x) ^ ((1 : ℝ) / 3) := by positivity
  generalize (2300 : ℝ) ^ ((1 : ℝ) / 3) = c at *
  generalize Pr ^ ((1 : ℝ) / 3) = s at *
  generalize (d / x) ^ ((1 : ℝ) / 3) = y at *
  generalize core 2300 Pr = b at *
  have hsy : 0 ≤ s * y := mul_nonneg (by linarith) hy
  have hz : 0 ≤ c * s * y := by rw [mul_assoc]; exact mul_nonneg hr0 hsy
  have hq1 : 1.077 * (c * s * y) ≤ 14.23 * (s * y) := by
    have : c * (s * y) ≤ 13.21 * (s * y) := mul_le_mul_of_nonneg_right r hsy
    nlinarith
  have t1 : 13.78 ≤ b * (1 + y ^ 2 / 3) := by nlinarith [sq_nonneg y]
  have t2 : 15.9 * (s * y) ≤ b * (1 + y ^ 2 / 3) := by
    have k : 13.78 * s * (1 + y ^ 2 / 3) ≤ b * (1 + y ^ 2 / 3) :=
      mul_le_mul_of_nonneg_right hc (by positivity)
    have k2 : 15.9 / 13.78 * y ≤ 1 + y ^ 2 / 3 := by nlinarith [sq_nonneg (y - 1.731)]
    have k3 := mul_le_mul_of_nonneg_left k2 (show 0 ≤ 13.78 * s by linarith)
    nlinarith
  generalize b * (1 + y ^ 2 / 3) = t at *
  generalize s * y = q at *
  generalize c * s * y = z at *
  have h3 : 49.371 + (1.077 * z - 0.7) ^ 3 ≤ t ^ 3 := by
    have k1 : (1.077 * z - 0.7) ^ 3 ≤ (14.23 * q) ^ 3 := (Odd.pow_le_pow (by decide : Odd 3)).2 (by linarith)
    have k2 : (15.9 * q) ^ 3 ≤ t ^ 3 := pow_le_pow_left₀ (by linarith) t2 3
    have k3 : (13.78 : ℝ) ^ 3 ≤ t ^ 3 := pow_le_pow_left₀ (by norm_num) t1 3
    have k4 : (14.23 * q) ^ 3 = (14.23 / 15.9) ^ 3 * (15.9 * q) ^ 3 := by ring
    have k5 : (14.23 / 15.9 : ℝ) ^ 3 ≤ 0.72 := by norm_num
    have k6 : 0 ≤ (15.9 * q) ^ 3 := by positivity
    norm_num at k3
    nlinarith
  have t0 : 0 ≤ t := by linarith
  have h0 : 0 ≤ 49.371 + (1.077 * z - 0.7) ^ 3 := by
    have := cube_ge (c := 1.077) hz (by norm_num)
    linarith
  calc (49.371 + (1.077 * z - 0.7) ^ 3) ^ ((1 : ℝ) / 3) ≤ (t ^ 3) ^ ((1 : ℝ) / 3) :=
        Real.rpow_le_rpow h0 h3 (by norm_num)
    _ = t := by rw [← Real.rpow_natCast, ← Real.rpow_mul t0]; norm_num

/-- The Nusselt number of the pipe as a function of the Reynolds number. -/
noncomputable def pipeNu (Re Pr d x : ℝ) : ℝ :=
  if 2300 < Re then turbulentNu Re Pr d x else laminarNu (Re * Pr) d x

theorem pipeNu_lt {a b Pr d x : ℝ} (ha : 0 ≤ a) (h : a < b) (hP : 1 ≤ Pr) (hd : 0 < d) (hx : 0 < x) :
    pipeNu a Pr d x < pipeNu b Pr d x := by
  have hP0 : 0 < Pr := by linarith
  have hk : 0 < 1 + (d / x) ^ ((2 : ℝ) / 3) / 3 := by positivity
  have turb : ∀ {p q : ℝ}, 2300 ≤ p → p < q → turbulentNu p Pr d x < turbulentNu q Pr d x := by
    intro p q hp hpq
    rw [turbulentNu_eq, turbulentNu_eq]
    exact mul_lt_mul_of_pos_right (core_lt hp hpq hP) hk
  have lam : ∀ {p q : ℝ}, 0 ≤ p → p < q → laminarNu (p * Pr) d x < laminarNu (q * Pr) d x := by
    intro p q hp hpq
    apply laminarNu_lt (by positivity)
    gcongr
  unfold pipeNu
  by_cases h1 : 2300 < a
  · rw [if_pos h1, if_pos (h1.trans h)]
    exact turb h1.le h
  · rw [if_neg h1]
    push Not at h1
    by_cases h2 : 2300 < b
    · rw [if_pos h2]
      have l : laminarNu (a * Pr) d x ≤ laminarNu (2300 * Pr) d x := by
        rcases eq_or_lt_of_le h1 with e | e
        · rw [e]
        · exact (lam ha e).le
      exact lt_of_le_of_lt (l.trans (transition hP hd hx)) (turb le_rfl h2)
    · rw [if_neg h2]
      exact lam ha h

theorem pipeNu_inlet {Re Pr d x y : ℝ} (hR : 0 < Re) (hP : 1 ≤ Pr) (hd : 0 < d) (hx : 0 < x) (hxy : x < y) :
    pipeNu Re Pr d y < pipeNu Re Pr d x := by
  have hP0 : 0 < Pr := by linarith
  have hy : 0 < y := hx.trans hxy
  unfold pipeNu
  by_cases h1 : 2300 < Re
  · rw [if_pos h1, if_pos h1, turbulentNu_eq, turbulentNu_eq]
    refine mul_lt_mul_of_pos_left ?_ (core_pos h1.le hP)
    have : (d / y) ^ ((2 : ℝ) / 3) < (d / x) ^ ((2 : ℝ) / 3) :=
      Real.rpow_lt_rpow (by positivity) (div_lt_div_of_pos_left hd hx hxy) (by norm_num)
    linarith
  · rw [if_neg h1, if_neg h1]
    exact laminarNu_lt (by positivity) (div_lt_div_of_pos_left (by positivity) hx hxy)

/-- Reynolds number of the flow (`precomp_funs.py:4147`). -/
noncomputable def reynolds (dm T A d : ℝ) : ℝ := |dm / (Water.rho T * A)| * d / Water.ny T

section
variable {T A d : ℝ} (h0 : 0 ≤ T) (h1 : T ≤ 100) (hA : 0 < A) (hd : 0 < d)
include h0 h1 hA hd

theorem reynolds_eq (dm : ℝ) : reynolds dm T A d = |dm| * (d / (Water.rho T * A * Water.ny T)) := by
  have hr : 0 < Water.rho T := lt_of_lt_of_le (by norm_num) (Water.rho_ge h0 h1)
  unfold reynolds
  rw [abs_div, abs_of_pos (mul_pos hr hA)]
  ring

theorem reynolds_slope : 0 < d / (Water.rho T * A * Water.ny T) := by
  have hr : 0 < Water.rho T := lt_of_lt_of_le (by norm_num) (Water.rho_ge h0 h1)
  have hn : 0 < Water.ny T := lt_of_lt_of_le (by norm_num) (Water.ny_ge h0 h1)
  positivity

theorem reynolds_nonneg (dm : ℝ) : 0 ≤ reynolds dm T A d := by
  rw [reynolds_eq h0 h1 hA hd]
  exact mul_nonneg (abs_nonneg _) (reynolds_slope h0 h1 hA hd).le

theorem reynolds_lt {a b : ℝ} (h : |a| < |b|) : reynolds a T A d < reynolds b T A d := by
  rw [reynolds_eq h0 h1 hA hd, reynolds_eq h0 h1 hA hd]
  exact mul_lt_mul_of_pos_right h (reynolds_slope h0 h1 hA hd)

theorem reynolds_pos {a : ℝ} (h : a ≠ 0) : 0 < reynolds a T A d := by
  rw [reynolds_eq h0 h1 hA hd]
  exact mul_pos (abs_pos.2 h) (reynolds_slope h0 h1 hA hd)

end

theorem pipeAlphaI_eq (dm T A d x : ℝ) :
    pipeAlphaI dm T A d x = pipeNu (reynolds dm T A d) (Water.Pr T) d x * Water.lam T / d := rfl

theorem pipeAlphaWll_eq (dm T Tw A d x : ℝ) :
    pipeAlphaWll dm T Tw A d x = pipeNu (reynolds dm T A d) (Water.Pr T) d x * wallFactor T Tw * Water.lam T / d := rfl

theorem wallFactor_pos {T Tw : ℝ} (h0 : 0 ≤ T) (h1 : T ≤ 100) (w0 : 0 ≤ Tw) (w1 : Tw ≤ 100) : 0 < wallFactor T Tw := by
  have a : 0 < Water.Pr T := lt_of_lt_of_le (by norm_num) (Water.Pr_ge h0 h1)
  have b : 0 < Water.Pr Tw := lt_of_lt_of_le (by norm_num) (Water.Pr_ge w0 w1)
  unfold wallFactor
  positivity

/-- **C125**: at the same temperature a larger flow always has a larger heat transfer coefficient to the wall of
a pipe, in the laminar range, in the turbulent range and across the transition; only the size of the flow
matters; while water flows the coefficient is largest where the water enters.  With a separate temperature of
the wall the same holds for parts with a separate wall. -/
theorem C125_more_flow {T Tw A d x : ℝ} (h0 : 0 ≤ T) (h1 : T ≤ 100) (w0 : 0 ≤ Tw) (w1 : Tw ≤ 100) (hA : 0 < A)
    (hd : 0 < d) (hx : 0 < x) :
    (∀ a b : ℝ, |a| < |b| → pipeAlphaI a T A d x < pipeAlphaI b T A d x ∧
      pipeAlphaWll a T Tw A d x < pipeAlphaWll b T Tw A d x) ∧
    (∀ a : ℝ, pipeAlphaI (-a) T A d x = pipeAlphaI a T A d x ∧
      pipeAlphaWll (-a) T Tw A d x = pipeAlphaWll a T Tw A d x) ∧
    ∀ a y : ℝ, a ≠ 0 → x < y → pipeAlphaI a T A d y < pipeAlphaI a T A d x ∧
      pipeAlphaWll a T Tw A d y < pipeAlphaWll a T Tw A d x := by
  have hl : 0 < Water.lam T := lt_of_lt_of_le (by norm_num) (Water.lam_ge h0 h1)
  have hp : (1 : ℝ) ≤ Water.Pr T := le_trans (by norm_num) (Water.Pr_ge h0 h1)
  have hw := wallFactor_pos h0 h1 w0 w1
  have lift : ∀ {p q : ℝ}, p < q → p * Water.lam T / d < q * Water.lam T / d ∧
      p * wallFactor T Tw * Water.lam T / d < q * wallFactor T Tw * Water.lam T / d := by
    intro p q h
    constructor <;> gcongr
  refine ⟨fun a b h => ?_, fun a => ?_, fun a y ha hxy => ?_⟩
  · rw [pipeAlphaI_eq, pipeAlphaI_eq, pipeAlphaWll_eq, pipeAlphaWll_eq]
    exact lift (pipeNu_lt (reynolds_nonneg h0 h1 hA hd _) (reynolds_lt h0 h1 hA hd h) hp hd hx)
  · rw [pipeAlphaI_eq, pipeAlphaI_eq, pipeAlphaWll_eq, pipeAlphaWll_eq, reynolds_eq h0 h1 hA hd (-a),
      reynolds_eq h0 h1 hA hd a, abs_neg]
    exact ⟨rfl, rfl⟩
  · rw [pipeAlphaI_eq, pipeAlphaI_eq, pipeAlphaWll_eq, pipeAlphaWll_eq]
    exact lift (pipeNu_inlet (reynolds_pos h0 h1 hA hd ha) hp hd hx hxy)

example : pipeAlphaI 0.1 60 0.0005 0.025 0.5 < pipeAlphaI (-0.2) 60 0.0005 0.025 0.5 :=
  ((C125_more_flow (T := 60) (Tw := 60) (by norm_num) (by norm_num) (by norm_num) (by norm_num) (by norm_num)
    (by norm_num) (by norm_num)).1 0.1 (-0.2) (by norm_num [abs_of_pos])).1

/-- The Prandtl number of the polynomial falls with the temperature. -/
theorem Pr_lt {S T : ℝ} (h : S < T) : Water.Pr T < Water.Pr S := by
  have key : 0 < (0.35124680571767508 : ℝ) - 4.3225480444706085e-03 * (S + T)
      + 1.9174193923188898e-05 * (S ^ 2 + S * T + T ^ 2) := by
    nlinarith [sq_nonneg (S - T), sq_nonneg (S + T - 150)]
  have := mul_pos (sub_pos.2 h) key
  unfold Water.Pr
  nlinarith [this]

theorem wallFactor_lt {T S S' : ℝ} (h0 : 0 ≤ T) (h1 : T ≤ 100) (w0 : 0 ≤ S) (h : S < S') (w1 : S' ≤ 100) :
    wallFactor T S < wallFactor T S' := by
  have a : 0 < Water.Pr T := lt_of_lt_of_le (by norm_num) (Water.Pr_ge h0 h1)
  have c : 0 < Water.Pr S' := lt_of_lt_of_le (by norm_num) (Water.Pr_ge (by linarith) w1)
  have b : 0 < Water.Pr S := c.trans (Pr_lt h)
  unfold wallFactor
  exact Real.rpow_lt_rpow (by positivity) (div_lt_div_of_pos_left a c (Pr_lt h)) (by norm_num)

theorem wallFactor_self {T : ℝ} (h0 : 0 ≤ T) (h1 : T ≤ 100) : wallFactor T T = 1 := by
  have a : 0 < Water.Pr T := lt_of_lt_of_le (by norm_num) (Water.Pr_ge h0 h1)
  rw [wallFactor, div_self a.ne', Real.one_rpow]

/-- **C125** (temperature of the wall): at the same flow and temperature of the water a warmer wall has a larger
coefficient, and a wall as warm as the water the one without correction. So the correction raises the coefficient
when water is heated and lowers it when water is cooled. -/
theorem C125_wall {dm T A d x : ℝ} (h0 : 0 ≤ T) (h1 : T ≤ 100) (hA : 0 < A) (hd : 0 < d) (hx : 0 < x) :
    pipeAlphaWll dm T T A d x = pipeAlphaI dm T A d x ∧
    ∀ S S', 0 ≤ S → S < S' → S' ≤ 100 → pipeAlphaWll dm T S A d x < pipeAlphaWll dm T S' A d x := by
  have hl : 0 < Water.lam T := lt_of_lt_of_le (by norm_num) (Water.lam_ge h0 h1)
  refine ⟨by rw [pipeAlphaWll_eq, pipeAlphaI_eq, wallFactor_self h0 h1, mul_one], fun S S' w0 h w1 => ?_⟩
  have hn := pipeAlphaI_pos (dm := dm) h0 h1 hA hd hx
  rw [pipeAlphaI_eq] at hn
  have hw := wallFactor_lt h0 h1 w0 h w1
  rw [pipeAlphaWll_eq, pipeAlphaWll_eq]
  have e : ∀ w, pipeNu (reynolds dm T A d) (Water.Pr T) d x * w * Water.lam T / d
      = pipeNu (reynolds dm T A d) (Water.Pr T) d x * Water.lam T / d * w := fun w => by ring
  rw [e, e]
  exact mul_lt_mul_of_pos_left hw hn

example : pipeAlphaWll 0.1 60 20 0.0005 0.025 0.5 < pipeAlphaI 0.1 60 0.0005 0.025 0.5 := by
  obtain ⟨h1, h2⟩ := C125_wall (dm := 0.1) (T := 60) (A := 0.0005) (d := 0.025) (x := 0.5) (by norm_num) (by norm_num)
    (by norm_num) (by norm_num) (by norm_num)
  rw [← h1]
  exact h2 20 60 (by norm_num) (by norm_num) (by norm_num)

/-- **C125** (distance): the distance used for a cell of a pipe is that of the middle of the cell (which reaches from
`k * gs` to `(k + 1) * gs`) from the end where the water enters. -/
theorem C125_distance {n k : ℕ} (hk : k < n) {gs : ℝ} (hg : 0 < gs) (dm : ℝ) :
    flowDist n gs dm k = |(k * gs + (k + 1) * gs) / 2 - (if dm < 0 then n * gs else 0)| ∧ 0 < flowDist n gs dm k := by
  unfold flowDist cellDist
  have hk' : (k : ℝ) + 1 ≤ n := by exact_mod_cast hk
  split_ifs with h
  · have e : ((n - 1 - k : ℕ) : ℝ) = n - 1 - k := by
      rw [Nat.sub_sub, Nat.cast_sub (by omega)]; push_cast; ring
    have : 0 ≤ ((n : ℝ) - 1 - k) * gs := mul_nonneg (by linarith) hg.le
    rw [e, abs_of_nonpos (by nlinarith)]
    exact ⟨by ring, by linarith⟩
  · have : 0 ≤ (k : ℝ) * gs := by positivity
    rw [abs_of_nonneg (by nlinarith)]
    exact ⟨by ring, by linarith⟩

/-- The third of ten cells of 0.1 m, for both directions. -/
example : flowDist 10 0.1 1 2 = 0.25 ∧ flowDist 10 0.1 (-1) 2 = 0.75 := by
  constructor <;> norm_num [flowDist, cellDist]

/-- **C125** (losses): so a pipe or storage loses more heat to the ambient when more water flows through it, all
else being equal: the conductance to the ambient grows strictly. -/
theorem C125_losses {g : Shell} (v : g.Valid) {T x aInf a b : ℝ} (h0 : 0 ≤ T) (h1 : T ≤ 100) (hx : 0 < x)
    (hInf : 0 < aInf) (h : |a| < |b|) :
    uaFldWllInsAmbCyl g (pipeAlphaI a T g.aCell (2 * g.rI) x) aInf
      < uaFldWllInsAmbCyl g (pipeAlphaI b T g.aCell (2 * g.rI) x) aInf := by
  have hd : 0 < 2 * g.rI := by linarith [v.rI]
  have ha := pipeAlphaI_pos (dm := a) h0 h1 v.aCell_pos hd hx
  have hlt := ((C125_more_flow h0 h1 h0 h1 v.aCell_pos hd hx).1 a b h).1
  have q1 := one_div_lt_one_div_of_lt ha hlt
  have q0 : 0 < 1 / pipeAlphaI b T g.aCell (2 * g.rI) x := one_div_pos.2 (ha.trans hlt)
  have q2 : 0 < g.rLnWll / g.lamWll := div_pos v.rLnWll_pos v.lamWll
  have q3 : 0 ≤ g.rLnIns / g.lamIns := div_nonneg v.rLnIns_nonneg v.lamIns.le
  have q4 : 0 < g.rRins / aInf := div_pos v.rRins_pos hInf
  unfold uaFldWllInsAmbCyl
  exact div_lt_div_of_pos_left v.aShellI_pos (by linarith) (by linarith)

example : uaFldWllInsAmbCyl pipeShell (pipeAlphaI 0 60 pipeShell.aCell (2 * pipeShell.rI) 1) 3
    < uaFldWllInsAmbCyl pipeShell (pipeAlphaI 0.2 60 pipeShell.aCell (2 * pipeShell.rI) 1) 3 :=
  C125_losses pipeShell_valid (by norm_num) (by norm_num) (by norm_num) (by norm_num) (by norm_num)

/-! ## C126: plate heat exchangers -/

theorem plateLaminarNu_lt {Pe Pe' Pr d x : ℝ} (hP : 0 < Pr) (h0 : 0 ≤ Pe * d / x) (h : Pe * d / x < Pe' * d / x) :
    plateLaminarNu Pe Pr d x < plateLaminarNu Pe' Pr d x := by
  unfold plateLaminarNu
  have hr := root_lt h0 h
  have h1 : 0 ≤ (Pe * d / x) ^ ((1 : ℝ) / 3) := by positivity
  have hc : 0 ≤ (2 / (1 + 22 * Pr)) ^ ((1 : ℝ) / 6) := by positivity
  have hs : (Pe * d / x) ^ (0.5 : ℝ) ≤ (Pe' * d / x) ^ (0.5 : ℝ) := Real.rpow_le_rpow h0 h.le (by norm_num)
  have hs0 : 0 ≤ (Pe * d / x) ^ (0.5 : ℝ) := by positivity
  have h3 : 0 ≤ ((2 / (1 + 22 * Pr)) ^ ((1 : ℝ) / 6) * (Pe * d / x) ^ (0.5 : ℝ)) ^ 3 := by positivity
  apply root_lt
  · have := cube_ge (c := 1.615) h1 (by norm_num)
    linarith
  · have a : (1.615 * (Pe * d / x) ^ ((1 : ℝ) / 3) - 0.7) ^ 3 < (1.615 * (Pe' * d / x) ^ ((1 : ℝ) / 3) - 0.7) ^ 3 :=
      (Odd.pow_lt_pow (by decide : Odd 3)).2 (by linarith)
    have b : ((2 / (1 + 22 * Pr)) ^ ((1 : ℝ) / 6) * (Pe * d / x) ^ (0.5 : ℝ)) ^ 3
        ≤ ((2 / (1 + 22 * Pr)) ^ ((1 : ℝ) / 6) * (Pe' * d / x) ^ (0.5 : ℝ)) ^ 3 :=
      pow_le_pow_left₀ (mul_nonneg hc hs0) (mul_le_mul_of_nonneg_left hs hc) 3
    linarith

/-- The third summand of the laminar Nusselt number. -/
theorem third_term {Pr w : ℝ} (hP : 0 < Pr) (hw : 0 ≤ w) :
    (((2 / (1 + 22 * Pr)) ^ ((1 : ℝ) / 6) * w ^ (0.5 : ℝ)) ^ 3) ^ 2 = 2 / (1 + 22 * Pr) * w ^ 3 := by
  have h2 : 0 ≤ 2 / (1 + 22 * Pr) := by positivity
  have e1 : ((2 / (1 + 22 * Pr)) ^ ((1 : ℝ) / 6)) ^ 6 = 2 / (1 + 22 * Pr) := by
    rw [← Real.rpow_natCast, ← Real.rpow_mul h2]; norm_num
  have e2 : (w ^ (0.5 : ℝ)) ^ 2 = w := by
    rw [← Real.rpow_natCast, ← Real.rpow_mul hw]; norm_num
  calc (((2 / (1 + 22 * Pr)) ^ ((1 : ℝ) / 6) * w ^ (0.5 : ℝ)) ^ 3) ^ 2
      = ((2 / (1 + 22 * Pr)) ^ ((1 : ℝ) / 6)) ^ 6 * ((w ^ (0.5 : ℝ)) ^ 2) ^ 3 := by ring
    _ = _ := by rw [e1, e2]

theorem root_230 : (230 : ℝ) ^ ((1 : ℝ) / 3) ≤ 6.13 := by
  have h : ((230 : ℝ) ^ ((1 : ℝ) / 3)) ^ (3 : ℕ) ≤ 6.13 ^ 3 := by
    rw [← Real.rpow_natCast, ← Real.rpow_mul (by norm_num)]
    norm_num
  exact le_of_pow_le_pow_left₀ (by norm_num) (by norm_num) h

theorem plate_transition {Pr d x : ℝ} (hP : 1 ≤ Pr) (hd : 0 < d) (hx : 10 * d ≤ x) :
    plateLaminarNu (2300 * Pr) Pr d x < plateTurbulentNu 2300 Pr d x := by
  have hx0 : 0 < x := by linarith
  have hP0 : 0 < Pr := by linarith
  obtain ⟨s1, s3, s2⟩ := cube_root hP
  have hc := core_2300_ge hP
  have hw0 : 0 ≤ 2300 * Pr * d / x := by positivity
  have hw : 2300 * Pr * d / x ≤ 230 * Pr := by
    rw [div_le_iff₀ hx0]
    nlinarith
  have t1 : 13.78 * Pr ^ ((1 : ℝ) / 3) ≤ plateTurbulentNu 2300 Pr d x := by
    rw [plateTurbulentNu_eq]
    have : 0 ≤ (d / x) ^ ((2 : ℝ) / 3) := by positivity
    have hcp := core_pos (le_refl (2300 : ℝ)) hP
    nlinarith
  have hroot : (2300 * Pr * d / x) ^ ((1 : ℝ) / 3) ≤ 6.13 * Pr ^ ((1 : ℝ) / 3) := by
    calc (2300 * Pr * d / x) ^ ((1 : ℝ) / 3) ≤ (230 * Pr) ^ ((1 : ℝ) / 3) :=
          Real.rpow_le_rpow hw0 hw (by norm_num)
      _ = 230 ^ ((1 : ℝ) / 3) * Pr ^ ((1 : ℝ) / 3) := Real.mul_rpow (by norm_num) hP0.le
      _ ≤ _ := mul_le_mul_of_nonneg_right root_230 (by linarith)
  have h3 := third_term hP0 hw0
  have h3' : ((2 / (1 + 22 * Pr)) ^ ((1 : ℝ) / 6) * (2300 * Pr * d / x) ^ (0.5 : ℝ)) ^ 3 ≤ 1055 * Pr := by
    have k0 : 0 ≤ ((2 / (1 + 22 * Pr)) ^ ((1 : ℝ) / 6) * (2300 * Pr * d / x) ^ (0.5 : ℝ)) ^ 3 := by positivity
    apply le_of_sq_le_sq _ (by positivity)
    rw [h3]
    have k1 : (2300 * Pr * d / x) ^ 3 ≤ (230 * Pr) ^ 3 := pow_le_pow_left₀ hw0 hw 3
    calc 2 / (1 + 22 * Pr) * (2300 * Pr * d / x) ^ 3 ≤ 2 / (1 + 22 * Pr) * (230 * Pr) ^ 3 := by gcongr
      _ ≤ 2 / (22 * Pr) * (230 * Pr) ^ 3 := by gcongr; linarith
      _ = 2 * 230 ^ 3 / 22 * Pr ^ 2 := by field_simp
      _ ≤ (1055 * Pr) ^ 2 := by nlinarith [sq_nonneg Pr]
  unfold plateLaminarNu
  have hr0 : 0 ≤ (2300 * Pr * d / x) ^ ((1 : ℝ) / 3) := by positivity
  have h30 : 0 ≤ ((2 / (1 + 22 * Pr)) ^ ((1 : ℝ) / 6) * (2300 * Pr * d / x) ^ (0.5 : ℝ)) ^ 3 := by positivity
  generalize ((2 / (1 + 22 * Pr)) ^ ((1 : ℝ) / 6) * (2300 * Pr * d / x) ^ (0.5 : ℝ)) ^ 3 = u at *
  generalize (2300 * Pr * d / x) ^ ((1 : ℝ) / 3) = r at *
  generalize plateTurbulentNu 2300 Pr d x = t at *
  generalize Pr ^ ((1 : ℝ) / 3) = s at *
  have t0 : 0 ≤ t := by linarith
  have k1 : (1.615 * r - 0.7) ^ 3 ≤ (9.9 * s) ^ 3 := (Odd.pow_le_pow (by decide : Odd 3)).2 (by nlinarith)
  have k2 : (13.78 * s) ^ 3 ≤ t ^ 3 := pow_le_pow_left₀ (by linarith) t1 3
  have k3 : (9.9 * s) ^ 3 = 970.299 * Pr := by rw [mul_pow, s3]; norm_num
  have k4 : (13.78 * s) ^ 3 = 13.78 ^ 3 * Pr := by rw [mul_pow, s3]
  norm_num at k4
  have k5 : 49.371 + (1.615 * r - 0.7) ^ 3 + u < t ^ 3 := by linarith
  have k6 := cube_ge (c := 1.615) hr0 (by norm_num)
  calc (49.371 + (1.615 * r - 0.7) ^ 3 + u) ^ ((1 : ℝ) / 3) < (t ^ 3) ^ ((1 : ℝ) / 3) :=
        Real.rpow_lt_rpow (by linarith) k5 (by norm_num)
    _ = t := by rw [← Real.rpow_natCast, ← Real.rpow_mul t0]; norm_num

/-- The Nusselt number between plates as a function of the Reynolds number. -/
noncomputable def plateNu (Re Pr d x : ℝ) : ℝ :=
  if 2300 < Re then plateTurbulentNu Re Pr d x else plateLaminarNu (Re * Pr) Pr d x

theorem plateNu_lt {a b Pr d x : ℝ} (ha : 0 ≤ a) (h : a < b) (hP : 1 ≤ Pr) (hd : 0 < d) (hx : 10 * d ≤ x) :
    plateNu a Pr d x < plateNu b Pr d x := by
  have hP0 : 0 < Pr := by linarith
  have hx0 : 0 < x := by linarith
  have hk : 0 < 1 + (d / x) ^ ((2 : ℝ) / 3) := by positivity
  have turb : ∀ {p q : ℝ}, 2300 ≤ p → p < q → plateTurbulentNu p Pr d x < plateTurbulentNu q Pr d x := by
    intro p q hp hpq
    rw [plateTurbulentNu_eq, plateTurbulentNu_eq]
    exact mul_lt_mul_of_pos_right (core_lt hp hpq hP) hk
  have lam : ∀ {p q : ℝ}, 0 ≤ p → p < q → plateLaminarNu (p * Pr) Pr d x < plateLaminarNu (q * Pr) Pr d x := by
    intro p q hp hpq
    apply plateLaminarNu_lt hP0 (by positivity)
    gcongr
  unfold plateNu
  by_cases h1 : 2300 < a
  · rw [if_pos h1, if_pos (h1.trans h)]
    exact turb h1.le h
  · rw [if_neg h1]
    push Not at h1
    by_cases h2 : 2300 < b
    · rw [if_pos h2]
      have l : plateLaminarNu (a * Pr) Pr d x ≤ plateLaminarNu (2300 * Pr) Pr d x := by
        rcases eq_or_lt_of_le h1 with e | e
        · rw [e]
        · exact (lam ha e).le
      exact lt_of_le_of_lt (l.trans (plate_transition hP hd hx).le) (turb le_rfl h2)
    · rw [if_neg h2]
      exact lam ha h

theorem plateNu_pos {a Pr d x : ℝ} (ha : 0 ≤ a) (hP : 1 ≤ Pr) (hd : 0 < d) (hx : 0 < x) : 0 < plateNu a Pr d x := by
  have hP0 : 0 < Pr := by linarith
  unfold plateNu
  by_cases h1 : 2300 < a
  · rw [if_pos h1, plateTurbulentNu_eq]
    exact mul_pos (core_pos h1.le hP) (by positivity)
  · rw [if_neg h1]
    unfold plateLaminarNu
    have hw : 0 ≤ a * Pr * d / x := by positivity
    have hr0 : 0 ≤ (a * Pr * d / x) ^ ((1 : ℝ) / 3) := by positivity
    have h30 : 0 ≤ ((2 / (1 + 22 * Pr)) ^ ((1 : ℝ) / 6) * (a * Pr * d / x) ^ (0.5 : ℝ)) ^ 3 := by positivity
    have k6 := cube_ge (c := 1.615) hr0 (by norm_num)
    apply Real.rpow_pos_of_pos
    linarith

theorem phexAlpha_eq {dm Tf Tw A d x corr : ℝ} (h : 0 ≤ reynolds dm Tf A d + corr) :
    phexAlpha dm Tf Tw A d x corr
      = some (plateNu (reynolds dm Tf A d + corr) (Water.Pr Tf) d x * wallFactor Tf Tw * Water.lam Tf / d) := by
  unfold phexAlpha
  rw [if_neg (show ¬ plateRe dm Tf A d corr < 0 by exact not_lt.2 h)]
  rfl

/-- **C126** (partial: plates at least ten times as long as the hydraulic diameter; false otherwise, see
`C126_fails_short`): between plates the coefficient is defined, positive and grows strictly with the flow;
the direction does not matter. -/
theorem C126_more_flow_partial {T Tw A d x corr : ℝ} (h0 : 0 ≤ T) (h1 : T ≤ 100) (w0 : 0 ≤ Tw) (w1 : Tw ≤ 100)
    (hA : 0 < A) (hd : 0 < d) (hx : 10 * d ≤ x) (hc : 0 ≤ corr) (a b : ℝ) (hab : |a| < |b|) :
    ∃ α β, phexAlpha a T Tw A d x corr = some α ∧ phexAlpha b T Tw A d x corr = some β ∧
      phexAlpha (-a) T Tw A d x corr = some α ∧ 0 < α ∧ α < β := by
  have hl : 0 < Water.lam T := lt_of_lt_of_le (by norm_num) (Water.lam_ge h0 h1)
  have hp : (1 : ℝ) ≤ Water.Pr T := le_trans (by norm_num) (Water.Pr_ge h0 h1)
  have hw := wallFactor_pos h0 h1 w0 w1
  have ra := reynolds_nonneg h0 h1 hA hd a
  have rb := reynolds_nonneg h0 h1 hA hd b
  have rn : reynolds (-a) T A d = reynolds a T A d := by
    rw [reynolds_eq h0 h1 hA hd, reynolds_eq h0 h1 hA hd, abs_neg]
  have hlt := reynolds_lt h0 h1 hA hd hab
  refine ⟨_, _, phexAlpha_eq (by linarith), phexAlpha_eq (by linarith), ?_, ?_, ?_⟩
  · rw [phexAlpha_eq (by linarith), rn]
  · have := plateNu_pos (x := x) (show 0 ≤ reynolds a T A d + corr by linarith) hp hd (by linarith)
    positivity
  · have := plateNu_lt (show 0 ≤ reynolds a T A d + corr by linarith)
      (show reynolds a T A d + corr < reynolds b T A d + corr by linarith) hp hd hx
    gcongr

example : ∃ α β, phexAlpha 0.01 60 50 0.0002 0.004 0.3 100 = some α ∧
    phexAlpha (-0.02) 60 50 0.0002 0.004 0.3 100 = some β ∧ 0 < α ∧ α < β := by
  obtain ⟨α, β, h1, h2, -, h3, h4⟩ := C126_more_flow_partial (T := 60) (Tw := 50) (A := 0.0002) (d := 0.004) (x := 0.3)
    (corr := 100) (by norm_num) (by norm_num) (by norm_num) (by norm_num) (by norm_num) (by norm_num) (by norm_num)
    (by norm_num) 0.01 (-0.02) (by norm_num [abs_of_pos])
  exact ⟨α, β, h1, h2, h3, h4⟩

/-- **C126** (temperature of the wall): at the same flow and temperature of the water a warmer plate has a larger
coefficient, at any length and correction for which there is one. -/
theorem C126_wall {dm T A d x corr : ℝ} (h0 : 0 ≤ T) (h1 : T ≤ 100) (hd : 0 < d) (hx : 0 < x) {S S' α : ℝ}
    (w0 : 0 ≤ S) (h : S < S') (w1 : S' ≤ 100) (ha : phexAlpha dm T S A d x corr = some α) :
    ∃ β, phexAlpha dm T S' A d x corr = some β ∧ 0 < α ∧ α < β := by
  have hl : 0 < Water.lam T := lt_of_lt_of_le (by norm_num) (Water.lam_ge h0 h1)
  have hp : (1 : ℝ) ≤ Water.Pr T := le_trans (by norm_num) (Water.Pr_ge h0 h1)
  have hr : 0 ≤ reynolds dm T A d + corr := by
    by_contra hc
    have : phexAlpha dm T S A d x corr = none := by
      unfold phexAlpha
      rw [if_pos (by unfold plateRe; unfold reynolds at hc; linarith)]
    rw [this] at ha
    cases ha
  rw [phexAlpha_eq hr] at ha ⊢
  cases ha
  have hn := plateNu_pos hr hp hd hx
  have hs := wallFactor_pos h0 h1 w0 (h.le.trans w1)
  have hw := wallFactor_lt h0 h1 w0 h w1
  exact ⟨_, rfl, by positivity, by gcongr⟩

/-- Water of 60 degrees between plates of 20 and of 40 degrees. -/
example : ∃ α β, phexAlpha 0.1 60 20 0.0005 0.005 0.5 0 = some α ∧ phexAlpha 0.1 60 40 0.0005 0.005 0.5 0 = some β ∧
    α < β := by
  obtain ⟨α, -, ha, -⟩ := C126_more_flow_partial (T := 60) (Tw := 20) (A := 0.0005) (d := 0.005) (x := 0.5) (corr := 0)
    (by norm_num) (by norm_num) (by norm_num) (by norm_num) (by norm_num) (by norm_num) (by norm_num) (by norm_num)
    0.1 0.2 (by norm_num [abs_of_pos])
  obtain ⟨β, hb, -, h⟩ := C126_wall (S := 20) (S' := 40) (by norm_num) (by norm_num) (by norm_num) (by norm_num) (by norm_num)
    (by norm_num) (by norm_num) ha
  exact ⟨α, β, ha, hb, h⟩

/-- **C126** fails for a negative correction, which `find_reynolds_correction` may store: without flow the
coefficient is not a number. -/
theorem C126_fails_correction (T Tw A d x : ℝ) {corr : ℝ} (h : corr < 0) : phexAlpha 0 T Tw A d x corr = none := by
  unfold phexAlpha plateRe
  simp [h]

theorem friction_2400 : (0.0059 : ℝ) ≤ friction 2400 / 8 := by
  have h2 : Real.logb 10 2400 ≤ 3.39 := by
    rw [Real.logb_le_iff_le_rpow (by norm_num) (by norm_num)]
    have h : (2400 : ℝ) ^ 18 ≤ ((10 : ℝ) ^ ((61 : ℝ) / 18)) ^ (18 : ℕ) := by
      rw [← Real.rpow_natCast ((10 : ℝ) ^ ((61 : ℝ) / 18)), ← Real.rpow_mul (by norm_num)]
      norm_num
    exact le_trans (le_of_pow_le_pow_left₀ (by norm_num) (by positivity) h)
      (Real.rpow_le_rpow_of_exponent_le (by norm_num) (by norm_num))
  have b0 : 0 < base 2400 := by linarith [base_ge (show (2300 : ℝ) ≤ 2400 by norm_num)]
  have b2 : base 2400 ≤ 4.602 := by unfold base; linarith
  rw [friction_eq, inv_eq_one_div, div_div, le_div_iff₀ (by positivity)]
  nlinarith

theorem core_2400_le {Pr : ℝ} (hP : 1 ≤ Pr) : core 2400 Pr ≤ 14.9 * Pr ^ ((1 : ℝ) / 3) := by
  obtain ⟨s1, s3, s2⟩ := cube_root hP
  have f1 := friction_2400
  have f2 : friction 2400 / 8 ≤ 0.00605 := by
    have := friction_lt (le_refl (2300 : ℝ)) (show (2300 : ℝ) < 2400 by norm_num)
    linarith [friction_2300.2]
  have hd := core_den_pos (show (2300 : ℝ) ≤ 2400 by norm_num) hP
  unfold core
  rw [← s2] at *
  generalize hs : Pr ^ ((1 : ℝ) / 3) = s at *
  rw [← s3]
  have hq : 0.0768 ≤ (friction 2400 / 8) ^ (0.5 : ℝ) := by
    have e : (0.5 : ℝ) = 1 / 2 := by norm_num
    rw [e, ← Real.sqrt_eq_rpow]
    apply Real.le_sqrt_of_sq_le
    refine le_trans (by norm_num) f1
  have hden : 0.975 * s ^ 2 ≤ 1 + 12.7 * (s ^ 2 - 1) * (friction 2400 / 8) ^ (0.5 : ℝ) := by
    have hs0 : 0 ≤ s ^ 2 - 1 := by nlinarith
    have : 12.7 * (s ^ 2 - 1) * 0.0768 ≤ 12.7 * (s ^ 2 - 1) * (friction 2400 / 8) ^ (0.5 : ℝ) :=
      mul_le_mul_of_nonneg_left hq (by linarith)
    linarith
  rw [div_le_iff₀ hd]
  have h3 : (0 : ℝ) ≤ s ^ 3 := by positivity
  calc friction 2400 / 8 * (2400 * s ^ 3) ≤ 0.00605 * (2400 * s ^ 3) :=
        mul_le_mul_of_nonneg_right f2 (by linarith)
    _ ≤ 14.9 * s * (0.975 * s ^ 2) := by nlinarith
    _ ≤ _ := mul_le_mul_of_nonneg_left hden (by linarith)

theorem short_drop {Pr d : ℝ} (hP : 1 ≤ Pr) (hd : 0 < d) :
    plateTurbulentNu 2400 Pr d d < plateLaminarNu (2300 * Pr) Pr d d := by
  have hP0 : 0 < Pr := by linarith
  obtain ⟨s1, s3, s2⟩ := cube_root hP
  have hc := core_2400_le hP
  have t : plateTurbulentNu 2400 Pr d d ≤ 29.8 * Pr ^ ((1 : ℝ) / 3) := by
    rw [plateTurbulentNu_eq, div_self hd.ne', Real.one_rpow]
    linarith
  have hw : 2300 * Pr * d / d = 2300 * Pr := by field_simp
  have h3 := third_term hP0 (show 0 ≤ 2300 * Pr by linarith)
  unfold plateLaminarNu
  rw [hw]
  have hr0 : 0 ≤ (2300 * Pr) ^ ((1 : ℝ) / 3) := by positivity
  have h30 : 0 ≤ ((2 / (1 + 22 * Pr)) ^ ((1 : ℝ) / 6) * (2300 * Pr) ^ (0.5 : ℝ)) ^ 3 := by positivity
  generalize ((2 / (1 + 22 * Pr)) ^ ((1 : ℝ) / 6) * (2300 * Pr) ^ (0.5 : ℝ)) ^ 3 = u at *
  generalize (2300 * Pr) ^ ((1 : ℝ) / 3) = r at *
  have k6 := cube_ge (c := 1.615) hr0 (by norm_num)
  have hu : 32000 * Pr ≤ u := by
    apply le_of_sq_le_sq _ h30
    rw [h3]
    calc (32000 * Pr) ^ 2 ≤ 2 * 2300 ^ 3 / 23 * Pr ^ 2 := by nlinarith [sq_nonneg Pr]
      _ = 2 / (23 * Pr) * (2300 * Pr) ^ 3 := by field_simp
      _ ≤ 2 / (1 + 22 * Pr) * (2300 * Pr) ^ 3 := by gcongr; linarith
  refine lt_of_le_of_lt t ?_
  generalize Pr ^ ((1 : ℝ) / 3) = s at *
  have e : 29.8 * s = ((29.8 * s) ^ 3) ^ ((1 : ℝ) / 3) := by
    rw [← Real.rpow_natCast, ← Real.rpow_mul (by linarith)]; norm_num
  rw [e]
  have k4 : (29.8 * s) ^ 3 = 29.8 ^ 3 * Pr := by rw [mul_pow, s3]
  norm_num at k4
  exact root_lt (by positivity) (by linarith)

/-- **C126** fails for cells near the inlet (the discretised heat exchanger uses the distance of the cell): where
the distance equals the hydraulic diameter, a larger flow has a *smaller* coefficient once it becomes
turbulent, at every temperature. -/
theorem C126_fails_short {T Tw A d : ℝ} (h0 : 0 ≤ T) (h1 : T ≤ 100) (w0 : 0 ≤ Tw) (w1 : Tw ≤ 100) (hA : 0 < A)
    (hd : 0 < d) :
    ∃ a b α β, 0 < a ∧ a < b ∧ phexAlpha a T Tw A d d 0 = some α ∧ phexAlpha b T Tw A d d 0 = some β ∧ β < α := by
  have hl : 0 < Water.lam T := lt_of_lt_of_le (by norm_num) (Water.lam_ge h0 h1)
  have hp : (1 : ℝ) ≤ Water.Pr T := le_trans (by norm_num) (Water.Pr_ge h0 h1)
  have hw := wallFactor_pos h0 h1 w0 w1
  have hk := reynolds_slope h0 h1 hA hd
  have re : ∀ R : ℝ, 0 ≤ R → reynolds (R / (d / (Water.rho T * A * Water.ny T))) T A d = R := by
    intro R hR
    rw [reynolds_eq h0 h1 hA hd, abs_of_nonneg (by positivity), div_mul_cancel₀ _ hk.ne']
  refine ⟨2300 / (d / (Water.rho T * A * Water.ny T)), 2400 / (d / (Water.rho T * A * Water.ny T)), _, _, by positivity,
    by gcongr; norm_num, phexAlpha_eq (by rw [re _ (by norm_num)]; norm_num),
    phexAlpha_eq (by rw [re _ (by norm_num)]; norm_num), ?_⟩
  rw [re _ (by norm_num), re _ (by norm_num)]
  have e1 : plateNu (2300 + 0) (Water.Pr T) d d = plateLaminarNu (2300 * Water.Pr T) (Water.Pr T) d d := by
    unfold plateNu; norm_num
  have e2 : plateNu (2400 + 0) (Water.Pr T) d d = plateTurbulentNu 2400 (Water.Pr T) d d := by
    unfold plateNu; norm_num
  rw [e1, e2]
  have := short_drop hp hd
  gcongr

/-! The whole heat transfer value of a plate heat exchanger. -/

/-- A plate heat exchanger as the part builds it, with plates at least ten times as long as the hydraulic
diameter. -/
structure Plates.Valid (g : Plates) : Prop where
  aChannel : 0 < g.aChannel
  dh : 0 < g.dh
  length : 10 * g.dh ≤ g.length
  corr : 0 ≤ g.corr
  chSup : 0 < g.chSup
  chDmd : 0 < g.chDmd
  aPlate : 0 < g.aPlate
  sPlate : 0 < g.sPlate
  lamWll : 0 < g.lamWll
  numA : 0 < g.numA

theorem uaFldWllPlate_lt {A s l a b : ℝ} (hA : 0 < A) (hs : 0 < s) (hl : 0 < l) (ha : 0 < a) (h : a < b) :
    0 < uaFldWllPlate A s a l ∧ uaFldWllPlate A s a l < uaFldWllPlate A s b l := by
  have hb : 0 < b := ha.trans h
  unfold uaFldWllPlate
  have := one_div_lt_one_div_of_lt ha h
  exact ⟨by positivity, div_lt_div_of_pos_left hA (by positivity) (by linarith)⟩

theorem series_two {u w : ℝ} : series [u, w] = some (1 / (1 / u + 1 / w)) := rfl

theorem series_two_lt {u v w : ℝ} (hu : 0 < u) (h : u < v) (hw : 0 < w) :
    1 / (1 / u + 1 / w) < 1 / (1 / v + 1 / w) ∧ 1 / (1 / w + 1 / u) < 1 / (1 / w + 1 / v) := by
  have hv : 0 < v := hu.trans h
  have := one_div_lt_one_div_of_lt hu h
  constructor <;> exact one_div_lt_one_div_of_lt (by positivity) (by linarith)

/-- **C126** (heat transfer value, partial as above): more flow on either side of a plate heat exchanger raises
its heat transfer value. -/
theorem C126_value_partial {g : Plates} (v : g.Valid) {Ts Td a b c : ℝ} (s0 : 0 ≤ Ts) (s1 : Ts ≤ 100)
    (d0 : 0 ≤ Td) (d1 : Td ≤ 100) (hab : |a| < |b|) :
    (∃ u w, plateUA g a c Ts Td = some u ∧ plateUA g b c Ts Td = some w ∧ 0 < u ∧ u < w) ∧
    ∃ u w, plateUA g c a Ts Td = some u ∧ plateUA g c b Ts Td = some w ∧ 0 < u ∧ u < w := by
  have lt : ∀ k : ℝ, 0 < k → |a / k| < |b / k| := by
    intro k hk
    rw [abs_div, abs_div, abs_of_pos hk]
    gcongr
  have big : ∀ z : ℝ, |z| < |(|z| + 1)| := by
    intro z
    rw [abs_of_pos (show 0 < |z| + 1 by positivity)]
    linarith
  have hs2 : 0 < g.sPlate / 2 := by linarith [v.sPlate]
  constructor
  · obtain ⟨α, β, e1, e2, -, p1, p2⟩ := C126_more_flow_partial s0 s1 s0 s1 v.aChannel v.dh v.length v.corr _ _
      (lt g.chSup v.chSup)
    obtain ⟨γ, δ, e3, -, -, p3, p4⟩ := C126_more_flow_partial d0 d1 d0 d1 v.aChannel v.dh v.length v.corr _ _
      (big (c / g.chDmd))
    obtain ⟨q1, q2⟩ := uaFldWllPlate_lt v.aPlate hs2 v.lamWll p1 p2
    obtain ⟨q3, -⟩ := uaFldWllPlate_lt v.aPlate hs2 v.lamWll p3 p4
    refine ⟨_, _, by simp only [plateUA, e1, e3, series_two]; rfl, by simp only [plateUA, e2, e3, series_two]; rfl, ?_, ?_⟩
    · exact mul_pos (by positivity) v.numA
    · exact mul_lt_mul_of_pos_right (series_two_lt q1 q2 q3).1 v.numA
  · obtain ⟨α, β, e1, e2, -, p1, p2⟩ := C126_more_flow_partial d0 d1 d0 d1 v.aChannel v.dh v.length v.corr _ _
      (lt g.chDmd v.chDmd)
    obtain ⟨γ, δ, e3, -, -, p3, p4⟩ := C126_more_flow_partial s0 s1 s0 s1 v.aChannel v.dh v.length v.corr _ _
      (big (c / g.chSup))
    obtain ⟨q1, q2⟩ := uaFldWllPlate_lt v.aPlate hs2 v.lamWll p1 p2
    obtain ⟨q3, -⟩ := uaFldWllPlate_lt v.aPlate hs2 v.lamWll p3 p4
    refine ⟨_, _, by simp only [plateUA, e1, e3, series_two]; rfl, by simp only [plateUA, e2, e3, series_two]; rfl, ?_, ?_⟩
    · exact mul_pos (by positivity) v.numA
    · exact mul_lt_mul_of_pos_right (series_two_lt q1 q2 q3).2 v.numA

/-- Twenty plates of 0.3 m, channels 2 mm wide. -/
noncomputable def someP : Plates := ⟨0.0002, 0.004, 0.3, 50, 10, 9, 0.03, 0.0005, 15, 18⟩

theorem someP_valid : someP.Valid := by constructor <;> norm_num [someP]

example : ∃ u w, plateUA someP 0.1 0.2 60 40 = some u ∧ plateUA someP 0.3 0.2 60 40 = some w ∧ 0 < u ∧ u < w :=
  (C126_value_partial someP_valid (by norm_num) (by norm_num) (by norm_num) (by norm_num) (by norm_num [abs_of_pos])).1

end Verif.FlowAlpha
