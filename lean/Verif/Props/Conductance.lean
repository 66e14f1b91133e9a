import Verif.Model.Conductance
import Verif.Lemmas.Water
import Mathlib.Tactic.Linarith
import Mathlib.Tactic.Positivity
import Mathlib.Tactic.FieldSimp
import Mathlib.Tactic.Ring
import Mathlib.Algebra.BigOperators.Group.List.Basic
import Mathlib.Algebra.Order.BigOperators.Group.List

/-!
# Conductances, surface temperature, heat transfer coefficients (C51, C52, C79–C82)
-/

set_option linter.unusedSectionVars false

namespace Verif.Conductance

section Circuits

variable {K : Type*} [Field K] [LinearOrder K] [IsStrictOrderedRing K]

/-- C51: the conductivity used between two cells lies between the two conductivities, not above their
arithmetic mean, does not depend on their order, and is the harmonic mean. -/
theorem C51_lambda_mean {a b : K} (ha : 0 < a) (hb : 0 < b) :
    min a b ≤ Cells.lamMean a b ∧ Cells.lamMean a b ≤ max a b ∧ Cells.lamMean a b ≤ (a + b) / 2 ∧
      Cells.lamMean a b = Cells.lamMean b a ∧ 2 / Cells.lamMean a b = 1 / a + 1 / b := by
  have hab : 0 < a + b := by linarith
  unfold Cells.lamMean
  refine ⟨?_, ?_, ?_, ?_, ?_⟩
  · rw [le_div_iff₀ hab]
    rcases le_total a b with h | h
    · rw [min_eq_left h]; nlinarith
    · rw [min_eq_right h]; nlinarith
  · rw [div_le_iff₀ hab]
    rcases le_total a b with h | h
    · rw [max_eq_right h]; nlinarith
    · rw [max_eq_left h]; nlinarith
  · rw [div_le_iff₀ hab]; nlinarith [sq_nonneg (a - b)]
  · rw [add_comm b a]; ring_nf
  · field_simp; ring

example : Cells.lamMean (1 : ℚ) 3 = 3 / 2 := by norm_num [Cells.lamMean]

theorem foldl_inv (us : List K) (acc : K) :
    us.foldl (fun acc x => acc + 1 / x) acc = acc + (us.map (1 / ·)).sum := by
  induction us generalizing acc with
  | nil => simp
  | cons u us ih => rw [List.foldl_cons, ih, List.map_cons, List.sum_cons, add_assoc]

theorem foldl_sum (us : List K) (acc : K) : us.foldl (fun acc x => acc + x) acc = acc + us.sum := by
  induction us generalizing acc with
  | nil => simp
  | cons u us ih => rw [List.foldl_cons, ih, List.sum_cons, add_assoc]

theorem series_eq {us : List K} (h : us ≠ []) : series us = some (1 / (us.map (1 / ·)).sum) := by
  cases us with
  | nil => exact absurd rfl h
  | cons u us => rw [series, foldl_inv, List.map_cons, List.sum_cons]

theorem parallel_eq {us : List K} (h : us ≠ []) : parallel us = some us.sum := by
  cases us with
  | nil => exact absurd rfl h
  | cons u us => rw [parallel, foldl_sum, List.sum_cons]

theorem sum_inv_pos {us : List K} (h : us ≠ []) (hp : ∀ u ∈ us, 0 < u) : 0 < (us.map (1 / ·)).sum := by
  apply List.sum_pos
  · intro x hx
    obtain ⟨u, hu, rfl⟩ := List.mem_map.1 hx
    exact one_div_pos.2 (hp u hu)
  · simpa using h

/-- C51: a series connection of any number of positive conductances has a positive conductance whose
resistance is the sum of the resistances; it conducts at most as much as each member, less if there is
another one, and the order of the members does not matter. -/
theorem C51_series {us : List K} (h : us ≠ []) (hp : ∀ u ∈ us, 0 < u) :
    ∃ s, series us = some s ∧ 0 < s ∧ 1 / s = (us.map (1 / ·)).sum ∧ (∀ u ∈ us, s ≤ u) ∧
      (2 ≤ us.length → ∀ u ∈ us, s < u) ∧ ∀ vs : List K, vs.Perm us → series vs = some s := by
  have hs := sum_inv_pos h hp
  have key : ∀ u ∈ us, 1 / u ≤ (us.map (1 / ·)).sum ∧ (2 ≤ us.length → 1 / u < (us.map (1 / ·)).sum) := by
    intro u hu
    have hperm := List.perm_cons_erase hu
    have hsum : (us.map (1 / ·)).sum = 1 / u + ((us.erase u).map (1 / ·)).sum := by
      rw [(hperm.map (1 / ·)).sum_eq, List.map_cons, List.sum_cons]
    have hpe : ∀ v ∈ us.erase u, 0 < v := fun v hv => hp v (List.mem_of_mem_erase hv)
    constructor
    · rw [hsum]
      have : 0 ≤ ((us.erase u).map (1 / ·)).sum := by
        apply List.sum_nonneg
        intro x hx
        obtain ⟨v, hv, rfl⟩ := List.mem_map.1 hx
        exact (one_div_pos.2 (hpe v hv)).le
      linarith
    · intro h2
      rw [hsum]
      have hne : us.erase u ≠ [] := by
        intro he
        have := List.length_erase_of_mem hu
        rw [he] at this
        simp at this
        omega
      have := sum_inv_pos hne hpe
      linarith
  refine ⟨_, series_eq h, one_div_pos.2 hs, one_div_one_div _, ?_, ?_, ?_⟩
  · intro u hu
    rw [one_div_le hs (hp u hu)]
    exact (key u hu).1
  · intro h2 u hu
    rw [one_div_lt hs (hp u hu)]
    exact (key u hu).2 h2
  · intro vs hv
    have hne : vs ≠ [] := by
      rintro rfl
      exact h hv.nil_eq.symm
    rw [series_eq hne, (hv.map (1 / ·)).sum_eq]

example : series [(1 : ℚ), 2, 2] = some (1 / 2) := by decide +kernel

/-- C51: a parallel connection of any number of positive conductances conducts as much as its members
together: at least as much as each, more if there is another one; the order does not matter. -/
theorem C51_parallel {us : List K} (h : us ≠ []) (hp : ∀ u ∈ us, 0 < u) :
    ∃ s, parallel us = some s ∧ s = us.sum ∧ (∀ u ∈ us, u ≤ s) ∧ (2 ≤ us.length → ∀ u ∈ us, u < s) ∧
      ∀ vs : List K, vs.Perm us → parallel vs = some s := by
  have key : ∀ u ∈ us, us.sum = u + (us.erase u).sum := fun u hu => by
    rw [(List.perm_cons_erase hu).sum_eq, List.sum_cons]
  refine ⟨_, parallel_eq h, rfl, ?_, ?_, ?_⟩
  · intro u hu
    rw [key u hu]
    have : 0 ≤ (us.erase u).sum := List.sum_nonneg fun v hv => (hp v (List.mem_of_mem_erase hv)).le
    linarith
  · intro h2 u hu
    rw [key u hu]
    have hne : us.erase u ≠ [] := by
      intro he
      have := List.length_erase_of_mem hu
      rw [he] at this
      simp at this
      omega
    have : 0 < (us.erase u).sum := List.sum_pos _ (fun v hv => hp v (List.mem_of_mem_erase hv)) hne
    linarith
  · intro vs hv
    have hne : vs ≠ [] := by
      rintro rfl
      exact h hv.nil_eq.symm
    rw [parallel_eq hne, hv.sum_eq]

example : parallel [(1 : ℚ), 2, 2] = some 5 := by decide +kernel

/-- C80, first half: a series connection of arrays leaves its arguments as they were. -/
theorem C80_series_arguments_kept_partial (us : List (List K)) {r : List K} {args : List (List K)}
    (h : seriesArrays us = some (r, args)) : args = us := by
  cases us with
  | nil => simp [seriesArrays] at h
  | cons u us =>
    simp only [seriesArrays, Option.some.injEq, Prod.mk.injEq] at h
    exact h.2.symm

example : ∃ r, seriesArrays [[(1 : ℚ), 2], [1, 2]] = some (r, [[1, 2], [1, 2]]) ∧ r = [1 / 2, 1] := by
  refine ⟨_, rfl, ?_⟩
  norm_num [List.zipWith]

/-- C80, second half fails: a parallel connection of arrays overwrites its first argument with the result,
so the same call made again gives another value. -/
theorem C80_fails_parallel_overwrites_first :
    ∃ us : List (List ℚ), ∃ r args r' args', parallelArrays us = some (r, args) ∧ args ≠ us ∧
      parallelArrays args = some (r', args') ∧ r' ≠ r :=
  ⟨[[1], [2]], [3], [[3], [2]], [5], [[5], [2]], by decide +kernel⟩

/-- C80: exactly what happens: the first argument array is the returned array afterwards. -/
theorem C80_parallel_first_is_result (u : List K) (us : List (List K)) :
    ∃ r, parallelArrays (u :: us) = some (r, r :: us) := ⟨_, rfl⟩

end Circuits

/-! ## Geometry of a shell -/

/-- A shell as the parts build it: `0 < r_i < r_o ≤ r_total`, positive lengths and conductivities. -/
structure Shell.Valid (g : Shell) : Prop where
  rI : 0 < g.rI
  rO : g.rI < g.rO
  rTotal : g.rO ≤ g.rTotal
  gs : 0 < g.gs
  lamWll : 0 < g.lamWll
  lamIns : 0 < g.lamIns
  flowLength : 0 < g.flowLength

namespace Shell.Valid

variable {g : Shell} (v : g.Valid)
include v

theorem rO_pos : 0 < g.rO := v.rI.trans v.rO
theorem rTotal_pos : 0 < g.rTotal := v.rO_pos.trans_le v.rTotal
theorem rLnWll_pos : 0 < g.rLnWll := mul_pos v.rI (Real.log_pos ((one_lt_div v.rI).2 v.rO))
theorem rLnIns_nonneg : 0 ≤ g.rLnIns := mul_nonneg v.rI.le (Real.log_nonneg ((one_le_div v.rO_pos).2 v.rTotal))
theorem rRins_pos : 0 < g.rRins := div_pos v.rI v.rTotal_pos
theorem aShellI_pos : 0 < g.aShellI := mul_pos (mul_pos Real.pi_pos (by linarith [v.rI])) v.gs
theorem aShellIns_pos : 0 < g.aShellIns :=
  mul_pos (mul_pos (mul_pos Real.pi_pos v.rTotal_pos) two_pos) v.gs
theorem aCell_pos : 0 < g.aCell := by
  have := v.rI
  unfold Shell.aCell
  positivity

/-- The inner area over the outer one is the ratio of the radii. -/
theorem area_ratio : g.aShellI = g.rRins * g.aShellIns := by
  have := v.rTotal_pos.ne'
  unfold Shell.aShellI Shell.rRins Shell.aShellIns
  field_simp

end Shell.Valid

/-- The conductance to the ambient is positive and smaller than that of the inner and of the outer surface
alone, and than that of the wall alone. -/
theorem ua_bounds {g : Shell} (v : g.Valid) {aI aInf : ℝ} (hI : 0 < aI) (hInf : 0 < aInf) :
    0 < uaFldWllInsAmbCyl g aI aInf ∧ uaFldWllInsAmbCyl g aI aInf < aI * g.aShellI ∧
      uaFldWllInsAmbCyl g aI aInf < aInf * g.aShellIns := by
  have h1 := v.rLnWll_pos
  have h2 := v.rLnIns_nonneg
  have h3 := v.rRins_pos
  have h4 := v.aShellI_pos
  have hA := v.aShellIns_pos
  have q1 : 0 < 1 / aI := one_div_pos.2 hI
  have q2 : 0 < g.rLnWll / g.lamWll := div_pos h1 v.lamWll
  have q3 : 0 ≤ g.rLnIns / g.lamIns := div_nonneg h2 v.lamIns.le
  have q4 : 0 < g.rRins / aInf := div_pos h3 hInf
  have hd : 0 < 1 / aI + g.rLnWll / g.lamWll + g.rLnIns / g.lamIns + g.rRins / aInf := by linarith
  unfold uaFldWllInsAmbCyl
  refine ⟨div_pos h4 hd, ?_, ?_⟩
  · rw [div_lt_iff₀ hd]
    have : aI * (1 / aI) = 1 := by field_simp
    have hk : 1 < aI * (1 / aI + g.rLnWll / g.lamWll + g.rLnIns / g.lamIns + g.rRins / aInf) := by
      nlinarith [mul_pos hI q2, mul_nonneg hI.le q3, mul_pos hI q4]
    nlinarith
  · rw [div_lt_iff₀ hd, v.area_ratio]
    have e : aInf * (g.rRins / aInf) = g.rRins := by field_simp
    have hk : g.rRins < aInf * (1 / aI + g.rLnWll / g.lamWll + g.rLnIns / g.lamIns + g.rRins / aInf) := by
      nlinarith [mul_pos hInf q2, mul_nonneg hInf.le q3, mul_pos hInf q1]
    nlinarith

/-- The surface temperature for a conductance not above that of the outer surface. -/
theorem surfaceTemp_between {T Tinf As aInf UA : ℝ} (hA : 0 < aInf * As) (h0 : 0 ≤ UA) (h1 : UA ≤ aInf * As) :
    min T Tinf ≤ surfaceTemp T Tinf As aInf UA ∧ surfaceTemp T Tinf As aInf UA ≤ max T Tinf := by
  unfold surfaceTemp
  have e : (T - Tinf) * UA / (aInf * As) = (T - Tinf) * (UA / (aInf * As)) := by ring
  have hq0 : 0 ≤ UA / (aInf * As) := div_nonneg h0 hA.le
  have hq1 : UA / (aInf * As) ≤ 1 := (div_le_one hA).2 h1
  rw [e]
  generalize UA / (aInf * As) = q at *
  rcases le_total T Tinf with h | h
  · rw [min_eq_left h, max_eq_right h]; constructor <;> nlinarith
  · rw [min_eq_right h, max_eq_left h]; constructor <;> nlinarith

/-- C52: for the conductance computed from the same layers, with any positive heat transfer coefficients, the
surface temperature lies between the ambient and the fluid temperature, strictly if these differ; and the
heat which passes the layers is the heat which leaves the surface. -/
theorem C52_surface_between {g : Shell} (v : g.Valid) {aI aInf : ℝ} (hI : 0 < aI) (hInf : 0 < aInf) (T Tinf : ℝ) :
    let UA := uaFldWllInsAmbCyl g aI aInf
    let Ts := surfaceTemp T Tinf g.aShellIns aInf UA
    min T Tinf ≤ Ts ∧ Ts ≤ max T Tinf ∧ (T < Tinf → T < Ts ∧ Ts < Tinf) ∧ (Tinf < T → Tinf < Ts ∧ Ts < T) ∧
      aInf * g.aShellIns * (Ts - Tinf) = UA * (T - Tinf) := by
  obtain ⟨h0, -, h1⟩ := ua_bounds v hI hInf
  have hA : 0 < aInf * g.aShellIns := mul_pos hInf v.aShellIns_pos
  have hb := surfaceTemp_between (T := T) (Tinf := Tinf) hA h0.le h1.le
  refine ⟨hb.1, hb.2, ?_, ?_, ?_⟩
  · intro hlt
    unfold surfaceTemp
    have e : (T - Tinf) * uaFldWllInsAmbCyl g aI aInf / (aInf * g.aShellIns)
        = (T - Tinf) * (uaFldWllInsAmbCyl g aI aInf / (aInf * g.aShellIns)) := by ring
    have hq0 := div_pos h0 hA
    have hq1 := (div_lt_one hA).2 h1
    rw [e]
    constructor <;> nlinarith
  · intro hlt
    unfold surfaceTemp
    have e : (T - Tinf) * uaFldWllInsAmbCyl g aI aInf / (aInf * g.aShellIns)
        = (T - Tinf) * (uaFldWllInsAmbCyl g aI aInf / (aInf * g.aShellIns)) := by ring
    have hq0 := div_pos h0 hA
    have hq1 := (div_lt_one hA).2 h1
    rw [e]
    constructor <;> nlinarith
  · unfold surfaceTemp
    have h2 := v.aShellIns_pos.ne'
    have h3 := hInf.ne'
    field_simp
    ring

/-- A shell of a copper pipe with insulation. -/
noncomputable def pipeShell : Shell := ⟨0.012, 0.014, 0.034, 0.1, 380, 0.035, 0.1068, false⟩

theorem pipeShell_valid : pipeShell.Valid := by
  constructor <;> norm_num [pipeShell]

example : ∃ Ts, Ts = surfaceTemp 60 20 pipeShell.aShellIns 3 (uaFldWllInsAmbCyl pipeShell 900 3) ∧ 20 < Ts ∧ Ts < 60 :=
  ⟨_, rfl, (C52_surface_between pipeShell_valid (by norm_num) (by norm_num) 60 20).2.2.2.1 (by norm_num)⟩

/-! ## Heat transfer coefficients are positive -/

theorem lamAir_pos {T : ℝ} (h0 : -100 ≤ T) (h1 : T ≤ 200) : 0 < lamAir T := by
  unfold lamAir
  nlinarith [mul_nonneg (sub_nonneg.2 h1) (sub_nonneg.2 h0)]

theorem nyAir_pos {T : ℝ} (h0 : -100 ≤ T) : 0 < nyAir T := by
  unfold nyAir
  nlinarith [sq_nonneg T]

theorem rayleigh_nonneg {Ts Tinf ny L : ℝ} (hT : -273.15 < Tinf) (hL : 0 < L) : 0 ≤ rayleigh Ts Tinf ny L := by
  unfold rayleigh
  have : 0 < Tinf + 273.15 := by linarith
  positivity

/-- C79: the outer heat transfer coefficient of a cylinder is positive for every surface and ambient
temperature between -100 and 200 degC, in both orientations. -/
theorem cylinderAlphaInf_pos {Ts Tinf L r : ℝ} (vert : Bool) (hs : -100 ≤ Ts) (hs' : Ts ≤ 200) (hi : -100 ≤ Tinf)
    (hi' : Tinf ≤ 200) (hL : 0 < L) (hr : 0 < r) : 0 < cylinderAlphaInf Ts Tinf L vert r := by
  unfold cylinderAlphaInf
  have hl : 0 < lamAir ((Tinf + Ts) / 2) := lamAir_pos (by linarith) (by linarith)
  have hR : 0 ≤ rayleigh Ts Tinf (nyAir ((Tinf + Ts) / 2)) L := rayleigh_nonneg (by linarith) hL
  generalize rayleigh Ts Tinf (nyAir ((Tinf + Ts) / 2)) L = R at *
  refine div_pos (mul_pos ?_ hl) hL
  cases vert
  · simp only [Bool.false_eq_true, if_false]
    have : 0 ≤ (R * 0.3269207911296459) ^ ((1 : ℝ) / 6) := by positivity
    positivity
  · simp only [if_true]
    have : 0 ≤ (R * 0.3466023585520853) ^ ((1 : ℝ) / 6) := by positivity
    positivity

theorem laminarNu_pos {Pe d x : ℝ} (hP : 0 ≤ Pe) (hd : 0 < d) (hx : 0 < x) : 0 < laminarNu Pe d x := by
  unfold laminarNu
  apply Real.rpow_pos_of_pos
  have h : 0 ≤ (Pe * d / x) ^ ((1 : ℝ) / 3) := by positivity
  generalize (Pe * d / x) ^ ((1 : ℝ) / 3) = y at *
  have : (-0.7 : ℝ) ^ 3 ≤ (1.077 * y - 0.7) ^ 3 := by
    have h7 : (-0.7 : ℝ) ≤ 1.077 * y - 0.7 := by linarith
    exact (Odd.pow_le_pow (by decide : Odd 3)).2 h7
  norm_num at this ⊢
  linarith

theorem friction_pos {Re : ℝ} (h : 2300 < Re) : 0 < friction Re := by
  unfold friction
  have h1 : (3 : ℝ) ≤ Real.logb 10 Re := by
    rw [Real.le_logb_iff_rpow_le (by norm_num) (by linarith)]
    norm_num
    linarith
  have : 0 < 1.8 * Real.logb 10 Re - 1.5 := by linarith
  positivity

theorem turbulentNu_pos {Re Pr d x : ℝ} (h : 2300 < Re) (hP : 1 ≤ Pr) (hd : 0 < d) (hx : 0 < x) :
    0 < turbulentNu Re Pr d x := by
  unfold turbulentNu
  have hf := friction_pos h
  have hp : 1 ≤ Pr ^ ((2 : ℝ) / 3) := Real.one_le_rpow hP (by norm_num)
  have hq : 0 ≤ (friction Re / 8) ^ (0.5 : ℝ) := by positivity
  have h1 : 0 < 1 + 12.7 * (Pr ^ ((2 : ℝ) / 3) - 1) * (friction Re / 8) ^ (0.5 : ℝ) := by
    have : 0 ≤ 12.7 * (Pr ^ ((2 : ℝ) / 3) - 1) * (friction Re / 8) ^ (0.5 : ℝ) :=
      mul_nonneg (mul_nonneg (by norm_num) (by linarith)) hq
    linarith
  have h2 : 0 ≤ (d / x) ^ ((2 : ℝ) / 3) := by positivity
  have h3 : 0 < Re := by linarith
  have h4 : 0 < Pr := by linarith
  positivity

/-- C79: the inner heat transfer coefficient is positive for water between 0 and 100 degC at every mass flow
(positive, negative or zero, laminar or turbulent). -/
theorem pipeAlphaI_pos {dm T A d x : ℝ} (h0 : 0 ≤ T) (h1 : T ≤ 100) (_hA : 0 < A) (hd : 0 < d) (hx : 0 < x) :
    0 < pipeAlphaI dm T A d x := by
  unfold pipeAlphaI
  have hl : 0 < Water.lam T := lt_of_lt_of_le (by norm_num) (Water.lam_ge h0 h1)
  have hn : 0 < Water.ny T := lt_of_lt_of_le (by norm_num) (Water.ny_ge h0 h1)
  have hp : (1 : ℝ) ≤ Water.Pr T := le_trans (by norm_num) (Water.Pr_ge h0 h1)
  have hRe : 0 ≤ |dm / (Water.rho T * A)| * d / Water.ny T := by positivity
  generalize |dm / (Water.rho T * A)| * d / Water.ny T = Re at *
  refine div_pos (mul_pos ?_ hl) hd
  by_cases h : 2300 < Re
  · rw [if_pos h]; exact turbulentNu_pos h hp hd hx
  · rw [if_neg h]; exact laminarNu_pos (mul_nonneg hRe (by linarith)) hd hx

/-- Conditions of an evaluation: water between 0 and 100 degC, ambient between -100 and 200 degC. -/
structure Eval.Valid (e : Eval) : Prop where
  T0 : 0 ≤ e.T
  T1 : e.T ≤ 100
  a0 : -100 ≤ e.Tamb
  a1 : e.Tamb ≤ 200
  x : 0 < e.x

/-- What holds between two evaluations. -/
structure Coeffs.Ok (g : Shell) (c : Coeffs) : Prop where
  alphaI : 0 < c.alphaI
  alphaInf : 0 < c.alphaInf
  ua0 : 0 ≤ c.ua
  ua1 : c.ua ≤ c.alphaInf * g.aShellIns

theorem init_ok {g : Shell} (v : g.Valid) : Coeffs.init.Ok g := by
  have := v.aShellIns_pos
  refine ⟨?_, ?_, ?_, ?_⟩ <;> simp only [Coeffs.init] <;> positivity

theorem evaluate_Ts {g : Shell} (v : g.Valid) {c : Coeffs} (hc : c.Ok g) (e : Eval) :
    min e.T e.Tamb ≤ (evaluate g c e).Ts ∧ (evaluate g c e).Ts ≤ max e.T e.Tamb :=
  surfaceTemp_between (mul_pos hc.alphaInf v.aShellIns_pos) hc.ua0 hc.ua1

theorem evaluate_pos {g : Shell} (v : g.Valid) {c : Coeffs} (hc : c.Ok g) {e : Eval} (he : e.Valid) :
    0 < (evaluate g c e).alphaI ∧ 0 < (evaluate g c e).alphaInf := by
  obtain ⟨h1, h2⟩ := evaluate_Ts v hc e
  have := he.T0; have := he.T1; have := he.a0; have := he.a1
  constructor
  · exact pipeAlphaI_pos he.T0 he.T1 v.aCell_pos (by linarith [v.rI]) he.x
  · refine cylinderAlphaInf_pos _ ?_ ?_ he.a0 he.a1 v.flowLength v.rTotal_pos
    · exact le_trans (le_min (by linarith) (by linarith)) h1
    · exact le_trans h2 (max_le (by linarith) (by linarith))

theorem evaluate_ok {g : Shell} (v : g.Valid) {c : Coeffs} (hc : c.Ok g) {e : Eval} (he : e.Valid) :
    (evaluate g c e).Ok g := by
  obtain ⟨p1, p2⟩ := evaluate_pos v hc he
  have hb := ua_bounds v p1 p2
  exact ⟨p1, p2, hb.1.le, hb.2.2.le⟩

theorem history_ok {g : Shell} (v : g.Valid) {es : List Eval} (he : ∀ e ∈ es, e.Valid) : (history g es).Ok g := by
  unfold history
  have := init_ok v
  generalize Coeffs.init = c at *
  induction es generalizing c with
  | nil => exact this
  | cons e es ih =>
    rw [List.foldl_cons]
    exact ih (fun x hx => he x (List.mem_cons_of_mem _ hx)) _ (evaluate_ok v this (he e (List.mem_cons_self ..)))

/-- C52: after every history of evaluations (accepted or rejected steps, changing flows, temperatures and
ambient temperatures) the surface temperature computed in the next evaluation lies between the water and the
ambient temperature of that evaluation, although it uses the coefficients of the previous one. -/
theorem C52_surface_between_always {g : Shell} (v : g.Valid) {es : List Eval} (he : ∀ e ∈ es, e.Valid) (e : Eval) :
    min e.T e.Tamb ≤ (history g (es ++ [e])).Ts ∧ (history g (es ++ [e])).Ts ≤ max e.T e.Tamb := by
  have h : history g (es ++ [e]) = evaluate g (history g es) e := by simp [history, List.foldl_append]
  rw [h]
  exact evaluate_Ts v (history_ok v he) e

/-- C79: after every non-empty history of evaluations both heat transfer coefficients are positive, and the
conductance to the ambient is positive and below the conductances of the inner and of the outer surface. -/
theorem C79_coefficients_positive {g : Shell} (v : g.Valid) {es : List Eval} (he : ∀ e ∈ es, e.Valid) (hne : es ≠ []) :
    0 < (history g es).alphaI ∧ 0 < (history g es).alphaInf ∧ 0 < (history g es).ua ∧
      (history g es).ua < (history g es).alphaI * g.aShellI ∧
      (history g es).ua < (history g es).alphaInf * g.aShellIns := by
  obtain ⟨es', e, rfl⟩ : ∃ es' e, es = es' ++ [e] := by
    obtain ⟨es', e, h⟩ := es.eq_nil_or_concat.resolve_left hne
    exact ⟨es', e, by rw [h, List.concat_eq_append]⟩
  have h : history g (es' ++ [e]) = evaluate g (history g es') e := by simp [history, List.foldl_append]
  have he' : ∀ x ∈ es', x.Valid := fun x hx => he x (by simp [hx])
  rw [h]
  obtain ⟨p1, p2⟩ := evaluate_pos v (history_ok v he') (he e (by simp))
  obtain ⟨b1, b2, b3⟩ := ua_bounds v p1 p2
  exact ⟨p1, p2, b1, b2, b3⟩

example : ∃ es : List Eval, es.length = 2 ∧ (∀ e ∈ es, e.Valid) ∧ 0 < (history pipeShell es).ua := by
  refine ⟨[⟨0.2, 60, 20, 0.05⟩, ⟨-0.1, 55, -10, 0.35⟩], rfl, ?_, ?_⟩
  · intro e he
    simp only [List.mem_cons, List.not_mem_nil, or_false] at he
    rcases he with rfl | rfl <;> constructor <;> norm_num
  · refine (C79_coefficients_positive pipeShell_valid ?_ (by simp)).2.2.1
    intro e he
    simp only [List.mem_cons, List.not_mem_nil, or_false] at he
    rcases he with rfl | rfl <;> constructor <;> norm_num

/-- C79: the conductance is also below that of the wall alone, `2π l λ / ln (r_o / r_i)`, and below that of the insulation
alone, if there is one. -/
theorem C79_below_layers {g : Shell} (v : g.Valid) {es : List Eval} (he : ∀ e ∈ es, e.Valid) (hne : es ≠ []) :
    (history g es).ua < 2 * Real.pi * g.gs * g.lamWll / Real.log (g.rO / g.rI) ∧
      (g.rO < g.rTotal → (history g es).ua < 2 * Real.pi * g.gs * g.lamIns / Real.log (g.rTotal / g.rO)) := by
  obtain ⟨es', e, rfl⟩ : ∃ es' e, es = es' ++ [e] := by
    obtain ⟨es', e, h⟩ := es.eq_nil_or_concat.resolve_left hne
    exact ⟨es', e, by rw [h, List.concat_eq_append]⟩
  have h : history g (es' ++ [e]) = evaluate g (history g es') e := by simp [history, List.foldl_append]
  have he' : ∀ x ∈ es', x.Valid := fun x hx => he x (by simp [hx])
  rw [h]
  obtain ⟨p1, p2⟩ := evaluate_pos v (history_ok v he') (he e (by simp))
  rw [show (evaluate g (history g es') e).ua =
    uaFldWllInsAmbCyl g (evaluate g (history g es') e).alphaI (evaluate g (history g es') e).alphaInf from rfl]
  generalize (evaluate g (history g es') e).alphaI = aI at *
  generalize (evaluate g (history g es') e).alphaInf = aInf at *
  have h4 := v.aShellI_pos
  have hr := v.rI
  have q1 : 0 < 1 / aI := one_div_pos.2 p1
  have q2 : 0 < g.rLnWll / g.lamWll := div_pos v.rLnWll_pos v.lamWll
  have q3 : 0 ≤ g.rLnIns / g.lamIns := div_nonneg v.rLnIns_nonneg v.lamIns.le
  have q4 : 0 < g.rRins / aInf := div_pos v.rRins_pos p2
  have l1 : 0 < Real.log (g.rO / g.rI) := Real.log_pos ((one_lt_div hr).2 v.rO)
  have w := v.lamWll
  have w' := v.lamIns
  unfold uaFldWllInsAmbCyl
  constructor
  · calc g.aShellI / (1 / aI + g.rLnWll / g.lamWll + g.rLnIns / g.lamIns + g.rRins / aInf)
        < g.aShellI / (g.rLnWll / g.lamWll) := div_lt_div_of_pos_left h4 q2 (by linarith)
      _ = 2 * Real.pi * g.gs * g.lamWll / Real.log (g.rO / g.rI) := by
        unfold Shell.aShellI Shell.rLnWll
        field_simp
  · intro hi
    have l2 : 0 < Real.log (g.rTotal / g.rO) := Real.log_pos ((one_lt_div v.rO_pos).2 hi)
    have q3' : 0 < g.rLnIns / g.lamIns := div_pos (mul_pos hr l2) w'
    calc g.aShellI / (1 / aI + g.rLnWll / g.lamWll + g.rLnIns / g.lamIns + g.rRins / aInf)
        < g.aShellI / (g.rLnIns / g.lamIns) := div_lt_div_of_pos_left h4 q3' (by linarith)
      _ = 2 * Real.pi * g.gs * g.lamIns / Real.log (g.rTotal / g.rO) := by
        unfold Shell.aShellI Shell.rLnIns
        field_simp

example : pipeShell.rO < pipeShell.rTotal ∧ (history pipeShell [⟨0.2, 60, 20, 0.05⟩]).ua <
    2 * Real.pi * pipeShell.gs * pipeShell.lamWll / Real.log (pipeShell.rO / pipeShell.rI) := by
  refine ⟨by norm_num [pipeShell], (C79_below_layers pipeShell_valid ?_ (by simp)).1⟩
  intro e he
  rw [List.mem_singleton] at he
  subst he
  constructor <;> norm_num

/-- C79: in the first evaluation the surface has the temperature of the ambient, whatever the water is. -/
theorem C79_first_surface_is_ambient (g : Shell) (e : Eval) : (history g [e]).Ts = e.Tamb := by
  simp [history, evaluate, surfaceTemp, Coeffs.init]

theorem planeAlphaInf_nonneg {Ts Tinf L : ℝ} (vert top : Bool) (hs : -100 ≤ Ts) (hs' : Ts ≤ 200) (hi : -100 ≤ Tinf)
    (hi' : Tinf ≤ 200) (hL : 0 < L) : 0 ≤ planeAlphaInf Ts Tinf L vert top := by
  have hl : 0 < lamAir ((Tinf + Ts) / 2) := lamAir_pos (by linarith) (by linarith)
  have hR : 0 ≤ rayleigh Ts Tinf (nyAir ((Tinf + Ts) / 2)) L := rayleigh_nonneg (by linarith) hL
  unfold planeAlphaInf vertPlaneAlphaInf horPlaneAlphaInf horPlaneNu
  generalize rayleigh Ts Tinf (nyAir ((Tinf + Ts) / 2)) L = R at *
  cases vert
  · simp only [Bool.false_eq_true, if_false]
    refine div_nonneg (mul_nonneg ?_ hl.le) hL.le
    cases outward top Ts Tinf
    · simp only [Bool.false_eq_true, if_false]; positivity
    · simp only [if_true]
      by_cases h : R * 0.40306002707296223 ≤ 7e4
      · rw [if_pos h]; positivity
      · rw [if_neg h]; positivity
  · simp only [if_true]
    positivity

/-- C79: the conductance of a lid is never negative. -/
theorem C79_lid_nonneg {g : Shell} (v : g.Valid) {es : List Eval} (he : ∀ e ∈ es, e.Valid) {e : Eval} (h : e.Valid)
    {L : ℝ} (hL : 0 < L) (vertLid top : Bool) : 0 ≤ lidUA g (history g es) e L vertLid top := by
  obtain ⟨h1, h2⟩ := evaluate_Ts v (history_ok v he) e
  obtain ⟨p1, -⟩ := evaluate_pos v (history_ok v he) h
  have := h.T0; have := h.T1; have := h.a0; have := h.a1
  have hn := planeAlphaInf_nonneg vertLid top (Tinf := e.Tamb) (le_trans (le_min (by linarith) (by linarith)) h1)
    (le_trans h2 (max_le (by linarith) (by linarith))) h.a0 h.a1 hL
  unfold lidUA uaFldWllInsAmbPlate
  by_cases hz : planeAlphaInf (evaluate g (history g es) e).Ts e.Tamb L vertLid top = 0
  · rw [if_pos hz]
  · rw [if_neg hz]
    have hp := lt_of_le_of_ne hn (Ne.symm hz)
    have q1 : 0 < 1 / (evaluate g (history g es) e).alphaI := one_div_pos.2 p1
    have q2 : 0 ≤ (g.rO - g.rI) / g.lamWll := div_nonneg (by linarith [v.rO]) v.lamWll.le
    have q3 : 0 ≤ (g.rTotal - g.rO) / g.lamIns := div_nonneg (by linarith [v.rTotal]) v.lamIns.le
    have q4 : 0 < 1 / planeAlphaInf (evaluate g (history g es) e).Ts e.Tamb L vertLid top := one_div_pos.2 hp
    exact div_nonneg v.aCell_pos.le (by linarith)

/-- C79 fails for horizontal lids: in the first evaluation a lid conducts nothing at all, whatever the
difference between water and ambient (the Nusselt number of a horizontal plane has no constant part and the
surface starts at ambient temperature). -/
theorem C79_fails_first_lid_adiabatic (g : Shell) (e : Eval) (L : ℝ) (top : Bool) :
    lidUA g Coeffs.init e L false top = 0 := by
  have hT : (evaluate g Coeffs.init e).Ts = e.Tamb := C79_first_surface_is_ambient g e
  have h0 : planeAlphaInf e.Tamb e.Tamb L false top = 0 := by
    simp only [planeAlphaInf, horPlaneAlphaInf, Bool.false_eq_true, if_false]
    have hR : rayleigh e.Tamb e.Tamb (nyAir ((e.Tamb + e.Tamb) / 2)) L = 0 := by simp [rayleigh]
    rw [hR]
    have : ∀ b, horPlaneNu b 0 = 0 := by
      intro b
      unfold horPlaneNu
      cases b
      · simp only [Bool.false_eq_true, if_false, zero_mul]
        rw [Real.zero_rpow (by norm_num), mul_zero]
      · simp only [if_true, zero_mul]
        rw [if_pos (by norm_num), Real.zero_rpow (by norm_num), mul_zero]
    rw [this, zero_mul, zero_div]
  unfold lidUA uaFldWllInsAmbPlate
  rw [hT, if_pos h0]

/-! ## C81: splitting the wall -/

theorem log_split {g : Shell} (v : g.Valid) :
    Real.log ((g.rO / g.rI + 1) / 2) + Real.log (2 / (g.rI / g.rO + 1)) = Real.log (g.rO / g.rI) := by
  have h1 := v.rI
  have h2 := v.rO_pos
  rw [← Real.log_mul (by positivity) (by positivity)]
  congr 1
  field_simp
  ring

/-- C81: the conductance from the fluid to the middle of the wall and the one from there to the ambient, in
series, are the conductance from the fluid to the ambient. -/
theorem C81_wall_split {g : Shell} (v : g.Valid) {aI aInf : ℝ} (_hI : 0 < aI) (_hInf : 0 < aInf) :
    series [uaFldWllCyl g aI, uaWllInsAmbCyl g aInf] = some (uaFldWllInsAmbCyl g aI aInf) := by
  have hs := log_split v
  have hA := v.aShellI_pos.ne'
  simp only [series, List.foldl_cons, List.foldl_nil, Option.some.injEq]
  unfold uaFldWllCyl uaWllInsAmbCyl uaFldWllInsAmbCyl Shell.rLnWll
  rw [one_div_div, one_div_div, ← add_div, one_div_div, ← hs]
  congr 1
  ring

/-- C81: without insulation (`r_total = r_o`) the functions with and without the insulation layer agree, for
the whole wall and for its outer half. -/
theorem C81_no_insulation {g : Shell} (v : g.Valid) (h : g.rTotal = g.rO) (aI aInf : ℝ) :
    uaFldWllInsAmbCyl g aI aInf = uaFldWllAmbCyl g aI aInf ∧ uaWllInsAmbCyl g aInf = uaWllAmbCyl g aInf := by
  have h2 := v.rO_pos.ne'
  have hl : g.rLnIns = 0 := by simp [Shell.rLnIns, h, div_self h2]
  constructor
  · unfold uaFldWllInsAmbCyl uaFldWllAmbCyl Shell.rRins
    rw [hl, h, zero_div, add_zero]
  · unfold uaWllInsAmbCyl uaWllAmbCyl Shell.rRins
    rw [hl, h, zero_div, add_zero, div_div]

/-- C81: for plates, fluid to any layer of the wall in series with the rest of the wall, insulation and ambient is
the whole. -/
theorem C81_plate_split {A s₁ s₂ sIns aI aInf lW lI : ℝ} (hA : 0 < A) (hI : 0 < aInf) :
    series [uaFldWllPlate A s₁ aI lW, uaWllInsAmbPlate A s₂ sIns lW lI aInf]
      = some (uaFldWllInsAmbPlate A (s₁ + s₂) sIns aI aInf lW lI) := by
  have hA' := hA.ne'
  simp only [series, List.foldl_cons, List.foldl_nil, Option.some.injEq]
  unfold uaFldWllPlate uaWllInsAmbPlate uaFldWllInsAmbPlate
  rw [if_neg hI.ne', one_div_div, one_div_div, ← add_div, one_div_div]
  congr 1
  ring

example : ∃ u, series [uaFldWllCyl pipeShell 900, uaWllInsAmbCyl pipeShell 3] = some u ∧ 0 < u :=
  ⟨_, C81_wall_split pipeShell_valid (by norm_num) (by norm_num),
    (ua_bounds pipeShell_valid (by norm_num) (by norm_num)).1⟩

/-! ## C82: logarithmic mean temperature difference -/

/-- Full statement of C82: for positive differences at both ends the result lies between them. -/
def C82_statement : Prop :=
  ∀ Ta1 Ta2 Tb1 Tb2 : ℝ, Ta2 < Ta1 → Tb2 < Tb1 →
    ∃ m, lmtd Ta1 Ta2 Tb1 Tb2 = some m ∧ min (Ta1 - Ta2) (Tb1 - Tb2) ≤ m ∧ m ≤ max (Ta1 - Ta2) (Tb1 - Tb2)

theorem log_mean_bounds {a b : ℝ} (ha : 0 < a) (hab : a < b) :
    a ≤ (b - a) / Real.log (b / a) ∧ (b - a) / Real.log (b / a) ≤ b := by
  have hb := ha.trans hab
  have h1 : 0 < Real.log (b / a) := Real.log_pos ((one_lt_div ha).2 hab)
  constructor
  · rw [le_div_iff₀ h1]
    have := Real.log_le_sub_one_of_pos (div_pos hb ha)
    have e : a * (b / a - 1) = b - a := by field_simp
    nlinarith
  · rw [div_le_iff₀ h1]
    have := Real.log_le_sub_one_of_pos (div_pos ha hb)
    have hl : Real.log (a / b) = -Real.log (b / a) := by rw [← Real.log_inv, inv_div]
    rw [hl] at this
    have e : b * (a / b - 1) = a - b := by field_simp
    nlinarith

/-- C82 for positive differences which are not equal: the result exists, lies between the two differences and
does not depend on which end is called A. -/
theorem C82_lmtd_between_partial {Ta1 Ta2 Tb1 Tb2 : ℝ} (hA : Ta2 < Ta1) (hB : Tb2 < Tb1)
    (hne : Ta1 - Ta2 ≠ Tb1 - Tb2) :
    ∃ m, lmtd Ta1 Ta2 Tb1 Tb2 = some m ∧ min (Ta1 - Ta2) (Tb1 - Tb2) ≤ m ∧ m ≤ max (Ta1 - Ta2) (Tb1 - Tb2) ∧
      lmtd Tb1 Tb2 Ta1 Ta2 = some m := by
  have hA' : 0 < Ta1 - Ta2 := by linarith
  have hB' : 0 < Tb1 - Tb2 := by linarith
  unfold lmtd
  generalize Ta1 - Ta2 = a at *
  generalize Tb1 - Tb2 = b at *
  have hq : ¬ a / b < 0 := not_lt.2 (div_pos hA' hB').le
  have hq' : ¬ b / a < 0 := not_lt.2 (div_pos hB' hA').le
  have h1 : a / b ≠ 1 := fun h => hne ((div_eq_one_iff_eq hB'.ne').1 h)
  have h1' : b / a ≠ 1 := fun h => hne ((div_eq_one_iff_eq hA'.ne').1 h).symm
  rw [if_neg hB'.ne', if_neg hA'.ne', if_neg hq, if_neg h1, if_neg hA'.ne', if_neg hB'.ne', if_neg hq', if_neg h1']
  have hsym : (b - a) / Real.log (b / a) = (a - b) / Real.log (a / b) := by
    have hl : Real.log (b / a) = -Real.log (a / b) := by rw [← Real.log_inv, inv_div]
    rw [hl, div_neg, ← neg_div, neg_sub]
  refine ⟨_, rfl, ?_, ?_, by rw [hsym]⟩
  · rcases lt_or_gt_of_ne hne with h | h
    · rw [← hsym, min_eq_left h.le]; exact (log_mean_bounds hA' h).1
    · rw [min_eq_right h.le]; exact (log_mean_bounds hB' h).1
  · rcases lt_or_gt_of_ne hne with h | h
    · rw [← hsym, max_eq_right h.le]; exact (log_mean_bounds hA' h).2
    · rw [max_eq_left h.le]; exact (log_mean_bounds hB' h).2

example : ∃ m, lmtd 80 60 40 35 = some m ∧ 5 ≤ m ∧ m ≤ 20 := by
  obtain ⟨m, h, h1, h2, -⟩ := C82_lmtd_between_partial (Ta1 := 80) (Ta2 := 60) (Tb1 := 40) (Tb2 := 35)
    (by norm_num) (by norm_num) (by norm_num)
  norm_num at h1 h2
  exact ⟨m, h, h1, h2⟩

/-- C82 fails for balanced streams: the same difference at both ends has no logarithmic mean (`0 / 0`). -/
theorem C82_fails_balanced : ¬ C82_statement := by
  intro h
  obtain ⟨m, hm, -⟩ := h 80 60 40 20 (by norm_num) (by norm_num)
  have : lmtd 80 60 40 20 = none := by norm_num [lmtd]
  rw [this] at hm
  cases hm

end Verif.Conductance
