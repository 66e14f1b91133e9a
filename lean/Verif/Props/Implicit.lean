import Verif.Model.Implicit
import Verif.Props.HexNumStep
import Mathlib.LinearAlgebra.FiniteDimensional.Basic
import Mathlib.LinearAlgebra.Dimension.Constructions

/-! # C139: implicit steps of the numeric plate heat exchanger -/

set_option linter.unusedSectionVars false

namespace Verif.HexNum

open Finset
open Verif.Cells (Mat lamMean)

variable {K : Type*} [Field K] [LinearOrder K] [IsStrictOrderedRing K]
variable (mat : Mat K) (g : Geo K) (s : Inp K)

/-- The warmest cell (`σ = 1`) is not heated and the coldest (`σ = -1`) not cooled unless a port does it. -/
theorem drift_nonpos (h : Physical mat g s) (hmono : Monotone fun t => mat.cp t * t) {σ X : K} (hσ : σ = 1 ∨ σ = -1)
    (hle : ∀ k < g.n, ∀ j < 3, σ * T s k j ≤ X) (hM : ∀ i < 4, σ * (s.port i).T ≤ X) {k j : ℕ} (hk : k < g.n)
    (hj : j < 3) (hX : σ * T s k j = X) : σ * dT mat g s k j ≤ 0 := by
  have hent : ∀ a b : K, σ * a ≤ σ * b → σ * (mat.cp a * a) ≤ σ * (mat.cp b * b) := by
    intro a b hab
    rcases hσ with e | e
    · subst e
      simpa using hmono (by simpa using hab)
    · subst e
      have : b ≤ a := by linarith
      have := hmono this
      simp only at this
      linarith
  have top : ∀ j < 3, ∀ u : ℕ → K, u 0 = 0 → 0 ≤ u k → u k * (σ * (s.ext k (j + 1)) - X) ≤ 0 := by
    intro j hj u u0 uk
    rcases Nat.eq_zero_or_pos k with e | e
    · subst e; rw [u0, zero_mul]
    · have := hle (k - 1) (by omega) j hj
      unfold T at this
      rw [Nat.sub_add_cancel e] at this
      exact mul_nonpos_of_nonneg_of_nonpos uk (by linarith)
  have bot : ∀ j < 3, ∀ u : ℕ → K, u g.n = 0 → 0 ≤ u (k + 1) → u (k + 1) * (σ * (s.ext (k + 2) (j + 1)) - X) ≤ 0 := by
    intro j hj u un uk
    rcases Nat.lt_or_ge (k + 1) g.n with e | e
    · have := hle (k + 1) e j hj
      unfold T at this
      exact mul_nonpos_of_nonneg_of_nonpos uk (by linarith)
    · have e : k + 1 = g.n := by omega
      rw [e, un, zero_mul]
  have hm := h.mcp_pos hk hj
  suffices H : σ * (mcp mat g s k j * dT mat g s k j) ≤ 0 by
    have e : σ * (mcp mat g s k j * dT mat g s k j) = mcp mat g s k j * (σ * dT mat g s k j) := by ring
    rw [e] at H
    by_contra hc
    exact absurd (mul_pos hm (not_le.1 hc)) (not_lt.2 H)
  have fluid : ∀ c < 2, j = 2 * c → σ * (mcp mat g s k j * dT mat g s k j) ≤ 0 := by
    rintro c hc rfl
    have hb := cell_balance mat g s hc k hm.ne'
    have hdiv : 0 < divisor g c := by
      unfold divisor; split_ifs
      · exact h.chSup
      · exact h.chDmd
    have hTk : s.ext (k + 1) (2 * c + 1) = T s k (2 * c) := rfl
    have t1 := top (2 * c) hj (fun k => ua1 mat g s k (2 * c)) (by simp [ua1]) (h.ua1_nonneg hk.le (by omega))
    have t2 := bot (2 * c) hj (fun k => ua1 mat g s k (2 * c)) (by simp [ua1]) (h.ua1_nonneg (by omega) (by omega))
    have t3 : ua2 g s k (c + 1) * (σ * T s k 1 - X) ≤ 0 :=
      mul_nonpos_of_nonneg_of_nonpos (h.ua2_pos hk hc).le (by have := hle k hk 1 (by omega); linarith)
    have t4 : σ * ∑ i ∈ range 4, (if portIdx g i = k * 3 + 2 * c then
          uaPort mat g s i * ((s.port i).T - T s k (2 * c)) else 0) ≤ 0 := by
      rw [mul_sum]
      refine sum_nonpos fun i hi => ?_
      split_ifs
      · have a := h.port i (mem_range.1 hi)
        have b := hM i (mem_range.1 hi)
        have : σ * (uaPort mat g s i * ((s.port i).T - T s k (2 * c))) =
          uaPort mat g s i * (σ * (s.port i).T - X) := by rw [← hX]; ring
        rw [this]
        exact mul_nonpos_of_nonneg_of_nonpos a (by linarith)
      · simp
    have t5 : σ * ∑ i ∈ range 4, (if portIdx g i = k * 3 + 2 * c then
          dmPort s i * (mat.cp (s.port i).T * (s.port i).T
            - mat.cp (T s k (2 * c)) * T s k (2 * c)) else 0) ≤ 0 := by
      rw [mul_sum]
      refine sum_nonpos fun i hi => ?_
      split_ifs
      · have b := hM i (mem_range.1 hi)
        have e := hent (s.port i).T (T s k (2 * c)) (by rw [hX]; linarith)
        have : σ * (dmPort s i * (mat.cp (s.port i).T * (s.port i).T - mat.cp (T s k (2 * c)) * T s k (2 * c))) =
          dmPort s i * (σ * (mat.cp (s.port i).T * (s.port i).T) - σ * (mat.cp (T s k (2 * c)) * T s k (2 * c))) := by
          ring
        rw [this]
        exact mul_nonpos_of_nonneg_of_nonpos (dmPort_nonneg s i) (by linarith)
      · simp
    have t6 : dmTop s c k * (σ * (mat.cp (s.ext k (2 * c + 1)) * s.ext k (2 * c + 1))
        - σ * (mat.cp (T s k (2 * c)) * T s k (2 * c))) ≤ 0 := by
      rcases Nat.eq_zero_or_pos k with e | e
      · subst e; simp [dmTop]
      · have a := hle (k - 1) (by omega) (2 * c) (by omega)
        unfold T at a
        rw [Nat.sub_add_cancel e] at a
        have := hent (s.ext k (2 * c + 1)) (T s k (2 * c)) (by rw [hX]; exact a)
        exact mul_nonpos_of_nonneg_of_nonpos (dmTop_nonneg s c k) (by linarith)
    have t7 : dmBot g s c k * (σ * (mat.cp (s.ext (k + 2) (2 * c + 1)) * s.ext (k + 2) (2 * c + 1))
        - σ * (mat.cp (T s k (2 * c)) * T s k (2 * c))) ≤ 0 := by
      by_cases e : k + 1 = g.n
      · simp [dmBot, e]
      · have a := hle (k + 1) (by omega) (2 * c) (by omega)
        unfold T at a
        have := hent (s.ext (k + 2) (2 * c + 1)) (T s k (2 * c)) (by rw [hX]; exact a)
        exact mul_nonpos_of_nonneg_of_nonpos (dmBot_nonneg g s c k) (by linarith)
    generalize hS4 : ∑ i ∈ range 4, (if portIdx g i = k * 3 + 2 * c then
          uaPort mat g s i * ((s.port i).T - T s k (2 * c)) else 0) = S4 at hb t4
    generalize hS5 : ∑ i ∈ range 4, (if portIdx g i = k * 3 + 2 * c then
          dmPort s i * (mat.cp (s.port i).T * (s.port i).T
            - mat.cp (T s k (2 * c)) * T s k (2 * c)) else 0) = S5 at hb t5
    rw [hTk] at hb
    have t8 : (dmTop s c k * (σ * (mat.cp (s.ext k (2 * c + 1)) * s.ext k (2 * c + 1))
            - σ * (mat.cp (T s k (2 * c)) * T s k (2 * c)))
          + dmBot g s c k * (σ * (mat.cp (s.ext (k + 2) (2 * c + 1)) * s.ext (k + 2) (2 * c + 1))
            - σ * (mat.cp (T s k (2 * c)) * T s k (2 * c))) + σ * S5) / divisor g c ≤ 0 :=
      div_nonpos_of_nonpos_of_nonneg (by linarith) hdiv.le
    have sum0 : σ * (mcp mat g s k (2 * c) * dT mat g s k (2 * c)) =
        ua1 mat g s k (2 * c) * (σ * (s.ext k (2 * c + 1)) - X)
        + ua1 mat g s (k + 1) (2 * c) * (σ * (s.ext (k + 2) (2 * c + 1)) - X)
        + ua2 g s k (c + 1) * (σ * T s k 1 - X) + σ * S4
        + (dmTop s c k * (σ * (mat.cp (s.ext k (2 * c + 1)) * s.ext k (2 * c + 1))
            - σ * (mat.cp (T s k (2 * c)) * T s k (2 * c)))
          + dmBot g s c k * (σ * (mat.cp (s.ext (k + 2) (2 * c + 1)) * s.ext (k + 2) (2 * c + 1))
            - σ * (mat.cp (T s k (2 * c)) * T s k (2 * c))) + σ * S5) / divisor g c := by
      rw [← hX]
      linear_combination σ * hb
    rw [sum0]
    linarith
  rcases (by omega : j = 2 * 0 ∨ j = 1 ∨ j = 2 * 1) with e | e | e
  · exact fluid 0 (by omega) e
  · subst e
    have np : ∑ i ∈ range 4, (if portIdx g i = k * 3 + 1 then
        uaPort mat g s i * ((s.port i).T - T s k 1) / g.mcpWll else 0) = 0 :=
      sum_eq_zero fun i _ => if_neg (no_port_wall g i k h.n)
    have hw : mcp mat g s k 1 = g.mcpWll := by simp [mcp]
    have t1 := top 1 hj (fun k => ua1 mat g s k 1) (by simp [ua1]) (h.ua1_nonneg hk.le (by omega))
    have t2 := bot 1 hj (fun k => ua1 mat g s k 1) (by simp [ua1]) (h.ua1_nonneg (by omega) (by omega))
    have t3 : ua2 g s k 1 * (σ * T s k 0 - X) ≤ 0 :=
      mul_nonpos_of_nonneg_of_nonpos (h.ua2_pos hk (c := 0) (by omega)).le
        (by have := hle k hk 0 (by omega); linarith)
    have t4 : ua2 g s k 2 * (σ * T s k 2 - X) ≤ 0 :=
      mul_nonpos_of_nonneg_of_nonpos (h.ua2_pos hk (c := 1) (by omega)).le
        (by have := hle k hk 2 (by omega); linarith)
    have e : σ * (mcp mat g s k 1 * dT mat g s k 1) =
        ua1 mat g s k 1 * (σ * s.ext k (1 + 1) - X) + ua1 mat g s (k + 1) 1 * (σ * s.ext (k + 2) (1 + 1) - X)
        + ua2 g s k 1 * (σ * T s k 0 - X) + ua2 g s k 2 * (σ * T s k 2 - X) := by
      rw [hw]
      simp only [dT, dTcond, dTadv, mcp, if_true, np, add_zero]
      rw [mul_div_cancel₀ _ h.mcpWll.ne', ← hX]
      simp only [T]
      ring
    rw [e]
    linarith
  · exact fluid 1 (by omega) e

theorem T_withT (alpha : (ℕ → ℕ → K) → ℕ → ℕ → K) (y : ℕ → ℕ → K) {k j : ℕ} (hk : k < g.n) (hj : j < 3) :
    T (withT g alpha s y) k j = y k j := by
  simp only [T, withT]
  rw [if_neg (by omega)]
  simp

/-- Specification: `y` is the result of a step of the implicit Euler method of length `h` from `prev`: it is where the rates of change
at the *new* temperatures lead to. -/
def BackwardEuler (alpha : (ℕ → ℕ → K) → ℕ → ℕ → K) (prev : ℕ → ℕ → K) (h : K) (y : ℕ → ℕ → K) : Prop :=
  ∀ k < g.n, ∀ j < 3, y k j = prev k j + h * dT mat g (withT g alpha s y) k j

theorem residual_zero_iff (alpha : (ℕ → ℕ → K) → ℕ → ℕ → K) (prev : ℕ → ℕ → K) (h : K) (y : ℕ → ℕ → K) :
    (∀ k < g.n, ∀ j < 3, residual mat g alpha s prev h y k j = 0) ↔ BackwardEuler mat g s alpha prev h y := by
  unfold BackwardEuler residual
  refine forall₄_congr fun k _ j _ => ?_
  constructor <;> intro e <;> linarith

theorem implicit_bound (alpha : (ℕ → ℕ → K) → ℕ → ℕ → K) (prev y : ℕ → ℕ → K) {h : K} (hh : 0 ≤ h)
    (hph : Physical mat g (withT g alpha s y)) (hmono : Monotone fun t => mat.cp t * t)
    (hy : BackwardEuler mat g s alpha prev h y) {σ M : K} (hσ : σ = 1 ∨ σ = -1)
    (hprev : ∀ k < g.n, ∀ j < 3, σ * prev k j ≤ M) (hport : ∀ i < 4, σ * (s.port i).T ≤ M) :
    ∀ k < g.n, ∀ j < 3, σ * y k j ≤ M := by
  have hne : ((range g.n) ×ˢ (range 3)).Nonempty := ⟨(0, 0), by have := hph.n; simp; omega⟩
  obtain ⟨p, hp, hmax⟩ := exists_max_image _ (fun p : ℕ × ℕ => σ * y p.1 p.2) hne
  simp only [mem_product, mem_range] at hp hmax
  suffices H : σ * y p.1 p.2 ≤ M from fun k hk j hj => (hmax (k, j) ⟨hk, hj⟩).trans H
  by_contra hlt
  rw [not_le] at hlt
  have d := drift_nonpos mat g (withT g alpha s y) hph hmono hσ (X := σ * y p.1 p.2)
    (fun k hk j hj => by rw [T_withT g s alpha y hk hj]; exact hmax (k, j) ⟨hk, hj⟩)
    (fun i hi => (hport i hi).trans hlt.le) hp.1 hp.2 (by rw [T_withT g s alpha y hp.1 hp.2])
  have e := hy p.1 hp.1 p.2 hp.2
  have e' : σ * y p.1 p.2 = σ * prev p.1 p.2 + h * (σ * dT mat g (withT g alpha s y) p.1 p.2) := by
    conv_lhs => rw [e]
    ring
  have := mul_nonpos_of_nonneg_of_nonpos hh d
  have := hprev p.1 hp.1 p.2 hp.2
  linarith

/-- **C139** (no new extremes).  An implicit step creates no new extremes, however long it is: where the equation of the
step holds, every temperature lies between those before the step and those at the ports. -/
theorem C139_between (alpha : (ℕ → ℕ → K) → ℕ → ℕ → K) (prev y : ℕ → ℕ → K) {h : K} (hh : 0 ≤ h)
    (hph : Physical mat g (withT g alpha s y)) (hmono : Monotone fun t => mat.cp t * t)
    (hy : BackwardEuler mat g s alpha prev h y) {lo hi : K}
    (hprev : ∀ k < g.n, ∀ j < 3, lo ≤ prev k j ∧ prev k j ≤ hi) (hport : ∀ i < 4, lo ≤ (s.port i).T ∧ (s.port i).T ≤ hi) :
    ∀ k < g.n, ∀ j < 3, lo ≤ y k j ∧ y k j ≤ hi := by
  have a := implicit_bound mat g s alpha prev y hh hph hmono hy (σ := 1) (M := hi) (Or.inl rfl)
    (fun k hk j hj => by simpa using (hprev k hk j hj).2) (fun i hi => by simpa using (hport i hi).2)
  have b := implicit_bound mat g s alpha prev y hh hph hmono hy (σ := -1) (M := -lo) (Or.inr rfl)
    (fun k hk j hj => by have := (hprev k hk j hj).1; linarith) (fun i hi => by have := (hport i hi).1; linarith)
  intro k hk j hj
  have a' := a k hk j hj
  have b' := b k hk j hj
  constructor <;> linarith

/-- **C139** (energy).  Over an implicit step the heat content of a pair of channels and the wall between changes by the step
length times what the water of one channel of each side leaves behind and what is conducted through the ports. -/
theorem C139_energy (alpha : (ℕ → ℕ → K) → ℕ → ℕ → K) (prev y : ℕ → ℕ → K) {h : K} (hn : 1 ≤ g.n)
    (hm : ∀ k < g.n, ∀ j < 3, heatCap mat g (withT g alpha s y) k j ≠ 0)
    (hy : BackwardEuler mat g s alpha prev h y) :
    ∑ k ∈ range g.n, ∑ j ∈ range 3, heatCap mat g (withT g alpha s y) k j * (y k j - prev k j) =
      h * (heatGiven mat g (withT g alpha s y) 0 / g.chSup + heatGiven mat g (withT g alpha s y) 1 / g.chDmd
        + portHeat mat g (withT g alpha s y) 0 + portHeat mat g (withT g alpha s y) 1) := by
  rw [← C83_channel_balance_partial mat g _ hn hm, mul_sum]
  refine sum_congr rfl fun k hk => ?_
  rw [mul_sum]
  refine sum_congr rfl fun j hj => ?_
  rw [hy k (mem_range.1 hk) j (mem_range.1 hj)]
  ring

/-- Specification: the solver only claims success where it found a root. -/
def Sound (root : Root K) (n : ℕ) : Prop :=
  ∀ F x0, (root F x0).success = true → ∀ k < n, ∀ j < 3, F (root F x0).x k j = 0

/-- **C139** (`_partial`: if both calls of the solver succeed).  The result of a step lies between the temperatures before it
and those at the ports at the beginning and after the predictor.  Missing: success is not looked at
(`C139_fails_unsolved`). -/
theorem C139_step_partial (root : Root K) (hroot : Sound root g.n) (alpha : (ℕ → ℕ → K) → ℕ → ℕ → K) (s0 s1 : Inp K)
    (prev : ℕ → ℕ → K) {h : K} (hh : 0 ≤ h) (hmono : Monotone fun t => mat.cp t * t)
    (hph : let p := implicitStep root mat g alpha s0 s1 prev h
      Physical mat g (withT g alpha s0 p.1) ∧ Physical mat g (withT g alpha s1 p.2))
    (hok : let y1 := (implicitStep root mat g alpha s0 s1 prev h).1
      (root (residual mat g alpha s0 prev (h / 2)) prev).success = true ∧
      (root (residual mat g alpha s1 y1 (h / 2)) y1).success = true) {lo hi : K}
    (hprev : ∀ k < g.n, ∀ j < 3, lo ≤ prev k j ∧ prev k j ≤ hi)
    (h0 : ∀ i < 4, lo ≤ (s0.port i).T ∧ (s0.port i).T ≤ hi) (h1 : ∀ i < 4, lo ≤ (s1.port i).T ∧ (s1.port i).T ≤ hi) :
    ∀ k < g.n, ∀ j < 3, lo ≤ (implicitStep root mat g alpha s0 s1 prev h).2 k j ∧
      (implicitStep root mat g alpha s0 s1 prev h).2 k j ≤ hi := by
  have hh2 : 0 ≤ h / 2 := by linarith
  have e1 := (residual_zero_iff mat g s0 alpha prev (h / 2) _).1 (hroot _ _ hok.1)
  have b1 := C139_between mat g s0 alpha prev _ hh2 hph.1 hmono e1 hprev h0
  have e2 := (residual_zero_iff mat g s1 alpha _ (h / 2) _).1 (hroot _ _ hok.2)
  exact C139_between mat g s1 alpha _ _ hh2 hph.2 hmono e2 b1 h1

/-- A solver that looks at its start value only, at the steady state of an exchanger. -/
example : let root : Root ℚ := fun F x0 => ⟨x0, decide (∀ k : ℕ, k < 1 → ∀ j : ℕ, j < 3 → (F x0 k j : ℚ) = 0)⟩
    let prev : ℕ → ℕ → ℚ := fun k j => exInp.ext (k + 1) (j + 1)
    Sound root exGeo.n ∧ (root (residual exMat exGeo (fun _ => exInp.alpha) exInp prev (600 / 2)) prev).success = true ∧
    (∀ k < 1, ∀ j < 3, 0 ≤ prev k j ∧ prev k j ≤ 10) ∧ ∀ i < 4, 0 ≤ (exInp.port i).T ∧ (exInp.port i).T ≤ 10 := by
  refine ⟨fun F x0 h => ?_, by decide +kernel, by decide +kernel, by decide +kernel⟩
  exact of_decide_eq_true h

/-- **C139** for water: the hypothesis on the enthalpy holds. -/
theorem C139_water (g : Geo ℝ) (s : Inp ℝ) (alpha : (ℕ → ℕ → ℝ) → ℕ → ℕ → ℝ) (prev y : ℕ → ℕ → ℝ) {h : ℝ} (hh : 0 ≤ h)
    (hph : Physical Water.water g (withT g alpha s y)) (hy : BackwardEuler Water.water g s alpha prev h y) {lo hi : ℝ}
    (hprev : ∀ k < g.n, ∀ j < 3, lo ≤ prev k j ∧ prev k j ≤ hi) (hport : ∀ i < 4, lo ≤ (s.port i).T ∧ (s.port i).T ≤ hi) :
    ∀ k < g.n, ∀ j < 3, lo ≤ y k j ∧ y k j ≤ hi :=
  C139_between Water.water g s alpha prev y hh hph Water.enth_strictMono.monotone hy hprev hport

/-- The claim fails if the solver does not succeed: its last array becomes the result of the step, whatever it is. -/
theorem C139_fails_unsolved (alpha : (ℕ → ℕ → K) → ℕ → ℕ → K) (s0 s1 : Inp K) (prev y : ℕ → ℕ → K) (h : K) :
    ∃ root : Root K, Sound root g.n ∧ (implicitStep root mat g alpha s0 s1 prev h).2 = y :=
  ⟨fun _ _ => ⟨y, false⟩, fun _ _ h => by simp at h, rfl⟩

/-! ### Solvability -/

/-- The rates of change are linear in all temperatures if the properties of the water do not depend on them. -/
theorem dT_linear {l r c : K} (hl : ∀ x, mat.lam x = l) (hr : ∀ x, mat.rho x = r) (hc : ∀ x, mat.cp x = c)
    (s1 s2 s3 : Inp K) (a : K) (hd2 : s2.dm = s1.dm) (hd3 : s3.dm = s1.dm) (ha2 : s2.alpha = s1.alpha)
    (ha3 : s3.alpha = s1.alpha) (hj2 : s2.junk = s1.junk) (hj3 : s3.junk = s1.junk)
    (hp2 : ∀ i, (s2.port i).area = (s1.port i).area ∧ (s2.port i).gsp = (s1.port i).gsp ∧
      (s2.port i).uaWll = (s1.port i).uaWll)
    (hp3 : ∀ i, (s3.port i).area = (s1.port i).area ∧ (s3.port i).gsp = (s1.port i).gsp ∧
      (s3.port i).uaWll = (s1.port i).uaWll)
    (hpT : ∀ i, (s3.port i).T = a * (s1.port i).T + (s2.port i).T)
    (hext : ∀ x y, s3.ext x y = a * s1.ext x y + s2.ext x y) (k j : ℕ) :
    dT mat g s3 k j = a * dT mat g s1 k j + dT mat g s2 k j := by
  have u1 : ∀ s : Inp K, ∀ k j, ua1 mat g s k j = if k = 0 ∨ k = g.n then 0 else if j = 1 then g.uaWll
      else g.aChannel / g.gs * lamMean l l := by
    intro s k j; simp only [ua1, hl]
  have u2 : ∀ s : Inp K, s.alpha = s1.alpha → ∀ k f, ua2 g s k f = ua2 g s1 k f := by
    intro s h k f; simp only [ua2, h]
  have m1 : ∀ s : Inp K, mcp mat g s k j = mcp mat g s1 k j := by
    intro s; simp only [mcp, hr, hc]
  have up : ∀ s : Inp K, s.junk = s1.junk → (∀ i, (s.port i).area = (s1.port i).area ∧ (s.port i).gsp = (s1.port i).gsp ∧
      (s.port i).uaWll = (s1.port i).uaWll) → ∀ i, uaPort mat g s i = uaPort mat g s1 i := by
    intro s h hp i
    simp only [uaPort, lamFlat, hl, h, (hp i).1, (hp i).2.1, (hp i).2.2]
  have dt : ∀ s : Inp K, s.dm = s1.dm → ∀ c k, dmTop s c k = dmTop s1 c k := by
    intro s h c k; simp only [dmTop, h]
  have db : ∀ s : Inp K, s.dm = s1.dm → ∀ c k, dmBot g s c k = dmBot g s1 c k := by
    intro s h c k; simp only [dmBot, h]
  have dp : ∀ s : Inp K, s.dm = s1.dm → ∀ i, dmPort s i = dmPort s1 i := by
    intro s h i; simp only [dmPort, h]
  simp only [dT, dTcond, dTadv, ui, T, m1 s2, m1 s3, u2 s2 ha2, u2 s3 ha3, up s2 hj2 hp2, up s3 hj3 hp3, dt s2 hd2,
    dt s3 hd3, db s2 hd2, db s3 hd3, dp s2 hd2, dp s3 hd3, hext, hpT, hc]
  rw [u1 s3, u1 s3, u1 s2, u1 s2, u1 s1, u1 s1]
  generalize (if k = 0 ∨ k = g.n then 0 else if j = 1 then g.uaWll else g.aChannel / g.gs * lamMean l l) = v1
  generalize (if k + 1 = 0 ∨ k + 1 = g.n then 0 else if j = 1 then g.uaWll else g.aChannel / g.gs * lamMean l l) = v2
  have lin : ∀ (P : ℕ → Prop) [DecidablePred P] (q p1 p2 : ℕ → K) (x1 x2 m : K),
      ∑ i ∈ range 4, (if P i then q i * ((a * p1 i + p2 i) - (a * x1 + x2)) / m else 0) =
      a * ∑ i ∈ range 4, (if P i then q i * (p1 i - x1) / m else 0)
        + ∑ i ∈ range 4, (if P i then q i * (p2 i - x2) / m else 0) := by
    intro P _ q p1 p2 x1 x2 m
    rw [mul_sum, ← sum_add_distrib]
    refine sum_congr rfl fun i _ => ?_
    split_ifs
    · ring
    · ring
  have lin' : ∀ (P : ℕ → Prop) [DecidablePred P] (q p1 p2 : ℕ → K) (x1 x2 m : K),
      ∑ i ∈ range 4, (if P i then q i * (c * (a * p1 i + p2 i) - c * (a * x1 + x2)) / m else 0) =
      a * ∑ i ∈ range 4, (if P i then q i * (c * p1 i - c * x1) / m else 0)
        + ∑ i ∈ range 4, (if P i then q i * (c * p2 i - c * x2) / m else 0) := by
    intro P _ q p1 p2 x1 x2 m
    rw [mul_sum, ← sum_add_distrib]
    refine sum_congr rfl fun i _ => ?_
    split_ifs
    · ring
    · ring
  by_cases hj : j = 1
  · simp only [if_pos hj]
    rw [lin]
    ring
  · simp only [if_neg hj]
    rw [lin, lin']
    ring

/-- Temperatures of a grid as functions of row and column. -/
def lift {n : ℕ} (v : Fin n × Fin 3 → K) (k j : ℕ) : K := if h : k < n ∧ j < 3 then v (⟨k, h.1⟩, ⟨j, h.2⟩) else 0

/-- The exchanger without temperatures. -/
def homogeneous (s : Inp K) : Inp K := { s with ext := fun _ _ => 0, port := fun i => { s.port i with T := 0 } }

/-- **C139** (solvability).  If the properties of the water and the heat transfer coefficients do not depend on the temperatures,
the equation of an implicit step has exactly one solution, however long the step is. -/
theorem C139_solvable {l r c : K} (hl : ∀ x, mat.lam x = l) (hr : ∀ x, mat.rho x = r) (hc : ∀ x, mat.cp x = c)
    (a : ℕ → ℕ → K) (prev : ℕ → ℕ → K) {h : K} (hh : 0 ≤ h) (hph : Physical mat g { s with alpha := a }) :
    ∃ y, BackwardEuler mat g s (fun _ => a) prev h y ∧
      ∀ y', BackwardEuler mat g s (fun _ => a) prev h y' → ∀ k < g.n, ∀ j < 3, y' k j = y k j := by
  have hc0 : 0 < c := by
    have := hph.cp 0 hph.n 0 (by omega)
    rwa [hc] at this
  have hmono : Monotone fun t => mat.cp t * t := by
    intro x y hxy
    simp only [hc]
    exact mul_le_mul_of_nonneg_left hxy hc0.le
  have hP : ∀ y, Physical mat g (withT g (fun _ => a) (homogeneous s) y) := by
    intro y
    refine ⟨hph.n, hph.chSup, hph.chDmd, hph.vCell, hph.aChannel, hph.gs, hph.aPlate, hph.sPlate, hph.lamWll, hph.mcpWll,
      hph.uaWll, ?_, ?_, ?_, hph.alpha, ?_⟩
    · intro k hk j hj; have := hph.rho k hk j hj; rw [hr] at this ⊢; exact this
    · intro k hk j hj; have := hph.cp k hk j hj; rw [hc] at this ⊢; exact this
    · intro k hk j hj; have := hph.lam k hk j hj; rw [hl] at this ⊢; exact this
    · intro i hi
      have := hph.port i hi
      simp only [uaPort, lamFlat, hl] at this ⊢
      exact this
  -- the homogeneous equation
  let D : (ℕ → ℕ → K) → ℕ → ℕ → K := fun y k j => dT mat g (withT g (fun _ => a) (homogeneous s) y) k j
  have hD : ∀ (t : K) (y z : ℕ → ℕ → K) (k j : ℕ), D (fun k j => t * y k j + z k j) k j = t * D y k j + D z k j := by
    intro t y z k j
    refine dT_linear mat g hl hr hc (withT g (fun _ => a) (homogeneous s) y) (withT g (fun _ => a) (homogeneous s) z)
      (withT g (fun _ => a) (homogeneous s) fun k j => t * y k j + z k j) t rfl rfl rfl rfl rfl rfl (fun _ => ⟨rfl, rfl, rfl⟩) (fun _ => ⟨rfl, rfl, rfl⟩)
      (fun i => ?_) (fun x w => ?_) k j
    · simp [withT, homogeneous]
    · simp only [withT, homogeneous]
      split_ifs <;> ring
  have hAff : ∀ (y : ℕ → ℕ → K) (k j : ℕ), dT mat g (withT g (fun _ => a) s y) k j =
      D y k j + dT mat g (withT g (fun _ => a) s (fun _ _ => 0)) k j := by
    intro y k j
    have := dT_linear mat g hl hr hc (withT g (fun _ => a) (homogeneous s) y) (withT g (fun _ => a) s (fun _ _ => 0))
      (withT g (fun _ => a) s y) 1 rfl rfl rfl rfl rfl rfl (fun _ => ⟨rfl, rfl, rfl⟩) (fun _ => ⟨rfl, rfl, rfl⟩)
      (fun i => by simp [withT, homogeneous]) (fun x w => by
        simp only [withT, homogeneous]
        split_ifs <;> ring) k j
    rw [this, one_mul]
  have hzero : ∀ y : ℕ → ℕ → K, (∀ k < g.n, ∀ j < 3, y k j = h * D y k j) → ∀ k < g.n, ∀ j < 3, y k j = 0 := by
    intro y hy k hk j hj
    have := C139_between mat g (homogeneous s) (fun _ => a) (fun _ _ => 0) y hh (hP y) hmono
      (fun k hk j hj => by rw [zero_add]; exact hy k hk j hj) (lo := 0) (hi := 0) (fun _ _ _ _ => ⟨le_rfl, le_rfl⟩)
      (fun _ _ => ⟨le_rfl, le_rfl⟩) k hk j hj
    exact le_antisymm this.2 this.1
  let L : (Fin g.n × Fin 3 → K) →ₗ[K] (Fin g.n × Fin 3 → K) :=
    { toFun := fun v p => v p - h * D (lift v) p.1 p.2
      map_add' := by
        intro v w
        funext p
        have e : (lift (v + w) : ℕ → ℕ → K) = fun k j => 1 * lift v k j + lift w k j := by
          funext k j
          simp only [lift, Pi.add_apply]
          split_ifs <;> ring
        simp only [e, hD, Pi.add_apply]
        ring
      map_smul' := by
        intro t v
        funext p
        have e : (lift (t • v) : ℕ → ℕ → K) = fun k j => (t - 1) * lift v k j + lift v k j := by
          funext k j
          simp only [lift, Pi.smul_apply, smul_eq_mul]
          split_ifs <;> ring
        simp only [e, hD, Pi.smul_apply, smul_eq_mul, RingHom.id_apply]
        ring }
  have hinj : Function.Injective L := by
    rw [← LinearMap.ker_eq_bot, LinearMap.ker_eq_bot']
    intro v hv
    have h0 := hzero (lift v) (fun k hk j hj => by
      have := congrFun hv (⟨k, hk⟩, ⟨j, hj⟩)
      simp only [L, LinearMap.coe_mk, AddHom.coe_mk, Pi.zero_apply] at this
      simp only [lift, dif_pos (And.intro hk hj)]
      linarith)
    funext p
    have := h0 p.1 p.1.2 p.2 p.2.2
    simpa [lift] using this
  have hsurj : Function.Surjective L := LinearMap.surjective_of_injective hinj
  obtain ⟨v, hv⟩ := hsurj fun p => prev p.1 p.2 + h * dT mat g (withT g (fun _ => a) s (fun _ _ => 0)) p.1 p.2
  have hBE : BackwardEuler mat g s (fun _ => a) prev h (lift v) := by
    intro k hk j hj
    have := congrFun hv (⟨k, hk⟩, ⟨j, hj⟩)
    simp only [L, LinearMap.coe_mk, AddHom.coe_mk] at this
    rw [hAff]
    simp only [lift, dif_pos (And.intro hk hj)] at this ⊢
    linarith
  refine ⟨lift v, hBE, fun y' hy' => ?_⟩
  have hz := hzero (fun k j => (-1) * lift v k j + y' k j) (fun k hk j hj => by
    rw [hD]
    have e1 := hBE k hk j hj
    have e2 := hy' k hk j hj
    rw [hAff] at e1 e2
    linarith)
  intro k hk j hj
  have := hz k hk j hj
  linarith

/-- The hypotheses are met: an exchanger with one row and a step of an hour. -/
example : ∃ y, BackwardEuler exMat exGeo exInp (fun _ => exInp.alpha) (fun _ _ => 20) 3600 y ∧
    ∀ k < 1, ∀ j < 3, 0 ≤ y k j ∧ y k j ≤ 20 := by
  have hph : Physical exMat exGeo { exInp with alpha := exInp.alpha } := by
    refine ⟨?_, ?_, ?_, ?_, ?_, ?_, ?_, ?_, ?_, ?_, ?_, ?_, ?_, ?_, ?_, ?_⟩ <;> decide +kernel
  obtain ⟨y, hy, -⟩ := C139_solvable exMat exGeo exInp (l := 1) (r := 1) (c := 1) (fun _ => rfl) (fun _ => rfl) (fun _ => rfl)
    exInp.alpha (fun _ _ => 20) (h := 3600) (by norm_num) hph
  refine ⟨y, hy, ?_⟩
  refine C139_between exMat exGeo exInp (fun _ => exInp.alpha) (fun _ _ => 20) y (h := 3600) (by norm_num) ?_ ?_ hy
    (fun _ _ _ _ => ⟨by norm_num, le_rfl⟩) (by decide +kernel)
  · refine ⟨hph.n, hph.chSup, hph.chDmd, hph.vCell, hph.aChannel, hph.gs, hph.aPlate, hph.sPlate, hph.lamWll, hph.mcpWll,
      hph.uaWll, fun _ _ _ _ => one_pos, fun _ _ _ _ => one_pos, fun _ _ _ _ => one_pos, hph.alpha, hph.port⟩
  · intro x y hxy
    simpa [exMat] using hxy

end Verif.HexNum
