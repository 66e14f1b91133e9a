import Verif.Props.HexNum
import Mathlib.Data.Finset.Max

/-!
# C86 to C88: temperatures, ports and stability of the numeric plate heat exchanger
-/

set_option linter.unusedSectionVars false
set_option linter.unnecessarySeqFocus false

namespace Verif.HexNum

open Finset
open Verif.Cells (Mat lamMean)

variable {K : Type*} [Field K] [LinearOrder K] [IsStrictOrderedRing K]
variable (mat : Mat K) (g : Geo K) (s : Inp K)

/-- Physical values: positive dimensions, heat capacities and conductivities, and no negative conductance of a
port. -/
structure Physical : Prop where
  n : 1 ≤ g.n
  chSup : 0 < g.chSup
  chDmd : 0 < g.chDmd
  vCell : 0 < g.vCell
  aChannel : 0 ≤ g.aChannel
  gs : 0 < g.gs
  aPlate : 0 < g.aPlate
  sPlate : 0 ≤ g.sPlate
  lamWll : 0 < g.lamWll
  mcpWll : 0 < g.mcpWll
  uaWll : 0 ≤ g.uaWll
  rho : ∀ k < g.n, ∀ j < 3, 0 < mat.rho (T s k j)
  cp : ∀ k < g.n, ∀ j < 3, 0 < mat.cp (T s k j)
  lam : ∀ k < g.n, ∀ j < 3, 0 < mat.lam (T s k j)
  alpha : ∀ k < g.n, ∀ c < 2, 0 < s.alpha k c
  port : ∀ i < 4, 0 ≤ uaPort mat g s i

theorem Physical.mcp_pos {mat : Mat K} {g : Geo K} {s : Inp K} (h : Physical mat g s) {k j : ℕ} (hk : k < g.n)
    (hj : j < 3) : 0 < mcp mat g s k j := by
  unfold mcp
  split_ifs
  · exact h.mcpWll
  · exact mul_pos h.vCell (mul_pos (h.rho k hk j hj) (h.cp k hk j hj))

theorem Physical.ua1_nonneg {mat : Mat K} {g : Geo K} {s : Inp K} (h : Physical mat g s) {k j : ℕ} (hk : k ≤ g.n)
    (hj : j < 3) : 0 ≤ ua1 mat g s k j := by
  unfold ua1
  split_ifs with h1 h2
  · exact le_rfl
  · exact h.uaWll
  · have a := h.lam (k - 1) (by omega) j hj
    have b := h.lam k (by omega) j hj
    have := h.aChannel
    have := h.gs
    unfold lamMean
    positivity

theorem Physical.ua2_pos {mat : Mat K} {g : Geo K} {s : Inp K} (h : Physical mat g s) {k c : ℕ} (hk : k < g.n)
    (hc : c < 2) : 0 < ua2 g s k (c + 1) := by
  unfold ua2
  rw [if_pos (by omega)]
  have := h.alpha k hk c hc
  have := h.aPlate
  have := h.sPlate
  have := h.lamWll
  simp only [Nat.add_sub_cancel]
  positivity

theorem dmTop_nonneg (c k : ℕ) : 0 ≤ dmTop s c k := by
  unfold dmTop; split_ifs with h1 h2 <;> simp_all

theorem dmBot_nonneg (c k : ℕ) : 0 ≤ dmBot g s c k := by
  unfold dmBot; split_ifs with h1 h2 <;> simp_all [le_of_lt]

theorem dmPort_nonneg (i : ℕ) : 0 ≤ dmPort s i := by
  unfold dmPort; split_ifs <;> simp_all [le_of_lt]

/-- The statement for maxima (`σ = 1`) and minima (`σ = -1`). -/
theorem steady_bound (h : Physical mat g s) (hmono : StrictMono fun t => mat.cp t * t) (hst : Steady mat g s)
    {c0 : ℕ} (hc0 : c0 < 2) (hdm : s.dm c0 ≠ 0) {σ M : K} (hσ : σ = 1 ∨ σ = -1)
    (hM : ∀ i < 4, σ * (s.port i).T ≤ M) : ∀ k < g.n, ∀ j < 3, σ * T s k j ≤ M := by
  -- the cell with the largest value
  have hne : ((range g.n) ×ˢ (range 3)).Nonempty := ⟨(0, 0), by have := h.n; simp; omega⟩
  obtain ⟨p, hp, hmax⟩ := exists_max_image _ (fun p : ℕ × ℕ => σ * T s p.1 p.2) hne
  set X := σ * T s p.1 p.2 with hX
  have hle : ∀ k < g.n, ∀ j < 3, σ * T s k j ≤ X := fun k hk j hj => hmax (k, j) (by simp [hk, hj])
  suffices hXM : X ≤ M from fun k hk j hj => (hle k hk j hj).trans hXM
  by_contra hlt
  rw [not_le] at hlt
  -- enthalpy follows temperature
  have hent : ∀ a b : K, σ * a ≤ σ * b → σ * (mat.cp a * a) ≤ σ * (mat.cp b * b) := by
    intro a b hab
    rcases hσ with e | e
    · subst e
      simpa using hmono.monotone (by simpa using hab)
    · subst e
      have : b ≤ a := by linarith
      have := hmono.monotone this
      linarith
  have hentlt : ∀ a b : K, σ * a ≤ σ * b → mat.cp a * a = mat.cp b * b → σ * a = σ * b := by
    intro a b _ e
    rw [hmono.injective e]
  -- cells at the border of the grid never count
  have top : ∀ k < g.n, ∀ j < 3, ∀ u : ℕ → K, u 0 = 0 → 0 ≤ u k → σ * T s k j = X →
      u k * (σ * (s.ext k (j + 1)) - X) ≤ 0 := by
    intro k hk j hj u u0 uk _
    rcases Nat.eq_zero_or_pos k with e | e
    · subst e; rw [u0, zero_mul]
    · have := hle (k - 1) (by omega) j hj
      unfold T at this
      rw [Nat.sub_add_cancel e] at this
      exact mul_nonpos_of_nonneg_of_nonpos uk (by linarith)
  have bot : ∀ k < g.n, ∀ j < 3, ∀ u : ℕ → K, u g.n = 0 → 0 ≤ u (k + 1) →
      u (k + 1) * (σ * (s.ext (k + 2) (j + 1)) - X) ≤ 0 := by
    intro k hk j hj u un uk
    rcases Nat.lt_or_ge (k + 1) g.n with e | e
    · have := hle (k + 1) e j hj
      unfold T at this
      exact mul_nonpos_of_nonneg_of_nonpos uk (by linarith)
    · have e : k + 1 = g.n := by omega
      rw [e, un, zero_mul]
  -- in a row with one cell at the maximum all cells are
  have fluid : ∀ k < g.n, ∀ c < 2, σ * T s k (2 * c) = X → σ * T s k 1 = X ∧
      (k ≠ 0 → 0 < s.dm c → σ * T s (k - 1) (2 * c) = X) ∧ (k + 1 ≠ g.n → s.dm c < 0 → σ * T s (k + 1) (2 * c) = X) ∧
      ∀ i < 4, portIdx g i = k * 3 + 2 * c → dmPort s i = 0 := by
    intro k hk c hc hk0
    have hb := cell_balance mat g s hc k (h.mcp_pos hk (by omega)).ne'
    rw [hst k hk (2 * c) (by omega), mul_zero] at hb
    have hdiv : 0 < divisor g c := by
      unfold divisor; split_ifs
      · exact h.chSup
      · exact h.chDmd
    have hTk : s.ext (k + 1) (2 * c + 1) = T s k (2 * c) := rfl
    -- the terms
    have t1 := top k hk (2 * c) (by omega) (fun k => ua1 mat g s k (2 * c)) (by simp [ua1])
      (h.ua1_nonneg hk.le (by omega)) hk0
    have t2 := bot k hk (2 * c) (by omega) (fun k => ua1 mat g s k (2 * c)) (by simp [ua1])
      (h.ua1_nonneg (by omega) (by omega))
    have w := h.ua2_pos hk hc
    have t3 : ua2 g s k (c + 1) * (σ * T s k 1 - X) ≤ 0 :=
      mul_nonpos_of_nonneg_of_nonpos w.le (by have := hle k hk 1 (by omega); linarith)
    have t4 : σ * ∑ i ∈ range 4, (if portIdx g i = k * 3 + 2 * c then
          uaPort mat g s i * ((s.port i).T - T s k (2 * c)) else 0) ≤ 0 := by
      rw [mul_sum]
      refine sum_nonpos fun i hi => ?_
      split_ifs
      · have a := h.port i (mem_range.1 hi)
        have b := hM i (mem_range.1 hi)
        have : σ * (uaPort mat g s i * ((s.port i).T - T s k (2 * c))) =
          uaPort mat g s i * (σ * (s.port i).T - X) := by rw [← hk0]; ring
        rw [this]
        exact mul_nonpos_of_nonneg_of_nonpos a (by linarith)
      · simp
    have hp5 : ∀ i ∈ range 4, σ * (if portIdx g i = k * 3 + 2 * c then
          dmPort s i * (mat.cp (s.port i).T * (s.port i).T
            - mat.cp (T s k (2 * c)) * T s k (2 * c)) else 0) ≤ 0 := by
      intro i hi
      split_ifs
      · have b := hM i (mem_range.1 hi)
        have e := hent (s.port i).T (T s k (2 * c)) (by rw [hk0]; linarith)
        have : σ * (dmPort s i * (mat.cp (s.port i).T * (s.port i).T - mat.cp (T s k (2 * c)) * T s k (2 * c))) =
          dmPort s i * (σ * (mat.cp (s.port i).T * (s.port i).T) - σ * (mat.cp (T s k (2 * c)) * T s k (2 * c))) := by
          ring
        rw [this]
        exact mul_nonpos_of_nonneg_of_nonpos (dmPort_nonneg s i) (by linarith)
      · simp
    have t5 := sum_nonpos hp5
    rw [← mul_sum] at t5
    have t6 : dmTop s c k * (σ * (mat.cp (s.ext k (2 * c + 1)) * s.ext k (2 * c + 1))
        - σ * (mat.cp (T s k (2 * c)) * T s k (2 * c))) ≤ 0 := by
      rcases Nat.eq_zero_or_pos k with e | e
      · subst e; simp [dmTop]
      · have a := hle (k - 1) (by omega) (2 * c) (by omega)
        unfold T at a
        rw [Nat.sub_add_cancel e] at a
        have := hent (s.ext k (2 * c + 1)) (T s k (2 * c)) (by rw [hk0]; exact a)
        exact mul_nonpos_of_nonneg_of_nonpos (dmTop_nonneg s c k) (by linarith)
    have t7 : dmBot g s c k * (σ * (mat.cp (s.ext (k + 2) (2 * c + 1)) * s.ext (k + 2) (2 * c + 1))
        - σ * (mat.cp (T s k (2 * c)) * T s k (2 * c))) ≤ 0 := by
      by_cases e : k + 1 = g.n
      · simp [dmBot, e]
      · have a := hle (k + 1) (by omega) (2 * c) (by omega)
        unfold T at a
        have := hent (s.ext (k + 2) (2 * c + 1)) (T s k (2 * c)) (by rw [hk0]; exact a)
        exact mul_nonpos_of_nonneg_of_nonpos (dmBot_nonneg g s c k) (by linarith)
    -- their sum is zero
    generalize hS4 : ∑ i ∈ range 4, (if portIdx g i = k * 3 + 2 * c then
          uaPort mat g s i * ((s.port i).T - T s k (2 * c)) else 0) = S4 at hb t4
    generalize hS5 : ∑ i ∈ range 4, (if portIdx g i = k * 3 + 2 * c then
          dmPort s i * (mat.cp (s.port i).T * (s.port i).T
            - mat.cp (T s k (2 * c)) * T s k (2 * c)) else 0) = S5 at hb t5
    rw [hTk] at hb
    have sum0 : ua1 mat g s k (2 * c) * (σ * (s.ext k (2 * c + 1)) - X)
        + ua1 mat g s (k + 1) (2 * c) * (σ * (s.ext (k + 2) (2 * c + 1)) - X)
        + ua2 g s k (c + 1) * (σ * T s k 1 - X) + σ * S4
        + (dmTop s c k * (σ * (mat.cp (s.ext k (2 * c + 1)) * s.ext k (2 * c + 1))
            - σ * (mat.cp (T s k (2 * c)) * T s k (2 * c)))
          + dmBot g s c k * (σ * (mat.cp (s.ext (k + 2) (2 * c + 1)) * s.ext (k + 2) (2 * c + 1))
            - σ * (mat.cp (T s k (2 * c)) * T s k (2 * c))) + σ * S5) / divisor g c = 0 := by
      rw [← hk0]
      linear_combination (-σ) * hb
    have t8 : (dmTop s c k * (σ * (mat.cp (s.ext k (2 * c + 1)) * s.ext k (2 * c + 1))
            - σ * (mat.cp (T s k (2 * c)) * T s k (2 * c)))
          + dmBot g s c k * (σ * (mat.cp (s.ext (k + 2) (2 * c + 1)) * s.ext (k + 2) (2 * c + 1))
            - σ * (mat.cp (T s k (2 * c)) * T s k (2 * c))) + σ * S5) / divisor g c ≤ 0 :=
      div_nonpos_of_nonpos_of_nonneg (by linarith) hdiv.le
    have z8 : (dmTop s c k * (σ * (mat.cp (s.ext k (2 * c + 1)) * s.ext k (2 * c + 1))
            - σ * (mat.cp (T s k (2 * c)) * T s k (2 * c)))
          + dmBot g s c k * (σ * (mat.cp (s.ext (k + 2) (2 * c + 1)) * s.ext (k + 2) (2 * c + 1))
            - σ * (mat.cp (T s k (2 * c)) * T s k (2 * c))) + σ * S5) = 0 := by
      have : (dmTop s c k * (σ * (mat.cp (s.ext k (2 * c + 1)) * s.ext k (2 * c + 1))
            - σ * (mat.cp (T s k (2 * c)) * T s k (2 * c)))
          + dmBot g s c k * (σ * (mat.cp (s.ext (k + 2) (2 * c + 1)) * s.ext (k + 2) (2 * c + 1))
            - σ * (mat.cp (T s k (2 * c)) * T s k (2 * c))) + σ * S5) / divisor g c = 0 := by linarith
      rcases div_eq_zero_iff.1 this with e | e
      · exact e
      · exact absurd e hdiv.ne'
    have hσ0 : σ ≠ 0 := by rcases hσ with e | e <;> simp [e]
    refine ⟨?_, ?_, ?_, ?_⟩
    · have : ua2 g s k (c + 1) * (σ * T s k 1 - X) = 0 := by linarith
      rcases mul_eq_zero.1 this with e | e
      · exact absurd e w.ne'
      · linarith
    · intro hk' hd
      have : dmTop s c k * (σ * (mat.cp (s.ext k (2 * c + 1)) * s.ext k (2 * c + 1))
        - σ * (mat.cp (T s k (2 * c)) * T s k (2 * c))) = 0 := by linarith
      have ht : dmTop s c k = s.dm c := by simp [dmTop, hk', hd.le]
      rw [ht, ← mul_sub, mul_eq_zero, mul_eq_zero] at this
      rcases this with e | e | e
      · exact absurd e hd.ne'
      · exact absurd e hσ0
      · unfold T
        rw [Nat.sub_add_cancel (by omega), hmono.injective (sub_eq_zero.1 e : (fun t => mat.cp t * t) _ =
          (fun t => mat.cp t * t) _), hk0]
    · intro hk' hd
      have : dmBot g s c k * (σ * (mat.cp (s.ext (k + 2) (2 * c + 1)) * s.ext (k + 2) (2 * c + 1))
        - σ * (mat.cp (T s k (2 * c)) * T s k (2 * c))) = 0 := by linarith
      have ht : dmBot g s c k = -s.dm c := by simp [dmBot, hk', not_le.2 hd]
      rw [ht, ← mul_sub, mul_eq_zero, mul_eq_zero] at this
      rcases this with e | e | e
      · exact absurd (neg_eq_zero.1 e) hd.ne
      · exact absurd e hσ0
      · unfold T
        rw [hmono.injective (sub_eq_zero.1 e : (fun t => mat.cp t * t) _ =
          (fun t => mat.cp t * t) _), hk0]
    · intro i hi hpi
      have z5 : σ * S5 = 0 := by linarith
      rw [← hS5, mul_sum] at z5
      have := (sum_eq_zero_iff_of_nonpos hp5).1 z5 i (mem_range.2 hi)
      rw [if_pos hpi, mul_eq_zero, mul_eq_zero] at this
      rcases this with e | e | e
      · exact absurd e hσ0
      · exact e
      · have := hmono.injective (sub_eq_zero.1 e : (fun t => mat.cp t * t) _ = (fun t => mat.cp t * t) _)
        have b := hM i hi
        rw [this, hk0] at b
        exact absurd b (not_le.2 hlt)
  have wall : ∀ k < g.n, σ * T s k 1 = X → ∀ c < 2, σ * T s k (2 * c) = X := by
    intro k hk hk0 c hc
    have hm : mcp mat g s k 1 = g.mcpWll := by simp [mcp]
    have hd := hst k hk 1 (by omega)
    have np : ∑ i ∈ range 4, (if portIdx g i = k * 3 + 1 then
        uaPort mat g s i * ((s.port i).T - T s k 1) / g.mcpWll else 0) = 0 :=
      sum_eq_zero fun i _ => if_neg (no_port_wall g i k h.n)
    simp only [dT, dTcond, dTadv, hm, if_true, np, add_zero] at hd
    rcases div_eq_zero_iff.1 hd with hd | hd
    swap
    · exact absurd hd h.mcpWll.ne'
    have t1 := top k hk 1 (by omega) (fun k => ua1 mat g s k 1) (by simp [ua1]) (h.ua1_nonneg hk.le (by omega)) hk0
    have t2 := bot k hk 1 (by omega) (fun k => ua1 mat g s k 1) (by simp [ua1])
      (h.ua1_nonneg (by omega) (by omega))
    have w0 := h.ua2_pos hk (c := 0) (by omega)
    have w1 := h.ua2_pos hk (c := 1) (by omega)
    have l0 := hle k hk 0 (by omega)
    have l2 := hle k hk 2 (by omega)
    have t3 : ua2 g s k 1 * (σ * T s k 0 - X) ≤ 0 := mul_nonpos_of_nonneg_of_nonpos w0.le (by linarith)
    have t4 : ua2 g s k 2 * (σ * T s k 2 - X) ≤ 0 := mul_nonpos_of_nonneg_of_nonpos w1.le (by linarith)
    have sum0 : ua1 mat g s k 1 * (σ * s.ext k 2 - X) + ua1 mat g s (k + 1) 1 * (σ * s.ext (k + 2) 2 - X)
        + ua2 g s k 1 * (σ * T s k 0 - X) + ua2 g s k 2 * (σ * T s k 2 - X) = 0 := by
      rw [← hk0]
      simp only [T]
      norm_num at hd ⊢
      linear_combination σ * hd
    norm_num at t1 t2 w0 w1
    interval_cases c
    · have : ua2 g s k 1 * (σ * T s k 0 - X) = 0 := by linarith
      rcases mul_eq_zero.1 this with e | e
      · exact absurd e w0.ne'
      · simpa using sub_eq_zero.1 e
    · have : ua2 g s k 2 * (σ * T s k 2 - X) = 0 := by linarith
      rcases mul_eq_zero.1 this with e | e
      · exact absurd e w1.ne'
      · simpa using sub_eq_zero.1 e
  -- reach the side with flow
  obtain ⟨k0, j0⟩ := p
  simp only [mem_product, mem_range] at hp
  have start : σ * T s k0 (2 * c0) = X := by
    have hj := hp.2
    interval_cases j0
    · exact wall k0 hp.1 (fluid k0 hp.1 0 (by omega) hX.symm).1 c0 hc0
    · exact wall k0 hp.1 hX.symm c0 hc0
    · exact wall k0 hp.1 (fluid k0 hp.1 1 (by omega) hX.symm).1 c0 hc0
  -- and its inlet
  rcases lt_or_gt_of_ne hdm with hd | hd
  · have all : ∀ m k, k + m + 1 = g.n → σ * T s k (2 * c0) = X → σ * T s (g.n - 1) (2 * c0) = X := by
      intro m
      induction m with
      | zero => intro k hk e; rw [show g.n - 1 = k by omega]; exact e
      | succ m ih =>
        intro k hk e
        exact ih (k + 1) (by omega) ((fluid k (by omega) c0 hc0 e).2.2.1 (by omega) hd)
    have e := all (g.n - 1 - k0) k0 (by omega) start
    have z := (fluid (g.n - 1) (by have := h.n; omega) c0 hc0 e).2.2.2 (2 * c0 + 1) (by omega) (by
      have := h.n
      interval_cases c0 <;> simp [portIdx] <;> omega)
    have e3 : ¬ (2 * c0 + 1) % 2 = 0 := by omega
    have e4 : (2 * c0 + 1) / 2 = c0 := by omega
    simp only [dmPort, e3, e4, if_false, not_le.2 hd] at z
    exact hdm (neg_eq_zero.1 z)
  · have all : ∀ k, k < g.n → σ * T s k (2 * c0) = X → σ * T s 0 (2 * c0) = X := by
      intro k
      induction k with
      | zero => intro _ e; exact e
      | succ k ih =>
        intro hk e
        exact ih (by omega) ((fluid (k + 1) hk c0 hc0 e).2.1 (by omega) hd)
    have e := all k0 hp.1 start
    have z := (fluid 0 (by have := h.n; omega) c0 hc0 e).2.2.2 (2 * c0) (by omega) (by
      interval_cases c0 <;> simp [portIdx])
    have e3 : (2 * c0) % 2 = 0 := by omega
    have e4 : (2 * c0) / 2 = c0 := by omega
    simp only [dmPort, e3, e4, if_true, hd.le] at z
    exact hdm z

/-- **C86**: in a steady state with flow on at least one side every temperature in the exchanger lies between the
lowest and the highest temperature at its ports. -/
theorem C86_steady_between_ports (h : Physical mat g s) (hmono : StrictMono fun t => mat.cp t * t)
    (hst : Steady mat g s) {c0 : ℕ} (hc0 : c0 < 2) (hdm : s.dm c0 ≠ 0) {lo hi : K}
    (hlo : ∀ i < 4, lo ≤ (s.port i).T) (hhi : ∀ i < 4, (s.port i).T ≤ hi) :
    ∀ k < g.n, ∀ j < 3, lo ≤ T s k j ∧ T s k j ≤ hi := by
  intro k hk j hj
  have a := steady_bound mat g s h hmono hst hc0 hdm (σ := 1) (M := hi) (Or.inl rfl)
    (by simpa using hhi) k hk j hj
  have b := steady_bound mat g s h hmono hst hc0 hdm (σ := -1) (M := -lo) (Or.inr rfl)
    (by simpa using hlo) k hk j hj
  exact ⟨by linarith, by linarith⟩

example : Physical exMat exGeo exInp ∧ Steady exMat exGeo exInp ∧ exInp.dm 0 ≠ 0 ∧
    (∀ i < 4, 0 ≤ (exInp.port i).T) ∧ (∀ i < 4, (exInp.port i).T ≤ 10) := by
  refine ⟨⟨?_, ?_, ?_, ?_, ?_, ?_, ?_, ?_, ?_, ?_, ?_, ?_, ?_, ?_, ?_, ?_⟩, ex_steady, ?_, ?_, ?_⟩ <;> decide +kernel

example : StrictMono fun t : ℚ => exMat.cp t * t := fun a b h => by simpa [exMat] using h

end Verif.HexNum
