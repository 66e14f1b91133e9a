import Verif.Props.Cooling
import Mathlib.Analysis.SpecialFunctions.Exp
import Mathlib.Analysis.Complex.Exponential
import Mathlib.Tactic.Positivity
import Mathlib.Tactic.FieldSimp

/-!
# C161: refining the grid of a pipe leads to the exact temperatures

The exact temperature of water with heat capacity flow `W`, cooling along a pipe of total conductance `U` to the
ambient, is `Tamb + (Tin - Tamb) * exp (- U / W)` at the outlet.  The differentials are those of `Model/Cells`
(`precomp_funs.py:1094-1240`); nothing is added to the model here.
-/

namespace Verif.Cells

open Real

/-! ## The difference equation of a pipe at rest -/

/-- Defect of a sequence in the balance of cell `k` of `n`, numbered from 1; index 0 is the inlet. -/
def defect (n : ℕ) (W Γ w : ℝ) (a : ℕ → ℝ) (k : ℕ) : ℝ :=
  (W + Γ) * (a (k - 1) - a k) + (if k = n then 0 else Γ * (a (k + 1) - a k)) - w * a k

/-- Comparison: a sequence with a nonpositive defect which is not negative at the inlet is not negative. -/
theorem compare {n : ℕ} {W Γ w : ℝ} (hW : 0 < W) (hΓ : 0 ≤ Γ) (hw : 0 ≤ w) {f : ℕ → ℝ} (h0 : 0 ≤ f 0)
    (hf : ∀ k, 1 ≤ k → k ≤ n → defect n W Γ w f k ≤ 0) : ∀ k ≤ n, 0 ≤ f k := by
  obtain ⟨k, hk, m1, m2⟩ := exists_first_min f (show 0 < n + 1 by omega)
  intro j hj
  refine le_trans ?_ (m1 j (by omega))
  by_contra hneg
  push Not at hneg
  have hk1 : 1 ≤ k := by
    rcases Nat.eq_zero_or_pos k with rfl | h
    · linarith
    · exact h
  have h1 := hf k hk1 (by omega)
  have h2 := m2 (k - 1) (by omega)
  unfold defect at h1
  have h3 : 0 < (W + Γ) * (f (k - 1) - f k) := mul_pos (by linarith) (by linarith)
  have h4 : 0 ≤ -(w * f k) := by
    have := mul_nonneg hw (neg_nonneg.2 hneg.le)
    linarith
  split_ifs at h1 with h
  · linarith
  · have h5 : 0 ≤ Γ * (f (k + 1) - f k) := mul_nonneg hΓ (by linarith [m1 (k + 1) (by omega)])
    linarith

theorem defect_sub (n : ℕ) (W Γ w : ℝ) (a b : ℕ → ℝ) (k : ℕ) :
    defect n W Γ w (fun k => a k - b k) k = defect n W Γ w a k - defect n W Γ w b k := by
  unfold defect
  split_ifs <;> ring

/-- The solution lies between the solution without conduction and the same plus a bound that does not depend on the
number of cells (if `Γ` is proportional and `w` inversely proportional to it). -/
theorem near_power {n : ℕ} {W Γ w : ℝ} (hW : 0 < W) (hΓ : 0 ≤ Γ) (hw : 0 ≤ w) {a : ℕ → ℝ} (h0 : 0 ≤ a 0)
    (ha : ∀ k, 1 ≤ k → k ≤ n → defect n W Γ w a k = 0) :
    ∀ k ≤ n, a 0 * (W / (W + w)) ^ k ≤ a k ∧ a k ≤ a 0 * (W / (W + w)) ^ k + 2 * (Γ * w / W ^ 2) * a 0 := by
  have hWw : 0 < W + w := by linarith
  have hWΓ : 0 < W + Γ := by linarith
  set r := W / (W + w) with hr
  have r0 : 0 < r := div_pos hW hWw
  have r1 : r ≤ 1 := (div_le_one hWw).2 (by linarith)
  have hrw : r * (W + w) = W := div_mul_cancel₀ _ hWw.ne'
  -- the defect of the powers
  have hpow : ∀ k, 1 ≤ k → k ≤ n → 0 ≤ defect n W Γ w (fun k => a 0 * r ^ k) k ∧
      defect n W Γ w (fun k => a 0 * r ^ k) k ≤ if k = n then Γ * (w / W) * a 0 else w * (Γ * w / W ^ 2 * a 0) := by
    intro k hk1 hkn
    obtain ⟨j, rfl⟩ : ∃ j, k = j + 1 := ⟨k - 1, by omega⟩
    have hp0 : 0 ≤ a 0 * r ^ j := mul_nonneg h0 (pow_nonneg r0.le _)
    have hp1 : a 0 * r ^ j ≤ a 0 := mul_le_of_le_one_right h0 (pow_le_one₀ r0.le r1)
    have hwr : W * (1 - r) = w * r := by linarith
    have h1r : 1 - r = w * r / W := by field_simp; linarith
    unfold defect
    simp only [Nat.add_sub_cancel]
    split_ifs with h
    · have e : (W + Γ) * (a 0 * r ^ j - a 0 * r ^ (j + 1)) + 0 - w * (a 0 * r ^ (j + 1)) =
          Γ * (w / W) * (a 0 * r ^ j * r) := by
        have : (W + Γ) * (a 0 * r ^ j - a 0 * r ^ (j + 1)) + 0 - w * (a 0 * r ^ (j + 1)) =
          (W * (1 - r) - w * r) * (a 0 * r ^ j) + Γ * (1 - r) * (a 0 * r ^ j) := by ring
        rw [this, hwr, h1r]
        ring
      rw [e]
      have hq : 0 ≤ Γ * (w / W) := mul_nonneg hΓ (div_nonneg hw hW.le)
      have hp2 : a 0 * r ^ j * r ≤ a 0 := (mul_le_of_le_one_right hp0 r1).trans hp1
      exact ⟨mul_nonneg hq (mul_nonneg hp0 r0.le), mul_le_mul_of_nonneg_left hp2 hq⟩
    · have e : (W + Γ) * (a 0 * r ^ j - a 0 * r ^ (j + 1)) + Γ * (a 0 * r ^ (j + 1 + 1) - a 0 * r ^ (j + 1)) -
          w * (a 0 * r ^ (j + 1)) = w * (Γ * w / W ^ 2 * (a 0 * r ^ j * r ^ 2)) := by
        have : (W + Γ) * (a 0 * r ^ j - a 0 * r ^ (j + 1)) + Γ * (a 0 * r ^ (j + 1 + 1) - a 0 * r ^ (j + 1)) -
          w * (a 0 * r ^ (j + 1)) =
          (W * (1 - r) - w * r) * (a 0 * r ^ j) + Γ * (1 - r) ^ 2 * (a 0 * r ^ j) := by ring
        rw [this, hwr, h1r]
        field_simp
        ring
      rw [e]
      have hq : 0 ≤ Γ * w / W ^ 2 := by positivity
      have hr2 : r ^ 2 ≤ 1 := pow_le_one₀ r0.le r1
      have hp2 : a 0 * r ^ j * r ^ 2 ≤ a 0 := (mul_le_of_le_one_right hp0 hr2).trans hp1
      exact ⟨mul_nonneg hw (mul_nonneg hq (mul_nonneg hp0 (sq_nonneg r))),
        mul_le_mul_of_nonneg_left (mul_le_mul_of_nonneg_left hp2 hq) hw⟩
  have hlow : ∀ k ≤ n, 0 ≤ a k - a 0 * r ^ k := by
    apply compare hW hΓ hw (f := fun k => a k - a 0 * r ^ k) (by simp)
    intro k h1 h2
    rw [defect_sub, ha k h1 h2]
    linarith [(hpow k h1 h2).1]
  -- the barrier
  set B := Γ * w / W ^ 2 * a 0 with hB
  have B0 : 0 ≤ B := by positivity
  set ρ := Γ / (W + Γ) with hρ
  have ρ0 : 0 ≤ ρ := div_nonneg hΓ hWΓ.le
  have ρ1 : ρ ≤ 1 := (div_le_one hWΓ).2 (by linarith)
  have hρw : ρ * (W + Γ) = Γ := div_mul_cancel₀ _ hWΓ.ne'
  have hbar : ∀ k, 1 ≤ k → k ≤ n → defect n W Γ w (fun k => B + B * ρ ^ (n - k)) k ≤
      -(if k = n then Γ * (w / W) * a 0 else w * (Γ * w / W ^ 2 * a 0)) := by
    intro k h1 h2
    unfold defect
    dsimp only
    split_ifs with h
    · subst h
      rw [show k - (k - 1) = 1 by omega, Nat.sub_self, pow_zero, pow_one]
      have e : (W + Γ) * (B + B * ρ - (B + B * 1)) + 0 - w * (B + B * 1) = -(W * B) - 2 * w * B := by
        have : (W + Γ) * (B + B * ρ - (B + B * 1)) + 0 - w * (B + B * 1) =
          B * (ρ * (W + Γ)) - B * (W + Γ) - 2 * w * B := by ring
        rw [this, hρw]; ring
      rw [e]
      have hWB : W * B = Γ * (w / W) * a 0 := by rw [hB]; field_simp
      have := mul_nonneg hw B0
      linarith
    · obtain ⟨m, hm⟩ : ∃ m, n - k = m + 1 := ⟨n - k - 1, by omega⟩
      rw [show n - (k - 1) = m + 2 by omega, hm, show n - (k + 1) = m by omega]
      have hP : 0 ≤ ρ ^ (m + 1) := pow_nonneg ρ0 _
      have e : (W + Γ) * (B + B * ρ ^ (m + 2) - (B + B * ρ ^ (m + 1))) + Γ * (B + B * ρ ^ m - (B + B * ρ ^ (m + 1))) -
          w * (B + B * ρ ^ (m + 1)) = -(w * B) - w * (B * ρ ^ (m + 1)) := by
        have : (W + Γ) * (B + B * ρ ^ (m + 2) - (B + B * ρ ^ (m + 1))) + Γ * (B + B * ρ ^ m - (B + B * ρ ^ (m + 1))) -
          w * (B + B * ρ ^ (m + 1)) =
          (ρ * (W + Γ) - Γ) * (B * ρ ^ m * (ρ - 1)) - w * B - w * (B * ρ ^ (m + 1)) := by ring
        rw [this, hρw]; ring
      rw [e]
      have := mul_nonneg hw (mul_nonneg B0 hP)
      linarith
  have hup : ∀ k ≤ n, 0 ≤ (B + B * ρ ^ (n - k)) - (a k - a 0 * r ^ k) := by
    apply compare hW hΓ hw (f := fun k => (B + B * ρ ^ (n - k)) - (a k - a 0 * r ^ k))
    · have := mul_nonneg B0 (pow_nonneg ρ0 (n - 0))
      simp only [pow_zero, mul_one, sub_self, sub_zero] at this ⊢
      linarith
    · intro k h1 h2
      rw [defect_sub n W Γ w (fun k => B + B * ρ ^ (n - k)) (fun k => a k - a 0 * r ^ k) k,
        defect_sub n W Γ w a (fun k => a 0 * r ^ k) k, ha k h1 h2]
      linarith [hbar k h1 h2, (hpow k h1 h2).2]
  intro k hk
  refine ⟨by linarith [hlow k hk], ?_⟩
  have h1 := hup k hk
  have h2 : B * ρ ^ (n - k) ≤ B := mul_le_of_le_one_right B0 (pow_le_one₀ ρ0 ρ1)
  have h3 : 2 * (Γ * w / W ^ 2) * a 0 = 2 * B := by rw [hB]; ring
  linarith

/-- The powers are close to the exponential function. -/
theorem power_exp {x : ℝ} (hx : 0 ≤ x) {n : ℕ} (hn : 0 < n) {k : ℕ} (hk : k ≤ n) :
    exp (-(x * k / n)) ≤ (1 / (1 + x / n)) ^ k ∧ (1 / (1 + x / n)) ^ k ≤ exp (-(x * k / n)) + x ^ 2 / n := by
  have hn' : (0 : ℝ) < n := by exact_mod_cast hn
  set y := x / n with hy
  have y0 : 0 ≤ y := div_nonneg hx hn'.le
  have e : exp (-(x * k / n)) = exp (-y) ^ k := by
    rw [← exp_nat_mul]; congr 1; rw [hy]; ring
  rw [e]
  have h1 : exp (-y) ≤ 1 / (1 + y) := by
    rw [exp_neg, one_div]
    exact inv_anti₀ (by linarith) (by linarith [add_one_le_exp y])
  have h2 : 1 / (1 + y) - exp (-y) ≤ y ^ 2 := by
    have h3 := add_one_le_exp (-y)
    have h4 : 1 / (1 + y) ≤ 1 - y + y ^ 2 := by
      rw [div_le_iff₀ (by linarith)]
      nlinarith [pow_nonneg y0 3]
    linarith
  have a1 : 1 / (1 + y) ≤ 1 := (div_le_one (by linarith)).2 (by linarith)
  have hb0 : 0 < exp (-y) := exp_pos _
  refine ⟨pow_le_pow_left₀ hb0.le h1 k, ?_⟩
  have key : ∀ k : ℕ, (1 / (1 + y)) ^ k ≤ exp (-y) ^ k + k * y ^ 2 := by
    intro k
    induction k with
    | zero => simp
    | succ k ih =>
      have hb1 : exp (-y) ^ k ≤ 1 := pow_le_one₀ hb0.le (h1.trans a1)
      have hp : 0 ≤ exp (-y) ^ k := pow_nonneg hb0.le _
      have h5 : (1 / (1 + y)) ^ k * (1 / (1 + y)) ≤ (exp (-y) ^ k + k * y ^ 2) * (1 / (1 + y)) :=
        mul_le_mul_of_nonneg_right ih (by positivity)
      have h6 : exp (-y) ^ k * (1 / (1 + y)) ≤ exp (-y) ^ k * exp (-y) + y ^ 2 := by
        have := mul_le_mul_of_nonneg_left h2 hp
        have := mul_le_of_le_one_left (sq_nonneg y) hb1
        nlinarith
      have h7 : (k * y ^ 2) * (1 / (1 + y)) ≤ k * y ^ 2 := mul_le_of_le_one_right (by positivity) a1
      rw [pow_succ, pow_succ]
      push_cast
      nlinarith
  have h8 : (k : ℝ) * y ^ 2 ≤ x ^ 2 / n := by
    have : (k : ℝ) ≤ n := by exact_mod_cast hk
    have h9 : (k : ℝ) * y ^ 2 ≤ n * y ^ 2 := mul_le_mul_of_nonneg_right this (sq_nonneg y)
    have : (n : ℝ) * y ^ 2 = x ^ 2 / n := by rw [hy]; field_simp
    linarith
  linarith [key k]

/-! ## The pipe -/

variable {g : Geo ℝ} {s : Inp ℝ}

/-- Specification: a pipe of length `L` with the conductance `U` to the ambient and the conductance `Gw` of its wall from
end to end, divided into cells; the inlet is connected to a pipe of the same kind and grid, the outlet to water of the
temperature that leaves the pipe. -/
structure Divided (g : Geo ℝ) (s : Inp ℝ) (pin pout : Port ℝ) (L U Gw : ℝ) : Prop where
  gs : g.gs = L / g.n
  wall : g.uaTbWll = Gw * g.n
  loss : ∀ k < g.n, s.uaAmb k = U / g.n
  lids : s.lidTop = 0 ∧ s.lidBot = 0
  buoy : ∀ k, s.buoy k = 1
  inCell : pin.idx = 0
  inlet : pin.area = g.aCell ∧ pin.gsp = g.gs ∧ pin.uaWll = g.uaTbWll
  outCell : pout.idx = g.n - 1
  outlet : pout.T = s.T (g.n - 1)

/-- **C161.** Water of constant properties flows with heat capacity flow `W = io * c` through a pipe of any number of
cells, until nothing changes any more.  The temperature behind every cell is not below the exact one, and above it by at
most `(U/W)² / n` of the temperature difference at the inlet, plus what conduction along the pipe adds (`G` is the
conductance of water and wall from end to end). -/
theorem C161_near_exact {c r l io L U Gw : ℝ} {pin pout : Port ℝ}
    (hph : Physical (constMat c r l) g s [pin, pout]) (hd : Divided g s pin pout L U Gw) (hl : 0 < l) (hL : 0 < L)
    (hU : 0 ≤ U) (hGw : 0 ≤ Gw) (hA : 0 ≤ g.aCell) (hc : 0 < c) (hio : 0 < io)
    (hst : Steady (constMat c r l) g s io pin pout) (hin : s.Tamb ≤ pin.T) :
    ∀ k < g.n, s.Tamb + (pin.T - s.Tamb) * exp (-(U / (io * c) * (k + 1 : ℕ) / g.n)) ≤ s.T k ∧
      s.T k ≤ s.Tamb + (pin.T - s.Tamb) * (exp (-(U / (io * c) * (k + 1 : ℕ) / g.n)) + (U / (io * c)) ^ 2 / g.n +
        2 * ((l * g.aCell / L + Gw) * U / (io * c) ^ 2)) := by
  intro k hk
  have hn : 0 < g.n := by omega
  have hn' : (0 : ℝ) < g.n := by exact_mod_cast hn
  set W := io * c with hWdef
  have hW : 0 < W := mul_pos hio hc
  set G := l * g.aCell / L + Gw with hG
  have hG0 : 0 ≤ G := by positivity
  set θ := pin.T - s.Tamb with hθ
  have hθ0 : 0 ≤ θ := by linarith
  -- conductances
  have hgs : g.gs ≠ 0 := by rw [hd.gs]; positivity
  have hcell : g.aCell / g.gs * (1 * lamMean l l) + g.uaTbWll = G * g.n := by
    have : lamMean l l = l := by unfold lamMean; field_simp; norm_num
    rw [this, hd.gs, hd.wall, hG]
    field_simp
  have hport : uaPort (constMat c r l) g s pin = G * g.n := by
    unfold uaPort constMat
    dsimp only
    rw [hd.inlet.1, hd.inlet.2.1, hd.inlet.2.2, hd.wall, hd.gs, hG]
    field_simp
    ring
  -- the sequence
  let a : ℕ → ℝ := fun j => if j = 0 then θ else s.T (j - 1) - s.Tamb
  have ha0 : a 0 = θ := by simp [a]
  have hsol : ∀ j, 1 ≤ j → j ≤ g.n → defect g.n W (G * g.n) (U / g.n) a j = 0 := by
    intro j h1 h2
    obtain ⟨i, rfl⟩ : ∃ i, j = i + 1 := ⟨j - 1, by omega⟩
    obtain ⟨u, v, -, -, e, eu, ev⟩ := steady_balance hph hd.inCell hd.outCell hd.lids hio.le hst (k := i) (by omega)
    have hu : u = G * g.n := by
      rw [eu]
      split_ifs with h
      · exact hport
      · unfold uaTb constMat
        rw [if_neg (by omega), hd.buoy]
        exact hcell
    have hv : v * (behind g s pout.T i - s.T i) = if i + 1 = g.n then 0 else G * g.n * (s.T (i + 1) - s.T i) := by
      unfold behind
      split_ifs with h
      · rw [hd.outlet, show g.n - 1 = i by omega, sub_self, mul_zero]
      · rw [ev, if_neg h]
        unfold uaTb constMat
        rw [if_neg (by omega), hd.buoy]
        rw [show lamMean ((fun _ => l) (s.T (i + 1 - 1))) ((fun _ => l) (s.T (i + 1))) = lamMean l l from rfl, hcell]
    have hb : before s pin.T i - s.Tamb = a i := by
      unfold before
      simp only [a]
      split_ifs <;> rfl
    rw [hu, hv, hd.loss i (by omega)] at e
    have hbT : before s pin.T i = a i + s.Tamb := by linarith
    rw [hbT] at e
    simp only [enthalpy, constMat] at e
    unfold defect
    have hai : a (i + 1) = s.T i - s.Tamb := by simp [a]
    have hai2 : a (i + 1 + 1) = s.T (i + 1) - s.Tamb := by simp [a]
    rw [Nat.add_sub_cancel, hai, hai2, hWdef]
    split_ifs at e ⊢ with h <;> linear_combination e
  have h1 := near_power hW (mul_nonneg hG0 hn'.le) (div_nonneg hU hn'.le) (by rw [ha0]; exact hθ0) hsol (k + 1) (by omega)
  have hak : a (k + 1) = s.T k - s.Tamb := by simp [a]
  rw [ha0, hak] at h1
  have hr : W / (W + U / g.n) = 1 / (1 + U / W / g.n) := by field_simp
  have hg : G * g.n * (U / g.n) / W ^ 2 = G * U / W ^ 2 := by field_simp
  rw [hr, hg] at h1
  obtain ⟨p1, p2⟩ := power_exp (div_nonneg hU hW.le) hn (show k + 1 ≤ g.n by omega)
  have q1 := mul_le_mul_of_nonneg_left p1 hθ0
  have q2 := mul_le_mul_of_nonneg_left p2 hθ0
  constructor
  · linarith [h1.1]
  · have := h1.2
    nlinarith

/-- **C161, refining.** For every pipe and every tolerance there is a number of cells from which on the outlet
temperature differs from the exact one by no more than this tolerance and what conduction along the pipe adds; the
number depends on the ratio of loss to flow only. -/
theorem C161_refining {c io U ε : ℝ} (hε : 0 < ε) :
    ∃ N : ℕ, ∀ (g : Geo ℝ) (s : Inp ℝ) (r l L Gw : ℝ) (pin pout : Port ℝ), N ≤ g.n → 0 < g.n →
      Physical (constMat c r l) g s [pin, pout] → Divided g s pin pout L U Gw → 0 < l → 0 < L → 0 ≤ U → 0 ≤ Gw →
      0 ≤ g.aCell → 0 < c → 0 < io → Steady (constMat c r l) g s io pin pout → s.Tamb ≤ pin.T →
      |s.T (g.n - 1) - (s.Tamb + (pin.T - s.Tamb) * exp (-(U / (io * c))))| ≤
        (pin.T - s.Tamb) * (ε + 2 * ((l * g.aCell / L + Gw) * U / (io * c) ^ 2)) := by
  obtain ⟨N, hN⟩ := exists_nat_ge ((U / (io * c)) ^ 2 / ε)
  refine ⟨N, ?_⟩
  intro g s r l L Gw pin pout hn hpos hph hd hl hL hU hGw hA hc hio hst hin
  have h := C161_near_exact hph hd hl hL hU hGw hA hc hio hst hin (g.n - 1) (by omega)
  have hn' : (0 : ℝ) < g.n := by exact_mod_cast hpos
  rw [show g.n - 1 + 1 = g.n by omega, mul_div_assoc, div_self hn'.ne', mul_one] at h
  have h2 : (U / (io * c)) ^ 2 / g.n ≤ ε := by
    rw [div_le_iff₀ hn']
    have h3 : (N : ℝ) ≤ g.n := by exact_mod_cast hn
    rw [div_le_iff₀ hε] at hN
    nlinarith
  have h4 := mul_le_mul_of_nonneg_left h2 (sub_nonneg.2 hin)
  rw [abs_le]
  constructor
  · have : 0 ≤ (pin.T - s.Tamb) * (ε + 2 * ((l * g.aCell / L + Gw) * U / (io * c) ^ 2)) := by
      apply mul_nonneg (by linarith)
      positivity
    linarith [h.1]
  · nlinarith [h.2]

/-! ## Example: two cells, inlet 53 K above the ambient -/

/-- Geometry of the example. -/
noncomputable def twoGeo : Geo ℝ := ⟨2, 1, 1, 1 / 2, 0, 0⟩
/-- Its state at rest: 42 K and 36 K above the ambient. -/
noncomputable def twoInp : Inp ℝ := ⟨fun k => if k = 0 then 52 else 46, 0, 0, 10, fun _ => 1 / 2, 0, 0, fun _ => 1⟩
/-- Inlet. -/
noncomputable def twoIn : Port ℝ := ⟨0, 63, 1, 1 / 2, 0, 1⟩
/-- Outlet. -/
noncomputable def twoOut : Port ℝ := ⟨1, 46, 1, 1 / 2, 0, -1⟩

example : Physical (constMat 1 1 1) twoGeo twoInp [twoIn, twoOut] ∧ Divided twoGeo twoInp twoIn twoOut 1 1 0 ∧
    Steady (constMat 1 1 1) twoGeo twoInp 1 twoIn twoOut ∧ twoInp.Tamb ≤ twoIn.T := by
  refine ⟨⟨fun _ _ => ?_, ?_, ?_, ?_, fun _ => ?_, fun _ => ?_, ?_, ?_, ?_, fun k hk => ?_⟩,
    ⟨?_, ?_, fun k hk => ?_, ⟨rfl, rfl⟩, fun _ => rfl, rfl, ⟨rfl, rfl, rfl⟩, rfl, ?_⟩, ?_, ?_⟩
  · norm_num [constMat]
  · norm_num [twoGeo]
  · norm_num [twoGeo]
  · norm_num [twoGeo]
  · norm_num [twoInp]
  · norm_num [twoInp]
  · norm_num [twoInp]
  · norm_num [twoInp]
  · intro p hp
    rcases List.mem_pair.mp hp with rfl | rfl <;> norm_num [twoIn, twoOut, constMat]
  · norm_num [heatCapacity, constMat, twoGeo]
  · norm_num [twoGeo]
  · norm_num [twoGeo]
  · norm_num [twoGeo, twoInp]
  · norm_num [twoGeo, twoInp, twoOut]
  · intro k hk
    rw [pipeDT_sides rfl rfl rfl rfl hk]
    have : k = 0 ∨ k = 1 := by
      have : k < 2 := hk
      omega
    rcases this with rfl | rfl <;>
      norm_num [leftSide, rightSide, uaTb, uaPort, lamMean, constMat, twoGeo, twoInp, twoIn, twoOut]
  · norm_num [twoInp, twoIn]

end Verif.Cells
