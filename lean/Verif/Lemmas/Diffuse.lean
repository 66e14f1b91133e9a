import Mathlib.Algebra.Order.Chebyshev
import Mathlib.Data.Real.Basic
import Mathlib.Tactic.Linarith
import Mathlib.Tactic.Ring
import Mathlib.Tactic.FieldSimp

/-!
# Diffusion on a chain of cells

Heat flows `F j` over the faces of a chain of cells, no flow over the outer faces; the sum of squares about any value
falls with an explicit step that is shorter than the stability limit.
-/

namespace Verif.Diffuse

open Finset

/-- Sum of squares of the deviations of `n` cells from `c`. -/
def dev (n : ℕ) (c : ℝ) (x : ℕ → ℝ) : ℝ := ∑ k ∈ range n, (x k - c) ^ 2

/-- Flow over face `j` between the cells `j - 1` and `j`. -/
def flux (u x : ℕ → ℝ) (j : ℕ) : ℝ := u j * (x j - x (j - 1))

/-- Net flow into cell `k`. -/
def net (u x : ℕ → ℝ) (k : ℕ) : ℝ := flux u x (k + 1) - flux u x k

variable {n : ℕ} {u x : ℕ → ℝ}

theorem sum_net (h0 : u 0 = 0) (hn : u n = 0) : ∑ k ∈ range n, net u x k = 0 := by
  simp only [net]
  rw [sum_range_sub]
  simp [flux, h0, hn]

theorem sum_by_parts (F x : ℕ → ℝ) (n : ℕ) : ∑ k ∈ range (n + 1), x k * (F (k + 1) - F k) =
    x n * F (n + 1) - x 0 * F 0 - ∑ k ∈ range n, (x (k + 1) - x k) * F (k + 1) := by
  induction n with
  | zero => simp; ring
  | succ n ih => rw [sum_range_succ, ih, sum_range_succ (n := n)]; ring

theorem sum_mul_net (h0 : u 0 = 0) (hn : u (n + 1) = 0) :
    ∑ k ∈ range (n + 1), x k * net u x k = -∑ k ∈ range n, u (k + 1) * (x (k + 1) - x k) ^ 2 := by
  simp only [net]
  rw [sum_by_parts]
  simp only [flux, h0, hn, zero_mul, mul_zero, sub_zero, zero_sub, Nat.add_sub_cancel]
  rw [neg_inj]
  exact sum_congr rfl fun k _ => by ring

theorem sum_net_sq (h0 : u 0 = 0) (hn : u (n + 1) = 0) :
    ∑ k ∈ range (n + 1), net u x k ^ 2 ≤ 4 * ∑ k ∈ range n, flux u x (k + 1) ^ 2 := by
  have h1 : ∑ k ∈ range (n + 1), flux u x (k + 1) ^ 2 = ∑ k ∈ range n, flux u x (k + 1) ^ 2 := by
    rw [sum_range_succ]
    simp [flux, hn]
  have h2 : ∑ k ∈ range (n + 1), flux u x k ^ 2 = ∑ k ∈ range n, flux u x (k + 1) ^ 2 := by
    rw [sum_range_succ']
    simp [flux, h0]
  calc ∑ k ∈ range (n + 1), net u x k ^ 2
      ≤ ∑ k ∈ range (n + 1), (2 * flux u x (k + 1) ^ 2 + 2 * flux u x k ^ 2) := by
        apply sum_le_sum
        intro k _
        rw [net]
        nlinarith [sq_nonneg (flux u x (k + 1) + flux u x k)]
    _ = 4 * ∑ k ∈ range n, flux u x (k + 1) ^ 2 := by
        rw [sum_add_distrib, ← mul_sum, ← mul_sum, h1, h2]
        ring

/-- One explicit step. -/
theorem dev_step {c t lo hi r : ℝ} (h0 : u 0 = 0) (hn : u (n + 1) = 0) (ht : 0 ≤ t) (hlo : 0 ≤ lo)
    (hu : ∀ j, 0 < j → j < n + 1 → lo ≤ u j ∧ u j ≤ hi) (hr : 2 * t * hi ≤ r) (hr1 : r ≤ 1) :
    dev (n + 1) c (fun k => x k + t * net u x k) ≤
      dev (n + 1) c x - 2 * t * (1 - r) * lo * ∑ k ∈ range n, (x (k + 1) - x k) ^ 2 := by
  set S := ∑ k ∈ range n, u (k + 1) * (x (k + 1) - x k) ^ 2 with hS
  set D := ∑ k ∈ range n, (x (k + 1) - x k) ^ 2 with hD
  have hD0 : 0 ≤ D := sum_nonneg fun _ _ => sq_nonneg _
  have hSD : lo * D ≤ S := by
    rw [hS, hD, mul_sum]
    apply sum_le_sum
    intro k hk
    have := mem_range.1 hk
    exact mul_le_mul_of_nonneg_right (hu (k + 1) (by omega) (by omega)).1 (sq_nonneg _)
  have hF : ∑ k ∈ range n, flux u x (k + 1) ^ 2 ≤ hi * S := by
    rw [hS, mul_sum]
    apply sum_le_sum
    intro k hk
    have := mem_range.1 hk
    have h := hu (k + 1) (by omega) (by omega)
    have h1 : u (k + 1) * u (k + 1) ≤ hi * u (k + 1) := mul_le_mul_of_nonneg_right h.2 (hlo.trans h.1)
    have h2 := mul_le_mul_of_nonneg_right h1 (sq_nonneg (x (k + 1) - x k))
    simp only [flux, Nat.add_sub_cancel]
    nlinarith
  have h1 := sum_net_sq (x := x) h0 hn
  have h2 := sum_mul_net (x := x) h0 hn
  have h3 : ∑ k ∈ range (n + 1), net u x k = 0 := sum_net h0 hn
  have hexp : dev (n + 1) c (fun k => x k + t * net u x k) = dev (n + 1) c x + 2 * t * ∑ k ∈ range (n + 1), x k * net u x k
      - 2 * t * c * ∑ k ∈ range (n + 1), net u x k + t ^ 2 * ∑ k ∈ range (n + 1), net u x k ^ 2 := by
    simp only [dev, mul_sum]
    rw [← sum_add_distrib, ← sum_sub_distrib, ← sum_add_distrib]
    exact sum_congr rfl fun k _ => by ring
  rw [hexp, h2, h3]
  have h4 : t ^ 2 * ∑ k ∈ range (n + 1), net u x k ^ 2 ≤ t ^ 2 * (4 * (hi * S)) :=
    mul_le_mul_of_nonneg_left (by linarith) (sq_nonneg t)
  have hS0 : 0 ≤ S := le_trans (mul_nonneg hlo hD0) hSD
  have h5 : t ^ 2 * (4 * (hi * S)) ≤ 2 * t * r * S := by
    have := mul_le_mul_of_nonneg_right hr (mul_nonneg (mul_nonneg zero_le_two ht) hS0)
    nlinarith
  have h6 : 2 * t * (1 - r) * (lo * D) ≤ 2 * t * (1 - r) * S :=
    mul_le_mul_of_nonneg_left hSD (mul_nonneg (mul_nonneg zero_le_two ht) (by linarith))
  nlinarith

/-- The mean. -/
noncomputable def mean (n : ℕ) (x : ℕ → ℝ) : ℝ := (∑ k ∈ range n, x k) / n

theorem dev_mean_le (c : ℝ) : dev (n + 1) (mean (n + 1) x) x ≤ dev (n + 1) c x := by
  set m := mean (n + 1) x with hm
  have hsum : ∑ k ∈ range (n + 1), x k = (n + 1 : ℝ) * m := by
    rw [hm, mean]
    push_cast
    field_simp
  have h : ∀ b, dev (n + 1) b x = ∑ k ∈ range (n + 1), x k ^ 2 - 2 * b * ∑ k ∈ range (n + 1), x k + (n + 1) * b ^ 2 := by
    intro b
    have : ((n : ℝ) + 1) * b ^ 2 = ∑ _k ∈ range (n + 1), b ^ 2 := by simp
    rw [this, mul_sum, ← sum_sub_distrib, ← sum_add_distrib]
    exact sum_congr rfl fun k _ => by ring
  rw [h, h, hsum]
  have : 0 ≤ ((n : ℝ) + 1) * (m - c) ^ 2 := by positivity
  nlinarith

/-- The deviation from the mean is bounded by the differences of neighbours. -/
theorem dev_mean_le_diff : dev (n + 1) (mean (n + 1) x) x ≤
    ((n + 1 : ℕ) : ℝ) ^ 2 * ∑ k ∈ range n, (x (k + 1) - x k) ^ 2 := by
  refine (dev_mean_le (x 0)).trans ?_
  set D := ∑ k ∈ range n, (x (k + 1) - x k) ^ 2 with hD
  have hD0 : 0 ≤ D := sum_nonneg fun _ _ => sq_nonneg _
  calc dev (n + 1) (x 0) x ≤ ∑ _k ∈ range (n + 1), ((n + 1 : ℕ) : ℝ) * D := by
        apply sum_le_sum
        intro k hk
        have hk' := mem_range.1 hk
        rw [← sum_range_sub]
        refine (sq_sum_le_card_mul_sum_sq).trans ?_
        rw [card_range]
        have h1 : ∑ i ∈ range k, (x (i + 1) - x i) ^ 2 ≤ D :=
          sum_le_sum_of_subset_of_nonneg (range_subset_range.2 (by omega)) fun _ _ _ => sq_nonneg _
        have h2 : (k : ℝ) ≤ ((n + 1 : ℕ) : ℝ) := by exact_mod_cast hk'.le
        exact mul_le_mul h2 h1 (sum_nonneg fun _ _ => sq_nonneg _) (Nat.cast_nonneg _)
    _ = ((n + 1 : ℕ) : ℝ) ^ 2 * D := by
        rw [sum_const, card_range, nsmul_eq_mul]
        ring

theorem dev_convex (c : ℝ) (x w : ℕ → ℝ) (m : ℕ) :
    dev m c (fun k => (x k + w k) / 2) ≤ (dev m c x + dev m c w) / 2 := by
  simp only [dev]
  rw [← sum_add_distrib, div_eq_mul_inv, sum_mul]
  apply sum_le_sum
  intro k _
  nlinarith [sq_nonneg (x k - w k)]

/-- An explicit step keeps the temperatures between their extremes. -/
theorem step_between {a b t lo hi : ℝ} (h0 : u 0 = 0) (hn : u (n + 1) = 0) (ht : 0 ≤ t) (hlo : 0 ≤ lo)
    (hu : ∀ j, 0 < j → j < n + 1 → lo ≤ u j ∧ u j ≤ hi) (hr : 2 * t * hi ≤ 1)
    (hx : ∀ k < n + 1, a ≤ x k ∧ x k ≤ b) : ∀ k < n + 1, a ≤ x k + t * net u x k ∧ x k + t * net u x k ≤ b := by
  intro k hk
  have key : ∀ p q y z : ℝ, 0 ≤ p → 0 ≤ q → p + q ≤ 1 → (p = 0 ∨ a ≤ y ∧ y ≤ b) → (q = 0 ∨ a ≤ z ∧ z ≤ b) →
      a ≤ x k + (p * (y - x k) - q * (x k - z)) ∧ x k + (p * (y - x k) - q * (x k - z)) ≤ b := by
    intro p q y z hp hq hpq hy hz
    obtain ⟨h1, h2⟩ := hx k hk
    have hp1 : p * (a - x k) ≤ p * (y - x k) ∧ p * (y - x k) ≤ p * (b - x k) := by
      rcases hy with rfl | hy
      · simp
      · exact ⟨mul_le_mul_of_nonneg_left (by linarith) hp, mul_le_mul_of_nonneg_left (by linarith) hp⟩
    have hq1 : q * (a - x k) ≤ q * (z - x k) ∧ q * (z - x k) ≤ q * (b - x k) := by
      rcases hz with rfl | hz
      · simp
      · exact ⟨mul_le_mul_of_nonneg_left (by linarith) hq, mul_le_mul_of_nonneg_left (by linarith) hq⟩
    have h3 : 0 ≤ (1 - (p + q)) * (x k - a) := mul_nonneg (by linarith) (by linarith)
    have h4 : 0 ≤ (1 - (p + q)) * (b - x k) := mul_nonneg (by linarith) (by linarith)
    constructor <;> nlinarith
  have hb : ∀ j ≤ n + 1, 0 ≤ t * u j ∧ t * u j + t * u j ≤ 1 := by
    intro j hj
    by_cases h1 : j = 0
    · subst h1; simp [h0]
    by_cases h2 : j = n + 1
    · subst h2; simp [hn]
    obtain ⟨h3, h4⟩ := hu j (by omega) (by omega)
    have := mul_le_mul_of_nonneg_left h4 ht
    exact ⟨mul_nonneg ht (hlo.trans h3), by linarith⟩
  have h1 := hb k (by omega)
  have h2 := hb (k + 1) (by omega)
  have h := key (t * u (k + 1)) (t * u k) (x (k + 1)) (x (k - 1)) h2.1 h1.1 (by linarith) ?_ ?_
  · have he : x k + t * net u x k = x k + (t * u (k + 1) * (x (k + 1) - x k) - t * u k * (x k - x (k - 1))) := by
      simp only [net, flux, Nat.add_sub_cancel]
      ring
    rw [he]
    exact h
  · by_cases hkn : k = n
    · left; rw [hkn, hn, mul_zero]
    · right; exact hx _ (by omega)
  · by_cases hk0 : k = 0
    · left; rw [hk0, h0, mul_zero]
    · right; exact hx _ (by omega)

end Verif.Diffuse
