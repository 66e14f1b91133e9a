import Mathlib.Topology.Algebra.InfiniteSum.Real
import Mathlib.Topology.Algebra.Order.LiminfLimsup
import Mathlib.Analysis.SpecificLimits.Basic
import Mathlib.Tactic.Linarith
import Mathlib.Tactic.Ring
import Mathlib.Tactic.FieldSimp

/-!
# Arrival of a change at the end of a chain of cells

`w k` is the part of a change at the inlet that has not yet reached cell `k`, counted from 1; `w 0 = 0` is the inlet.
A flow `W` carries the change along the chain, `γ k` conducts between the cells `k - 1` and `k`.
-/

namespace Verif.Plug

open Finset Filter Topology

/-- One explicit Euler step. -/
def euler (W t : ℝ) (γ w : ℕ → ℝ) (k : ℕ) : ℝ :=
  if k = 0 then 0 else w k + t * ((W + γ k) * (w (k - 1) - w k) + γ (k + 1) * (w (k + 1) - w k))

/-- Nothing has happened at the inlet that has not arrived there, and the share that is missing grows along the
chain. -/
def Ordered (n : ℕ) (w : ℕ → ℝ) : Prop := w 0 = 0 ∧ ∀ k < n, w k ≤ w (k + 1)

/-- Conductances of the faces 1 to `n`, none behind the last cell. -/
def Faces (n : ℕ) (hi : ℝ) (γ : ℕ → ℝ) : Prop := (∀ k, 1 ≤ k → k ≤ n → 0 ≤ γ k ∧ γ k ≤ hi) ∧ γ (n + 1) = 0

variable {n : ℕ} {W t hi : ℝ} {γ γ' w : ℕ → ℝ}

theorem Faces.nonneg (hγ : Faces n hi γ) {k : ℕ} (h1 : 1 ≤ k) (h2 : k ≤ n + 1) : 0 ≤ γ k := by
  rcases Nat.lt_or_ge n k with h | h
  · rw [show k = n + 1 by omega, hγ.2]
  · exact (hγ.1 k h1 h).1

theorem Ordered.le (hw : Ordered n w) {j k : ℕ} (hjk : j ≤ k) (hk : k ≤ n) : w j ≤ w k := by
  induction k with
  | zero => rw [show j = 0 by omega]
  | succ k ih =>
    rcases Nat.lt_or_ge j (k + 1) with h | h
    · exact (ih (by omega) (by omega)).trans (hw.2 k (by omega))
    · rw [show j = k + 1 by omega]

theorem Ordered.nonneg (hw : Ordered n w) {k : ℕ} (hk : k ≤ n) : 0 ≤ w k := by
  have := hw.le (Nat.zero_le k) hk
  rwa [hw.1] at this

/-- What the conduction from behind adds is not negative. -/
theorem from_behind (hw : Ordered n w) (hγ : Faces n hi γ) {k : ℕ} (h1 : 1 ≤ k) (hk : k ≤ n) :
    0 ≤ γ (k + 1) * (w (k + 1) - w k) := by
  rcases Nat.lt_or_ge k n with h | h
  · exact mul_nonneg (hγ.nonneg (by omega) (by omega)) (sub_nonneg.2 (hw.2 k h))
  · rw [show k = n by omega, hγ.2, zero_mul]

theorem euler_ordered (hW : 0 ≤ W) (ht : 0 ≤ t) (hs : t * (W + 2 * hi) ≤ 1) (hγ : Faces n hi γ) (hw : Ordered n w) :
    Ordered n (euler W t γ w) := by
  refine ⟨by simp [euler], fun k hk => ?_⟩
  have g1 := hγ.1 (k + 1) (by omega) (by omega)
  have d1 := sub_nonneg.2 (hw.2 k hk)
  have b := mul_nonneg ht (from_behind hw hγ (k := k + 1) (by omega) (by omega))
  have hs1 : t * (W + 2 * γ (k + 1)) ≤ 1 := by
    have := mul_le_mul_of_nonneg_left g1.2 ht
    linarith
  have key : 0 ≤ (1 - t * (W + 2 * γ (k + 1))) * (w (k + 1) - w k) := mul_nonneg (by linarith) d1
  rcases Nat.eq_zero_or_pos k with rfl | h0
  · simp only [euler, if_true, Nat.add_eq_zero_iff, one_ne_zero, and_false, if_false, Nat.add_sub_cancel]
    rw [hw.1] at d1 key ⊢
    have : 0 ≤ t * γ (0 + 1) * (w (0 + 1) - 0) := mul_nonneg (mul_nonneg ht g1.1) d1
    nlinarith
  · have f : 0 ≤ t * ((W + γ k) * (w k - w (k - 1))) := by
      have h2 := hw.2 (k - 1) (by omega)
      rw [Nat.sub_add_cancel h0] at h2
      exact mul_nonneg ht (mul_nonneg (by linarith [(hγ.1 k h0 hk.le).1]) (by linarith))
    simp only [euler, if_neg (by omega : ¬ k = 0), if_neg (by omega : ¬ k + 1 = 0), Nat.add_sub_cancel]
    nlinarith

theorem euler_last (hW : 0 ≤ W) (ht : 0 ≤ t) (hγ : Faces n hi γ) (hw : Ordered n w) (hn : 1 ≤ n) :
    euler W t γ w n ≤ w n := by
  have h2 := hw.2 (n - 1) (by omega)
  rw [Nat.sub_add_cancel hn] at h2
  have f : 0 ≤ t * ((W + γ n) * (w n - w (n - 1))) :=
    mul_nonneg ht (mul_nonneg (by linarith [(hγ.1 n hn le_rfl).1]) (by linarith))
  rw [euler, if_neg (by omega), hγ.2]
  nlinarith

/-- What is missing in all cells. -/
def total (n : ℕ) (w : ℕ → ℝ) : ℝ := ∑ k ∈ range n, w (k + 1)

theorem euler_total (hγ : Faces n hi γ) (hw : Ordered n w) :
    total n (euler W t γ w) = total n w - t * (W * w n + γ 1 * w 1) := by
  have key : ∀ m, ∑ k ∈ range m, euler W t γ w (k + 1) = ∑ k ∈ range m, w (k + 1) -
      t * (W * w m + γ 1 * w 1 - γ (m + 1) * (w (m + 1) - w m)) := by
    intro m
    induction m with
    | zero => simp [hw.1]
    | succ m ih =>
      rw [sum_range_succ, ih, sum_range_succ, euler, if_neg (by omega), Nat.add_sub_cancel]
      ring
  rw [total, key, hγ.2, total]
  ring

theorem total_le (hw : Ordered n w) : total n w ≤ n * w n := by
  have : total n w ≤ ∑ _k ∈ range n, w n := sum_le_sum fun k hk => hw.le (by have := mem_range.1 hk; omega) le_rfl
  simpa using this

theorem total_nonneg (hw : Ordered n w) : 0 ≤ total n w :=
  sum_nonneg fun k hk => hw.nonneg (by have := mem_range.1 hk; omega)

/-- One step of Heun's method: it keeps the order; what is missing at the end falls below the mean `o` of the values
used in the step, and what is missing in total falls by what goes over the end and, at most, by what the first face
conducts. -/
theorem heun {G : ℝ} (hW : 0 ≤ W) (ht : 0 ≤ t) (hs : t * (W + 2 * hi) ≤ 1) (hγ : Faces n hi γ) (hγ' : Faces n hi γ')
    (hG : γ 1 ≤ G ∧ γ' 1 ≤ G) (hw : Ordered n w) (hn : 1 ≤ n) {z : ℕ → ℝ}
    (hz : ∀ k ≤ n, z k = (w k + euler W t γ' (euler W t γ w) k) / 2) :
    Ordered n z ∧ ∃ o, z n ≤ o ∧ o ≤ w n ∧ t * W * o ≤ total n w - total n z ∧
      total n w - total n z ≤ t * (W + G) * o := by
  set y := euler W t γ w with hy
  have oy : Ordered n y := euler_ordered hW ht hs hγ hw
  have ov : Ordered n (euler W t γ' y) := euler_ordered hW ht hs hγ' oy
  have l1 := euler_last hW ht hγ hw hn
  have l2 := euler_last hW ht hγ' oy hn
  have t1 := euler_total (W := W) (t := t) hγ hw
  have t2 := euler_total (W := W) (t := t) hγ' oy
  have tz : total n z = (total n w + total n (euler W t γ' y)) / 2 := by
    have h : ∀ k ∈ range n, z (k + 1) = (w (k + 1) + euler W t γ' y (k + 1)) / 2 := fun k hk =>
      hz _ (by have := mem_range.1 hk; omega)
    rw [total, sum_congr rfl h, total, total, ← sum_add_distrib, div_eq_mul_inv, sum_mul]
    exact sum_congr rfl fun k _ => div_eq_mul_inv _ _
  refine ⟨⟨?_, fun k hk => ?_⟩, (w n + y n) / 2, ?_, ?_, ?_, ?_⟩
  · rw [hz 0 (by omega), hw.1, ov.1]; norm_num
  · rw [hz k (by omega), hz (k + 1) (by omega)]
    linarith [hw.2 k hk, ov.2 k hk]
  · rw [hz n le_rfl]; linarith
  · linarith
  · have a1 := mul_nonneg ht (mul_nonneg (hγ.1 1 le_rfl hn).1 (hw.nonneg hn))
    have a2 := mul_nonneg ht (mul_nonneg (hγ'.1 1 le_rfl hn).1 (oy.nonneg hn))
    rw [← hy] at t1
    rw [tz, t2, t1]
    nlinarith
  · have a1 := mul_le_mul_of_nonneg_left (mul_le_mul hG.1 (hw.le hn le_rfl) (hw.nonneg hn)
      ((hγ.1 1 le_rfl hn).1.trans hG.1)) ht
    have a2 := mul_le_mul_of_nonneg_left (mul_le_mul hG.2 (oy.le hn le_rfl) (oy.nonneg hn)
      ((hγ'.1 1 le_rfl hn).1.trans hG.2)) ht
    rw [← hy] at t1
    rw [tz, t2, t1]
    nlinarith

/-- The sum over all steps, each with its length `h j`: what is missing at the end tends to zero, and the sum of what
is missing times the length lies between what was missing at the beginning over `W + G` and over `W`, up to one step. -/
theorem arrival {M G h₀ H : ℝ} (hM : 0 < M) (hW : 0 < W) (hG : 0 ≤ G) (h0 : 0 < h₀) {h e S : ℕ → ℝ} {N : ℝ}
    (hh : ∀ j, h₀ ≤ h j ∧ h j ≤ H) (he : ∀ j, 0 ≤ e j) (hS : ∀ j, 0 ≤ S j ∧ S j ≤ N * e j)
    (ho : ∀ j, ∃ o, e (j + 1) ≤ o ∧ o ≤ e j ∧ h j / M * W * o ≤ S j - S (j + 1) ∧
      S j - S (j + 1) ≤ h j / M * (W + G) * o) :
    Antitone e ∧ Tendsto e atTop (𝓝 0) ∧ ∃ τ, HasSum (fun j => h j * e j) τ ∧ M * S 0 / (W + G) ≤ τ ∧
      τ ≤ M * S 0 / W + H * e 0 := by
  choose o o1 o2 o3 o4 using ho
  have hhj : ∀ j, 0 ≤ h j := fun j => h0.le.trans (hh j).1
  have hH : 0 ≤ H := (hhj 0).trans (hh 0).2
  have anti : Antitone e := antitone_nat_of_succ_le fun j => (o1 j).trans (o2 j)
  have up : ∀ J, ∑ j ∈ range J, h j * e j ≤ M * (S 0 - S J) / W + H * (e 0 - e J) := by
    intro J
    induction J with
    | zero => simp
    | succ J ih =>
      rw [sum_range_succ]
      have a1 : h J * o J ≤ M * (S J - S (J + 1)) / W := by
        rw [le_div_iff₀ hW]
        have := mul_le_mul_of_nonneg_left (o3 J) hM.le
        have e1 : M * (h J / M * W * o J) = h J * o J * W := by field_simp
        linarith
      have a2 : h J * (e J - o J) ≤ H * (e J - e (J + 1)) :=
        mul_le_mul (hh J).2 (by linarith [o1 J]) (by linarith [o2 J]) hH
      have a3 : M * (S 0 - S (J + 1)) / W = M * (S 0 - S J) / W + M * (S J - S (J + 1)) / W := by ring
      rw [a3]
      nlinarith
  have low : ∀ J, M * (S 0 - S J) / (W + G) ≤ ∑ j ∈ range J, h j * e j := by
    intro J
    induction J with
    | zero => simp
    | succ J ih =>
      rw [sum_range_succ]
      have hWG : 0 < W + G := by linarith
      have a1 : M * (S J - S (J + 1)) / (W + G) ≤ h J * o J := by
        rw [div_le_iff₀ hWG]
        have := mul_le_mul_of_nonneg_left (o4 J) hM.le
        have e1 : M * (h J / M * (W + G) * o J) = h J * o J * (W + G) := by field_simp
        linarith
      have a2 := mul_le_mul_of_nonneg_left (o2 J) (hhj J)
      have a3 : M * (S 0 - S (J + 1)) / (W + G) = M * (S 0 - S J) / (W + G) + M * (S J - S (J + 1)) / (W + G) := by
        ring
      linarith
  have hbound : ∀ J, ∑ j ∈ range J, h j * e j ≤ M * S 0 / W + H * e 0 := by
    intro J
    refine (up J).trans (add_le_add ?_ ?_)
    · apply div_le_div_of_nonneg_right _ hW.le
      exact mul_le_mul_of_nonneg_left (by linarith [(hS J).1]) hM.le
    · exact mul_le_mul_of_nonneg_left (by linarith [he J]) hH
  have hsum : Summable fun j => h j * e j :=
    summable_of_sum_range_le (fun j => mul_nonneg (hhj j) (he j)) hbound
  have hlim : Tendsto e atTop (𝓝 0) := by
    have h1 := hsum.tendsto_atTop_zero
    have h2 : Tendsto (fun j => h j * e j / h₀) atTop (𝓝 0) := by simpa using h1.div_const h₀
    refine squeeze_zero he (fun j => ?_) h2
    rw [le_div_iff₀ h0, mul_comm]
    exact mul_le_mul_of_nonneg_right (hh j).1 (he j)
  have hSlim : Tendsto S atTop (𝓝 0) := by
    have := hlim.const_mul N
    rw [mul_zero] at this
    exact squeeze_zero (fun j => (hS j).1) (fun j => (hS j).2) this
  obtain ⟨τ, hτ⟩ := hsum
  refine ⟨anti, hlim, τ, hτ, ?_, ?_⟩
  · have h1 : Tendsto (fun J => M * (S 0 - S J) / (W + G)) atTop (𝓝 (M * (S 0 - 0) / (W + G))) :=
      ((tendsto_const_nhds.sub hSlim).const_mul M).div_const _
    rw [sub_zero] at h1
    exact le_of_tendsto_of_tendsto' h1 hτ.tendsto_sum_nat low
  · exact le_of_tendsto' hτ.tendsto_sum_nat hbound

end Verif.Plug
