import Verif.Props.Mixing

/-!
# C215: the ports of a connector are interchangeable, and only ratios of flows matter
-/

set_option linter.unusedSectionVars false

namespace Verif.Mixing

variable {K : Type*} [Field K] [LinearOrder K] [IsStrictOrderedRing K]

theorem sumOf_perm (σ : Equiv.Perm (Fin 3)) (m : Fin 3 → Bool) (T : Fin 3 → K) :
    sumOf (fun i => m (σ i)) (fun i => T (σ i)) = sumOf m T :=
  Equiv.sum_comp σ fun i => if m i then T i else 0

theorem count_perm (σ : Equiv.Perm (Fin 3)) (m : Fin 3 → Bool) : count (fun i => m (σ i)) = count m :=
  Equiv.sum_comp σ fun i => if m i then 1 else 0

theorem setOf_perm (σ : Equiv.Perm (Fin 3)) (m : Fin 3 → Bool) (x : K) (T : Fin 3 → K) :
    setOf (fun i => m (σ i)) x (fun i => T (σ i)) = fun i => setOf m x T (σ i) := rfl

theorem rest_eq (T : Fin 3 → K) : ![(T 1 + T 2) / 2, (T 0 + T 2) / 2, (T 0 + T 1) / 2] = fun i => (∑ j, T j - T i) / 2 := by
  funext i
  rw [Fin.sum_univ_three]
  fin_cases i <;> simp <;> ring

theorem rest_perm (σ : Equiv.Perm (Fin 3)) (T : Fin 3 → K) (i : Fin 3) :
    ![(T (σ 1) + T (σ 2)) / 2, (T (σ 0) + T (σ 2)) / 2, (T (σ 0) + T (σ 1)) / 2] i =
      ![(T 1 + T 2) / 2, (T 0 + T 2) / 2, (T 0 + T 1) / 2] (σ i) := by
  have h := congrFun (rest_eq fun j => T (σ j)) i
  rw [Equiv.sum_comp σ T] at h
  rw [rest_eq T]
  exact h

/-- **C215** (ports): the ports of a connector are interchangeable: connecting the same pipes to its ports in another order gives the
same temperatures in the pipes. -/
theorem C215_ports (cp : K → K) (dm T : Fin 3 → K) (σ : Equiv.Perm (Fin 3)) (i : Fin 3) :
    connector cp (fun j => dm (σ j)) (fun j => T (σ j)) i = connector cp dm T (σ i) := by
  have c1 := count_perm σ fun j => decide (0 < dm j)
  have c2 := count_perm σ fun j => decide (dm j < 0)
  have s1 := sumOf_perm σ (fun j => decide (0 < dm j)) T
  have s2 := sumOf_perm σ (fun j => decide (dm j < 0)) T
  have s3 := sumOf_perm σ (fun j => decide (0 < dm j)) fun j => dm j * cp (T j) * T j
  have s4 := sumOf_perm σ (fun j => decide (dm j < 0)) dm
  unfold connector
  dsimp only at c1 c2 s1 s2 s3 s4 ⊢
  rw [c1, c2, s1, s2, s3, s4]
  split_ifs
  · rfl
  · rfl
  · have t1 := sumOf_perm σ (fun j => !decide (dm j = 0)) T
    rw [t1]
    set x := sumOf (fun j => !decide (dm j = 0)) T / 2
    have t2 := sumOf_perm σ (fun j => decide (0 < dm j)) (setOf (fun j => decide (dm j = 0)) x T)
    rw [← setOf_perm σ (fun j => decide (dm j = 0)) x T] at t2
    rw [t2]
    set y := sumOf (fun j => decide (0 < dm j)) (setOf (fun j => decide (dm j = 0)) x T)
    have t3 := sumOf_perm σ (fun j => !decide (0 < dm j)) (setOf (fun j => decide (dm j < 0)) y (setOf (fun j => decide (dm j = 0)) x T))
    rw [← setOf_perm σ (fun j => decide (dm j < 0)) y, ← setOf_perm σ (fun j => decide (dm j = 0)) x T] at t3
    rw [t3]
    rfl
  · exact rest_perm σ T i

theorem sumOf_mul (m : Fin 3 → Bool) (k : K) (T : Fin 3 → K) : sumOf m (fun i => k * T i) = k * sumOf m T := by
  unfold sumOf
  rw [Finset.mul_sum]
  exact Finset.sum_congr rfl fun i _ => by split_ifs <;> simp

/-- **C215** (scale): multiplying all flows through a connector by the same positive number changes none of its temperatures. -/
theorem C215_scale (cp : K → K) (dm T : Fin 3 → K) {k : K} (hk : 0 < k) : connector cp (fun j => k * dm j) T = connector cp dm T := by
  have p1 : ∀ x : K, decide (0 < k * x) = decide (0 < x) := fun x => by simp [hk]
  have p2 : ∀ x : K, decide (k * x < 0) = decide (x < 0) := fun x => by
    simp only [decide_eq_decide]
    rw [← mul_lt_mul_iff_right₀ hk (b := x), mul_zero]
  have p3 : ∀ x : K, decide (k * x = 0) = decide (x = 0) := fun x => by simp [hk.ne']
  have p4 : ∀ m : Fin 3 → Bool, sumOf m (fun j => k * dm j * cp (T j) * T j) = k * sumOf m fun j => dm j * cp (T j) * T j := fun m => by
    rw [← sumOf_mul]
    congr 1
    funext j
    ring
  unfold connector
  simp only [p1, p2, p3, p4, sumOf_mul]
  have e : ∀ x y z : K, k * x / (y * -1 * (k * z)) = x / (y * -1 * z) := fun x y z => by
    rw [show y * -1 * (k * z) = k * (y * -1 * z) by ring, mul_div_mul_left _ _ hk.ne']
  simp only [e]

/-- **C215** (mixing valve): its two inlets are interchangeable, and only the ratio of its flows matters. -/
theorem C215_valve (cp : K → K) (dm T : Fin 3 → K) {k : K} (hk : k ≠ 0) :
    mixValve cp (fun j => k * dm j) T = mixValve cp dm T ∧
    ∀ i, mixValve cp (fun j => dm (Equiv.swap 0 1 j)) (fun j => T (Equiv.swap 0 1 j)) i = mixValve cp dm T (Equiv.swap 0 1 i) := by
  constructor
  · unfold mixValve
    by_cases h : dm 2 = 0
    · simp [h]
    · rw [if_pos (mul_ne_zero hk h), if_pos h]
      dsimp only
      rw [show k * dm 0 * cp (T 0) * T 0 + k * dm 1 * cp (T 1) * T 1 = k * (dm 0 * cp (T 0) * T 0 + dm 1 * cp (T 1) * T 1) by ring,
        mul_assoc k, mul_div_mul_left _ _ hk]
  · have q0 : Equiv.swap (0 : Fin 3) 1 0 = 1 := by decide
    have q1 : Equiv.swap (0 : Fin 3) 1 1 = 0 := by decide
    have q2 : Equiv.swap (0 : Fin 3) 1 2 = 2 := by decide
    intro i
    unfold mixValve
    simp only [q0, q1, q2]
    split_ifs
    · rw [add_comm (T 1) (T 0), add_comm (dm 1 * cp (T 1) * T 1)]
      fin_cases i <;> simp [q0, q1, q2]
    · fin_cases i <;> simp [q0, q1, q2, add_comm]

/-- 1 kg/s with 60 degC and 3 kg/s with 20 degC, at the ports in another order, with twice the flows. -/
example : connector (fun _ => 4000) ![1, 3, -4] ![60, 20, 50] = (![50, 50, 30] : Fin 3 → ℚ) ∧
    connector (fun _ => 4000) ![-8, 2, 6] ![50, 60, 20] = (![30, 50, 50] : Fin 3 → ℚ) := by
  decide +kernel

end Verif.Mixing
