import Verif.Props.RollOutliers

/-!
# C148: the removal of outliers by a rolling median does not depend on units
-/

namespace Verif.Outliers

open Finset

theorem findSome_map {α β γ : Type*} (f : α → Option β) (g : β → γ) : ∀ l : List α,
    l.findSome? (fun x => (f x).map g) = (l.findSome? f).map g
  | [] => rfl
  | x :: l => by
    rw [List.findSome?_cons, List.findSome?_cons]
    cases h : f x with
    | none => simpa using findSome_map f g l
    | some b => simp

theorem localMed_map {w n : ℕ} (hw : 0 < w) {a : ℝ} (ha : 0 < a) (b : ℝ) (y : ℕ → ℝ) (i : ℕ) :
    localMed w n (fun j => a * y j + b) i = (localMed w n y i).map fun x => a * x + b := by
  have h1 : rollMed w n (fun j => a * y j + b) = fun j => (rollMed w n y j).map fun x => a * x + b := by
    funext j
    unfold rollMed
    dsimp only
    split_ifs
    · rw [Option.map_some, ← median_map _ ha b hw]
    · rfl
  have h2 : bfill n (rollMed w n fun j => a * y j + b) = fun j => (bfill n (rollMed w n y) j).map fun x => a * x + b := by
    funext j
    unfold bfill
    rw [h1, findSome_map]
  unfold localMed
  rw [h2]
  unfold ffill
  rw [findSome_map]

theorem std_scale {n : ℕ} (ddof : ℕ) {a : ℝ} (ha : 0 < a) (y : Fin n → ℝ) :
    std ddof (fun j => a * y j) = (std ddof y).map fun s => a * s := by
  have hm : mean (fun j => a * y j) = a * mean y := by
    unfold mean
    rw [← mul_sum, mul_div_assoc]
  unfold std
  split_ifs
  · rfl
  · rw [Option.map_some, hm]
    congr 1
    have e : ∀ j, (a * y j - a * mean y) ^ 2 = a ^ 2 * (y j - mean y) ^ 2 := fun j => by ring
    rw [sum_congr rfl fun j _ => e j, ← mul_sum, mul_div_assoc, Real.sqrt_mul (sq_nonneg a), Real.sqrt_sq ha.le]

/-- **C148** (units): the decision does not depend on the unit of the data. -/
theorem C148_units {w n : ℕ} (hw : 0 < w) (k : ℝ) {a : ℝ} (ha : 0 < a) (b : ℝ) (y : ℕ → ℝ) (i : Fin n) :
    removeRoll w k n (fun j => a * y j + b) i = (removeRoll w k n y i).map fun x => a * x + b := by
  classical
  have hd : diffMed w (n := n) (fun j => a * y j + b) = fun j : Fin n => a * diffMed w y j := by
    funext j
    unfold diffMed
    rw [localMed_map hw ha]
    cases localMed w n y j with
    | none => simp
    | some m => 
      simp only [Option.map_some]
      rw [show a * y j + b - (a * m + b) = a * (y j - m) by ring, abs_mul, abs_of_pos ha]
  have hk : outlierRoll w k n (fun j => a * y j + b) i ↔ outlierRoll w k n y i := by
    unfold outlierRoll
    rw [hd, std_scale 1 ha, localMed_map hw ha]
    cases localMed w n y i with
    | none => simp
    | some m =>
      cases std 1 (diffMed w (n := n) y) with
      | none => simp
      | some s =>
        simp only [Option.map_some]
        rw [show a * y i + b - (a * m + b) = a * (y i - m) by ring, abs_mul, abs_of_pos ha, mul_assoc]
        exact mul_lt_mul_iff_right₀ ha
  unfold removeRoll
  by_cases h : outlierRoll w k n y i
  · rw [if_pos h, if_pos (hk.mpr h)]; rfl
  · rw [if_neg h, if_neg (fun h' => h (hk.mp h'))]; rfl

/-- A series with a spike of 50 K, in degrees Celsius and in degrees Fahrenheit. -/
example (i : Fin 100) : removeRoll 17 3 100 (fun j => 9 / 5 * (if j = 40 then 70 else 20 : ℝ) + 32) i =
    (removeRoll 17 3 100 (fun j => if j = 40 then 70 else 20) i).map fun x => 9 / 5 * x + 32 :=
  C148_units (by norm_num) 3 (by norm_num) 32 _ i

end Verif.Outliers
