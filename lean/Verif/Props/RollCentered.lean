import Verif.Model.RollCentered
import Mathlib.Algebra.BigOperators.Intervals
import Mathlib.Algebra.Order.Floor.Semifield
import Mathlib.Tactic.Linarith
import Mathlib.Tactic.FieldSimp
import Mathlib.Tactic.Ring

/-!
# Centred rolling windows (C150)
-/

namespace Verif.RollCentered

variable {K : Type*} [Field K] [LinearOrder K]

/-! ### Spec -/

/-- The values at most half of the window away from the time of the value, `f` in units of the spacing; the later end
does not belong to the window (`closed='left'`). -/
def centred (f : ℚ) (n i : ℕ) : Finset ℕ :=
  (Finset.range n).filter fun j => (i : ℚ) - f / 2 ≤ j ∧ (j : ℚ) < i + f / 2

/-! ### Multiples of the spacing -/

theorem windowInt_eq {w : ℕ} (hw : 0 < w) (n i : ℕ) : windowInt w n i = centred w n i := by
  unfold windowInt centred
  apply Finset.filter_congr
  intro j _
  have h1 : ((i : ℚ) - w / 2 ≤ j) ↔ 2 * i ≤ 2 * j + w := by
    rw [sub_le_iff_le_add, ← mul_le_mul_iff_right₀ (show (0 : ℚ) < 2 by norm_num)]
    constructor <;> intro h
    · have : ((2 * i : ℕ) : ℚ) ≤ (2 * j + w : ℕ) := by push_cast; linarith
      exact_mod_cast this
    · have : ((2 * i : ℕ) : ℚ) ≤ (2 * j + w : ℕ) := by exact_mod_cast h
      push_cast at this; linarith
  have h2 : ((j : ℚ) < i + w / 2) ↔ 2 * j < 2 * i + w := by
    rw [← mul_lt_mul_iff_right₀ (show (0 : ℚ) < 2 by norm_num)]
    constructor <;> intro h
    · have : ((2 * j : ℕ) : ℚ) < (2 * i + w : ℕ) := by push_cast; linarith
      exact_mod_cast this
    · have : ((2 * j : ℕ) : ℚ) < (2 * i + w : ℕ) := by exact_mod_cast h
      push_cast at this; linarith
  rw [h1, h2]
  omega

/-- **C150**, partial: if the window is a multiple of the spacing, each value is computed from the values at most half of
the window away from it, as far as there are any, and none is lost at the ends. -/
theorem C150_multiple_partial (m : Method) {w : ℕ} (hw : 0 < w) (n : ℕ) (y : ℕ → K) {i : ℕ} (hi : i < n) :
    rolling m w (some 0) n y i = m.eval y (centred w n i) ∧ i ∈ centred w n i ∧
      (rolling m w (some 0) n y i).isSome = true := by
  have hmem : i ∈ centred w n i := by
    have : (0 : ℚ) < w := by exact_mod_cast hw
    simp only [centred, Finset.mem_filter, Finset.mem_range]
    exact ⟨hi, by linarith, by linarith⟩
  have h : rolling m w (some 0) n y i = m.eval y (centred w n i) := by
    unfold rolling
    have : ((w : ℚ) - (⌊(w : ℚ)⌋₊ : ℚ)) < 1 / 10 ^ 16 := by rw [Nat.floor_natCast, sub_self]; norm_num
    rw [if_pos this, Nat.floor_natCast, windowInt_eq hw]
    exact if_pos (Nat.zero_le _)
  refine ⟨h, hmem, ?_⟩
  rw [h]
  have hne : (centred w n i).Nonempty := ⟨i, hmem⟩
  cases m <;> simp [Method.eval, hne]

example : rolling .sum 3 (some 0) 5 (fun j => (j : ℚ) ^ 2) 4 = some 25 ∧ centred 3 5 4 = {3, 4} := by
  constructor <;> decide +kernel

/-- **C150** (`min_periods`): a window as long as required gives a value only if all of it is within the series. -/
theorem C150_periods (m : Method) {w : ℕ} (hw : 0 < w) (n : ℕ) (y : ℕ → K) (i : ℕ) :
    (rolling m w none n y i).isSome = true ↔ w ≤ (centred w n i).card := by
  have h : rolling m w none n y i = if w ≤ (centred w n i).card then m.eval y (centred w n i) else none := by
    unfold rolling
    have : ((w : ℚ) - (⌊(w : ℚ)⌋₊ : ℚ)) < 1 / 10 ^ 16 := by rw [Nat.floor_natCast, sub_self]; norm_num
    rw [if_pos this, Nat.floor_natCast, windowInt_eq hw]
    rfl
  rw [h]
  by_cases hc : w ≤ (centred w n i).card
  · rw [if_pos hc]
    have hne : (centred w n i).Nonempty := Finset.card_pos.1 (by omega)
    cases m <;> simp [Method.eval, hne, hc]
  · rw [if_neg hc]; simp [hc]

example : (rolling .mean 3 none 5 (fun j => (j : ℚ)) 4).isSome = false ∧ (rolling .mean 3 none 5 (fun j => (j : ℚ)) 3).isSome = true := by
  constructor <;> decide +kernel

/-! ### Other windows -/

/-- The window which the shift leads to. -/
theorem window_shifted {f : ℚ} (hf : 0 ≤ f) (hb : 1 / 10 ^ 16 ≤ f - ⌊f⌋₊) {n i : ℕ} (h0 : ⌊f⌋₊ ≤ i + ⌊f / 2⌋₊)
    (h1 : i + ⌊f / 2⌋₊ < n) :
    windowTime f n (i + ⌊f / 2⌋₊) = Finset.Ico (i + ⌊f / 2⌋₊ - ⌊f⌋₊) (i + ⌊f / 2⌋₊) := by
  ext j
  have hlt := Nat.lt_floor_add_one f
  have hle := Nat.floor_le hf
  generalize ⌊f⌋₊ = m at *
  generalize i + ⌊f / 2⌋₊ = r at *
  simp only [windowTime, Finset.mem_filter, Finset.mem_range, Finset.mem_Ico]
  constructor
  · rintro ⟨_, h2, h3⟩
    refine ⟨?_, h3⟩
    have : (r : ℚ) < ((j + m + 1 : ℕ) : ℚ) := by push_cast; linarith
    have : r < j + m + 1 := by exact_mod_cast this
    omega
  · rintro ⟨h2, h3⟩
    refine ⟨by omega, ?_, h3⟩
    have : ((r : ℕ) : ℚ) ≤ ((j + m : ℕ) : ℚ) := by exact_mod_cast (by omega : r ≤ j + m)
    push_cast at this
    linarith

theorem half_floor (f : ℚ) : ⌊f / 2⌋₊ = ⌊f⌋₊ / 2 := by
  have := Nat.floor_div_natCast f 2
  push_cast at this
  exact this

variable [IsStrictOrderedRing K]

theorem mean_line (a b : K) (A m : ℕ) (hm : 0 < m) :
    (∑ j ∈ Finset.Ico A (A + m), (a + b * j)) / (m : K) = a + b * (A + ((m : K) - 1) / 2) := by
  have hmK : (m : K) ≠ 0 := by positivity
  have key : ∀ k : ℕ, (∑ j ∈ Finset.Ico A (A + k), (a + b * (j : K))) = k * (a + b * (A + ((k : K) - 1) / 2)) := by
    intro k
    induction k with
    | zero => simp
    | succ k ih =>
      rw [← add_assoc, Finset.sum_Ico_succ_top (by omega), ih]
      push_cast
      ring
  rw [key m]
  field_simp

/-- **C150** fails for windows which are no multiple of the spacing: away from the ends the mean of a straight line is the
line of half a spacing before (even number of values) or of a whole spacing before (odd number). -/
theorem C150_fails_lag {f : ℚ} (hf : 1 ≤ f) (hb : 1 / 10 ^ 16 ≤ f - ⌊f⌋₊) (a b : K) {n i : ℕ} (h0 : ⌊f⌋₊ ≤ i)
    (h1 : i + ⌊f⌋₊ < n) (p : ℕ) (hp : p ≤ ⌊f⌋₊) :
    rolling .mean f (some p) n (fun j => a + b * j) i = some (a + b * (i - if ⌊f⌋₊ % 2 = 0 then 1 / 2 else 1)) := by
  have hf0 : 0 ≤ f := by linarith
  have hm : 1 ≤ ⌊f⌋₊ := Nat.one_le_floor_iff f |>.2 hf
  have hh := half_floor f
  unfold rolling
  rw [if_neg (by linarith), if_pos (by omega), window_shifted hf0 hb (by omega) (by omega), hh]
  generalize ⌊f⌋₊ = m at *
  obtain ⟨A, hA⟩ : ∃ A, A + m = i + m / 2 := ⟨i + m / 2 - m, by omega⟩
  rw [← hA, Nat.add_sub_cancel]
  have hcard : (Finset.Ico A (A + m)).card = m := by rw [Nat.card_Ico]; omega
  have hne : (Finset.Ico A (A + m)).Nonempty := Finset.nonempty_Ico.2 (by omega)
  simp only [Option.getD_some, enough, hcard, if_pos hp, Method.eval, if_pos hne]
  rw [mean_line a b A m (by omega)]
  congr 3
  have h2 : (A : K) + m = i + ((m / 2 : ℕ) : K) := by exact_mod_cast congrArg (Nat.cast (R := K)) hA
  by_cases e : m % 2 = 0
  · rw [if_pos e]
    have : (m : K) = 2 * ((m / 2 : ℕ) : K) := by exact_mod_cast congrArg (Nat.cast (R := K)) (show m = 2 * (m / 2) by omega)
    linear_combination h2 - this / 2
  · rw [if_neg e]
    have : (m : K) = 2 * ((m / 2 : ℕ) : K) + 1 := by
      exact_mod_cast congrArg (Nat.cast (R := K)) (show m = 2 * (m / 2) + 1 by omega)
    linear_combination h2 - this / 2

/-- 3.5 minutes, a line with values every minute. -/
example : rolling .mean (7 / 2) (some 0) 20 (fun j => 5 + 2 * (j : ℚ)) 10 = some (5 + 2 * 9) := by
  have hfl : ⌊(7 / 2 : ℚ)⌋₊ = 3 := by decide +kernel
  have := C150_fails_lag (f := 7 / 2) (K := ℚ) (by norm_num) (by rw [hfl]; norm_num) 5 2 (n := 20) (i := 10)
    (by rw [hfl]; norm_num) (by rw [hfl]; norm_num) 0 (by omega)
  rw [this, hfl]
  norm_num

omit [IsStrictOrderedRing K] in
/-- **C150** fails at the end for these windows: the last values are lost, whatever `min_periods` is. -/
theorem C150_fails_end (m : Method) {f : ℚ} (hb : 1 / 10 ^ 16 ≤ f - ⌊f⌋₊) (p : Option ℕ) {n : ℕ} (y : ℕ → K) {i : ℕ}
    (h : n ≤ i + ⌊f / 2⌋₊) : rolling m f p n y i = none := by
  unfold rolling
  rw [if_neg (by linarith), if_neg (by omega)]

example : rolling .max (9 / 2) (some 0) 20 (fun j => (j : ℚ)) 18 = none := by
  have h1 : ⌊(9 / 2 : ℚ)⌋₊ = 4 := by decide +kernel
  have h2 : ⌊(9 / 2 / 2 : ℚ)⌋₊ = 2 := by decide +kernel
  exact C150_fails_end .max (by rw [h1]; norm_num) _ _ (by rw [h2])

omit [IsStrictOrderedRing K] in
/-- **C150** fails for windows shorter than the spacing: no value is left. -/
theorem C150_fails_short {f : ℚ} (hf : 0 ≤ f) (h : f < 1) (hb : 1 / 10 ^ 16 ≤ f) (p : Option ℕ) (n : ℕ) (y : ℕ → K) (i : ℕ) :
    rolling .mean f p n y i = none ∧ (i < n → i ∈ centred f n i) := by
  have h0 : ⌊f⌋₊ = 0 := Nat.floor_eq_zero.2 h
  have h0' : ⌊f / 2⌋₊ = 0 := Nat.floor_eq_zero.2 (by linarith)
  constructor
  · unfold rolling
    rw [if_neg (by rw [h0]; push_cast; linarith)]
    by_cases hi : i + ⌊f / 2⌋₊ < n
    · rw [if_pos hi, window_shifted hf (by rw [h0]; push_cast; linarith) (by rw [h0]; omega) hi, h0, Nat.sub_zero, Finset.Ico_self]
      simp only [Method.eval, Finset.not_nonempty_empty, if_false, ite_self]
    · rw [if_neg hi]
  · intro hi
    simp only [centred, Finset.mem_filter, Finset.mem_range]
    have : 0 < f := by linarith
    exact ⟨hi, by linarith, by linarith⟩

example : rolling .mean (1 / 2) (some 0) 5 (fun j => (j : ℚ)) 2 = none :=
  (C150_fails_short (by norm_num) (by norm_num) (by norm_num) _ _ _ _).1

/-- **C150** (`min_periods`, other windows): in front of the values lost at the end there is a value exactly if the window
holds as many values as are required, and at least one is required by default. -/
theorem C150_periods_other (m : Method) {f : ℚ} (hf : 1 ≤ f) (hb : 1 / 10 ^ 16 ≤ f - ⌊f⌋₊) {n : ℕ} (y : ℕ → K) {i : ℕ}
    (h : i + ⌊f / 2⌋₊ < n) {p : ℕ} (hp : 0 < p) :
    ((rolling m f (some p) n y i).isSome = true ↔
      p ≤ ((Finset.range n).filter fun j : ℕ => ((i + ⌊f / 2⌋₊ : ℕ) : ℚ) - f ≤ j ∧ j < i + ⌊f / 2⌋₊).card) ∧
    (0 < i + ⌊f / 2⌋₊ → (rolling m f none n y i).isSome = true) := by
  have hev : ∀ w : Finset ℕ, w.Nonempty → (m.eval y w).isSome = true := by
    intro w hw
    cases m <;> simp [Method.eval, hw]
  unfold rolling
  rw [if_neg (not_lt.2 hb), if_pos h, if_neg (not_lt.2 hb), if_pos h]
  dsimp only
  constructor
  · rw [Option.getD_some]
    change _ ↔ enough p (windowTime f n (i + ⌊f / 2⌋₊))
    split_ifs with he
    · refine ⟨fun _ => he, fun _ => hev _ (Finset.card_pos.1 (lt_of_lt_of_le hp he))⟩
    · simpa using he
  · intro h0
    have hne : (windowTime f n (i + ⌊f / 2⌋₊)).Nonempty := by
      refine ⟨i + ⌊f / 2⌋₊ - 1, ?_⟩
      simp only [windowTime, Finset.mem_filter, Finset.mem_range]
      refine ⟨by omega, ?_, by omega⟩
      rw [Nat.cast_sub (by omega)]
      push_cast
      linarith
    rw [Option.getD_none, if_pos (show enough 1 _ from Finset.card_pos.2 hne)]
    exact hev _ hne

/-- A window of 2.5 spacings with at least two values. -/
example : (rolling .max (5 / 2) (some 2) 4 (fun j => (j : ℚ)) 1).isSome = true :=
  (C150_periods_other .max (by norm_num) (by norm_num) _ (by norm_num) (by norm_num)).1.2 (by decide +kernel)

end Verif.RollCentered
