import Verif.Model.NanCheck
import Verif.Props.TimeLoop
import Mathlib.Tactic.Linarith
import Mathlib.Tactic.Positivity
import Mathlib.Data.Rat.Cast.Order

/-!
# C94–C95: invalid values stop a simulation, and a reset repeats it
-/

namespace Verif.NanCheck

variable {K : Type*}

/-- A part has an invalid temperature. -/
def SpoiledT (p : PartState K) : Prop := none ∈ p.T

/-- A part has an invalid mass flow. -/
def SpoiledDm (p : PartState K) : Prop := none ∈ p.dm

theorem anyNan_iff (l : List (Option K)) : anyNan l = true ↔ none ∈ l := by
  unfold anyNan
  rw [List.any_eq_true]
  constructor
  · rintro ⟨x, hx, h⟩
    rw [Option.isNone_iff_eq_none.1 h] at hx
    exact hx
  · intro h
    exact ⟨none, h, rfl⟩

theorem isAnyNan_iff (p : PartState K) : isAnyNan p = true ↔ SpoiledT p ∧ SpoiledDm p := by
  unfold isAnyNan
  rw [Bool.and_eq_true, anyNan_iff, anyNan_iff]
  rfl

theorem any_iff (parts : List (PartState K)) :
    parts.any isAnyNan = true ↔ ∃ p ∈ parts, SpoiledT p ∧ SpoiledDm p := by
  rw [List.any_eq_true]
  simp only [isAnyNan_iff]

/-- **C94 (exactly when the check fires).** The simulation goes on after a step unless the number of
steps stored on disk is a multiple of 5000 and some part has both an invalid temperature and an
invalid mass flow. -/
theorem C94_goes_on_iff (total rows : ℕ) (parts : List (PartState K)) :
    nanCheck total rows parts = .goesOn ↔
      ¬ (5000 ∣ total ∧ ∃ p ∈ parts, SpoiledT p ∧ SpoiledDm p) := by
  rw [← any_iff, Nat.dvd_iff_mod_eq_zero]
  unfold nanCheck
  cases h1 : parts.any isAnyNan <;> by_cases h2 : total % 5000 = 0
  · simp [h2]
  · simp [h2]
  · simp only [h2, BEq.rfl, Bool.true_and, cond_true]
    cases (validIdx rows ((total : ℤ) - 5000) && validIdx rows (total : ℤ)) <;> simp
  · have h3 : (total % 5000 == 0) = false := by simpa using h2
    simp [h2, h3]

/-- **C94 (what holds).** In a run with result arrays of at least 5000 rows, before anything was
stored on disk, a part with both an invalid temperature and an invalid mass flow stops the
simulation. -/
theorem C94_stops_partial (rows : ℕ) (hr : 5000 ≤ rows) (parts : List (PartState K))
    (h : ∃ p ∈ parts, SpoiledT p ∧ SpoiledDm p) : nanCheck 0 rows parts = .stopped := by
  have h1 := (any_iff parts).2 h
  have h2 : validIdx rows (-5000) = true := by
    unfold validIdx
    rw [Bool.and_eq_true, decide_eq_true_iff, decide_eq_true_iff]
    constructor <;> omega
  have h3 : validIdx rows 0 = true := by
    unfold validIdx
    rw [Bool.and_eq_true, decide_eq_true_iff, decide_eq_true_iff]
    constructor <;> omega
  unfold nanCheck
  simp [h1, h2, h3]

/-- **C94 fails for invalid temperatures.** With valid mass flows no invalid temperature is ever
noticed, however many there are. -/
theorem C94_fails_temperatures_only (total rows : ℕ) (parts : List (PartState K))
    (h : ∀ p ∈ parts, ¬ SpoiledDm p) : nanCheck total rows parts = .goesOn := by
  rw [C94_goes_on_iff]
  rintro ⟨_, p, hp, _, h2⟩
  exact h p hp h2

/-- **C94 fails after results were stored.** As long as the number of stored steps is no multiple of
5000 nothing is checked: with disk saving every `n` steps and `k` blocks stored, the check is off
unless 5000 divides `k * n`. -/
theorem C94_fails_between_blocks (n k rows : ℕ) (h : ¬ 5000 ∣ k * n)
    (parts : List (PartState K)) : nanCheck (k * n) rows parts = .goesOn := by
  rw [C94_goes_on_iff]
  rintro ⟨h1, _⟩
  exact h h1

/-- **C94 fails in short runs.** With result arrays of fewer than 5000 rows (a time frame below
50 s) the message about the invalid value itself raises an `IndexError`, and the results are lost. -/
theorem C94_fails_short_run (rows : ℕ) (hr : rows < 5000) (parts : List (PartState K))
    (h : ∃ p ∈ parts, SpoiledT p ∧ SpoiledDm p) : nanCheck 0 rows parts = .indexError := by
  have h1 := (any_iff parts).2 h
  have h2 : validIdx rows (-5000) = false := by
    unfold validIdx
    rw [Bool.and_eq_false_iff, decide_eq_false_iff_not]
    left
    omega
  unfold nanCheck
  simp [h1, h2]

/-- A part with an invalid temperature and valid mass flow, and one with both invalid. -/
example : nanCheck 0 6000 [(⟨[some 20, none], [some 1]⟩ : PartState ℚ)] = .goesOn ∧
    nanCheck 0 6000 [(⟨[some 20, none], [none]⟩ : PartState ℚ)] = .stopped ∧
    nanCheck 0 4000 [(⟨[some 20, none], [none]⟩ : PartState ℚ)] = .indexError := by
  decide +kernel

example : SpoiledT (⟨[some 20, none], [some 1]⟩ : PartState ℚ) ∧
    ¬ SpoiledDm (⟨[some 20, none], [some 1]⟩ : PartState ℚ) := by
  simp [SpoiledT, SpoiledDm]

/-! ## C95 -/

open Verif.TimeLoop

/-- **C95 (what holds).** If no invalid value was found, a reset keeps the time frame. -/
theorem C95_reset_keeps_timeframe_partial (tf : ℚ) (total rows : ℕ) (parts : List (PartState K))
    (h : nanCheck total rows parts = .goesOn) :
    resetTimeframe (timeframeAfter tf (nanCheck total rows parts)) = tf := by
  rw [h]; rfl

/-- **C95 fails after a stop.** After the simulation was stopped because of an invalid value, a
reset and a new start end after a single step, whatever the time frame was (steps are never shorter
than `min_stepsize`, by default `1e-8`). -/
theorem C95_fails_after_stop (tf : ℚ) (total rows : ℕ) (parts : List (PartState K))
    (h : nanCheck total rows parts = .stopped) {hs : List ℚ} {t : ℚ}
    (hr : Runs (resetTimeframe (timeframeAfter tf (nanCheck total rows parts))) 0 hs t)
    (hm : ∀ x ∈ hs, 1 / 10 ^ 8 ≤ x) : hs.length = 1 := by
  rw [h] at hr
  unfold resetTimeframe timeframeAfter at hr
  cases hr with
  | stop h0 => exact absurd (by positivity) h0
  | step h0 h1 =>
    rename_i x xs
    have hx := hm x (by simp)
    cases h1 with
    | stop _ => rfl
    | step h2 _ =>
      exfalso
      have : (1 : ℚ) / 10 ^ 9 < 1 / 10 ^ 8 := by norm_num
      linarith

/-- Such a run exists: one step of 1 s. -/
example : Runs (resetTimeframe (timeframeAfter (86400 : ℚ)
    (nanCheck 0 6000 [(⟨[some 20, none], [none]⟩ : PartState ℚ)]))) 0 [1] 1 := by
  have : nanCheck 0 6000 [(⟨[some 20, none], [none]⟩ : PartState ℚ)] = .stopped := by
    decide +kernel
  rw [this]
  unfold resetTimeframe timeframeAfter
  refine .step (by positivity) ?_
  have h : ¬ ((0 : ℚ) + 1 < 1 / 10 ^ 9) := by norm_num
  simpa using Runs.stop h

end Verif.NanCheck
