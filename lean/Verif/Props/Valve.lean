import Verif.Model.Valve
import Mathlib.Algebra.Order.Ring.Rat
import Mathlib.Tactic.Linarith
import Mathlib.Tactic.Ring
import Mathlib.Data.List.Induction
import Mathlib.Tactic.NormNum

/-!
# C19, C66: openings of three-way valves
-/

namespace Verif.Valve

variable {K : Type*} [Field K] [LinearOrder K] [IsStrictOrderedRing K]

omit [IsStrictOrderedRing K] in
theorem processCv_range (c : Cfg K) (h : c.llim < c.ulim) (cv : K) :
    c.llim ≤ (processCv c cv).a ∧ (processCv c cv).a ≤ c.ulim := by
  unfold processCv
  dsimp only
  split_ifs with h1 h2
  · exact ⟨le_rfl, h.le⟩
  · exact ⟨h.le, le_rfl⟩
  · exact ⟨not_lt.1 h1, not_lt.1 h2⟩

omit [IsStrictOrderedRing K] in
theorem run_cases (c : Cfg K) (l : List (Act K)) :
    run c l = start c ∨ ∃ cv, run c l = processCv c cv := by
  rcases List.eq_nil_or_concat l with rfl | ⟨l', x, rfl⟩
  · exact Or.inl rfl
  · rw [run, List.concat_eq_append, List.foldl_append, List.foldl_cons, List.foldl_nil]
    cases x with
    | control cv => exact Or.inr ⟨cv, rfl⟩
    | reset => exact Or.inl rfl

/-- **C19** (mixing and splitting valve): after any sequence of controller actions and resets the openings
are between 0 and 1 and add up to 1; after a controller action port A is within the limits. -/
theorem C19_openings_partition (c : Cfg K) (h : accepts3w c) (l : List (Act K)) :
    (0 ≤ (run c l).a ∧ (run c l).a ≤ 1) ∧ (0 ≤ (run c l).b ∧ (run c l).b ≤ 1) ∧
      (run c l).a + (run c l).b = 1 ∧
      ∀ cv, c.llim ≤ (run c (l ++ [.control cv])).a ∧ (run c (l ++ [.control cv])).a ≤ c.ulim := by
  obtain ⟨⟨h1, h2⟩, h3, h4, h5⟩ := h
  have key : (0 ≤ (run c l).a ∧ (run c l).a ≤ 1) ∧ (run c l).b = 1 - (run c l).a := by
    rcases run_cases c l with h | ⟨cv, h⟩
    · rw [h]; exact ⟨⟨h1, h2⟩, rfl⟩
    · rw [h]
      obtain ⟨r1, r2⟩ := processCv_range c h4 cv
      exact ⟨⟨h3.trans r1, r2.trans h5⟩, rfl⟩
  refine ⟨key.1, ?_, ?_, fun cv => ?_⟩
  · rw [key.2]; constructor <;> linarith [key.1.1, key.1.2]
  · rw [key.2]; ring
  · rw [run, List.foldl_append, List.foldl_cons, List.foldl_nil]
    exact processCv_range c h4 cv

example : accepts3w (⟨1 / 2, 1 / 10, 9 / 10⟩ : Cfg ℚ) := by unfold accepts3w; norm_num

omit [IsStrictOrderedRing K] in
/-- **C19** (controller value): the opening of port A is the control value itself whenever that is within
the limits, the nearer limit otherwise. -/
theorem C19_follows_control (c : Cfg K) (h : accepts3w c) (l : List (Act K)) (cv : K) :
    (run c (l ++ [.control cv])).a = max c.llim (min c.ulim cv) := by
  rw [run, List.foldl_append, List.foldl_cons, List.foldl_nil]
  have h4 := h.2.2.1
  show (processCv c cv).a = _
  unfold processCv
  dsimp only
  split_ifs with h1 h2
  · rw [min_eq_right (h1.trans h4).le, max_eq_left h1.le]
  · rw [min_eq_left h2.le, max_eq_right h4.le]
  · rw [min_eq_right (not_lt.1 h2), max_eq_right (not_lt.1 h1)]

example : accepts3w (⟨0, 0, 1⟩ : Cfg ℚ) := by unfold accepts3w; norm_num

omit [IsStrictOrderedRing K] in
theorem runPipe_cases (c : Cfg K) (l : List (Act K)) :
    runPipe c l = start c ∨ ∃ cv, runPipe c l = processCv c cv := by
  induction l using List.reverseRecOn with
  | nil => exact Or.inl rfl
  | append_singleton l x ih =>
    rw [runPipe, List.foldl_append, List.foldl_cons, List.foldl_nil]
    cases x with
    | control cv => exact Or.inr ⟨cv, rfl⟩
    | reset => exact ih

/-- **C19** (pipe with valve, partial): the openings always add up to 1; they are between 0 and 1 provided the
limits are.  Missing: the limits are not checked, see `C19_fails_pipe_with_valve`. -/
theorem C19_pipe_with_valve_partial (c : Cfg K) (h : acceptsPipe c) (l : List (Act K)) :
    (runPipe c l).a + (runPipe c l).b = 1 ∧
    (0 ≤ c.llim → c.llim < c.ulim → c.ulim ≤ 1 →
      (0 ≤ (runPipe c l).a ∧ (runPipe c l).a ≤ 1) ∧ (0 ≤ (runPipe c l).b ∧ (runPipe c l).b ≤ 1)) := by
  constructor
  · rcases runPipe_cases c l with h | ⟨cv, h⟩ <;> rw [h]
    · simp [start]
    · simp [processCv]
  · intro h3 h4 h5
    have key : (0 ≤ (runPipe c l).a ∧ (runPipe c l).a ≤ 1) ∧ (runPipe c l).b = 1 - (runPipe c l).a := by
      rcases runPipe_cases c l with h' | ⟨cv, h'⟩
      · rw [h']; exact ⟨h, rfl⟩
      · rw [h']
        obtain ⟨r1, r2⟩ := processCv_range c h4 cv
        exact ⟨⟨h3.trans r1, r2.trans h5⟩, rfl⟩
    refine ⟨key.1, ?_⟩
    rw [key.2]; constructor <;> linarith [key.1.1, key.1.2]

example : acceptsPipe (⟨1, -3, 7⟩ : Cfg ℚ) := by unfold acceptsPipe; norm_num

/-- The pipe with valve accepts limits outside 0..1: the controller can then open port A to 200 % and port
B to -100 %. -/
theorem C19_fails_pipe_with_valve : ∃ c : Cfg ℚ, acceptsPipe c ∧
    (runPipe c [.control 2]).a = 2 ∧ (runPipe c [.control 2]).b = -1 := by
  refine ⟨⟨1 / 2, 0, 2⟩, by unfold acceptsPipe; norm_num, ?_, ?_⟩ <;>
    norm_num [runPipe, actPipe, processCv, start]

/-! ## C66 -/

omit [IsStrictOrderedRing K] in
/-- **C66** (partial): if the topology check passes, the limits are sensible and the initial opening is not
zero, then port A can be divided by at all times. -/
theorem C66_divisor_port_A_partial (c : Cfg K) (h : accepts3w c) (hd : divisionCheck c)
    (hi : c.init ≠ 0) (l : List (Act K)) : (run c l).a ≠ 0 := by
  rcases run_cases c l with h' | ⟨cv, h'⟩
  · rw [h']; exact hi
  · rw [h']
    obtain ⟨r1, -⟩ := processCv_range c h.2.2.1 cv
    exact ((h.2.1.lt_of_ne hd.1.symm).trans_le r1).ne'

example : accepts3w (⟨1 / 2, 1 / 100, 1⟩ : Cfg ℚ) ∧ divisionCheck (⟨1 / 2, 1 / 100, 1⟩ : Cfg ℚ) := by
  unfold accepts3w divisionCheck; norm_num

/-- The check looks at the limits of port A only.  If the flow is calculated from port B, its opening
`1 - upper_limit` may be zero although the check passed. -/
theorem C66_fails_port_B : ∃ c : Cfg ℚ, accepts3w c ∧ divisionCheck c ∧ (run c [.control 1]).b = 0 := by
  refine ⟨⟨1 / 2, 1 / 100, 1⟩, by unfold accepts3w; norm_num, by unfold divisionCheck; norm_num, ?_⟩
  norm_num [run, act, processCv, start]

/-- The check ignores the initial opening. -/
theorem C66_fails_initial_opening : ∃ c : Cfg ℚ, accepts3w c ∧ divisionCheck c ∧ (run c []).a = 0 :=
  ⟨⟨0, 1 / 100, 1⟩, by unfold accepts3w; norm_num, by unfold divisionCheck; norm_num, rfl⟩

end Verif.Valve
