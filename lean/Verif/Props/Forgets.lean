import Verif.Props.StepFree

/-!
# C209: anti-windup limits the memory of a controller
-/

set_option linter.unusedSectionVars false

namespace Verif.Controls

variable {K : Type*} [Field K] [LinearOrder K] [IsStrictOrderedRing K]

/-- Specification: the duration of a part of a history. -/
def lasting (is : List (Inp K)) : K := (is.map Inp.dt).sum

section Forget

variable {c : Cfg K} {p : Pid K}

theorem pi_iTerm (hs : c.slope = none) (ht : c.steady = false) (hd : c.discrete = false) (hkd : p.kd = 0) {s s' : St K} (i : Inp K)
    (h : s.iTerm = s'.iTerm) :
    (ctrl c (p.run c) i s).iTerm = (ctrl c (p.run c) i s').iTerm ∧ (ctrl c (p.run c) i s).cv = (ctrl c (p.run c) i s').cv ∧
      (ctrl c (p.run c) i s).act = (ctrl c (p.run c) i s').act := by
  obtain ⟨a1, a2, a3⟩ := pi_call hs ht hd hkd i s
  obtain ⟨b1, b2, b3⟩ := pi_call hs ht hd hkd i s'
  have e2 : (ctrl c (p.run c) i s).cv = (ctrl c (p.run c) i s').cv := by rw [a2, b2, h]
  exact ⟨by rw [a1, b1, h], e2, by rw [a3, b3, e2]⟩

/-- From equal integrals on, nothing distinguishes two controllers after their next call. -/
theorem pi_same (hs : c.slope = none) (ht : c.steady = false) (hd : c.discrete = false) (hkd : p.kd = 0) (ks : List (Inp K)) :
    ∀ {s s' : St K} (k : Inp K), s.iTerm = s'.iTerm →
    (calls c (p.run c) s (k :: ks)).cv = (calls c (p.run c) s' (k :: ks)).cv ∧
      (calls c (p.run c) s (k :: ks)).act = (calls c (p.run c) s' (k :: ks)).act := by
  induction ks with
  | nil =>
    intro s s' k h
    exact (pi_iTerm hs ht hd hkd k h).2
  | cons k' ks ih =>
    intro s s' k h
    exact ih k' (pi_iTerm hs ht hd hkd k h).1

theorem clipAw_some {a x : K} (ha : 0 ≤ a) : clipAw (some a) x = max (-a) (min a x) := by
  unfold clipAw
  dsimp only
  split_ifs with h1 h2
  · rw [min_eq_right (by linarith), max_eq_left h1.le]
  · rw [min_eq_left h2.le, max_eq_right (by linarith)]
  · rw [min_eq_right (not_lt.mp h2), max_eq_right (not_lt.mp h1)]

theorem pi_within (hs : c.slope = none) (ht : c.steady = false) (hd : c.discrete = false) (hkd : p.kd = 0) {a : K} (ha : 0 ≤ a)
    (hp : p.aw = some a) (is : List (Inp K)) : ∀ {s : St K}, (-a ≤ s.iTerm ∧ s.iTerm ≤ a) →
    -a ≤ (calls c (p.run c) s is).iTerm ∧ (calls c (p.run c) s is).iTerm ≤ a := by
  induction is with
  | nil => intro s h; exact h
  | cons i is ih =>
    intro s h
    refine ih ?_
    rw [(pi_call hs ht hd hkd i s).1, hp]
    split_ifs
    · exact ⟨by linarith, ha⟩
    · rw [clipAw_some ha]
      exact ⟨le_max_left _ _, max_le (by linarith) (min_le_left _ _)⟩

/-- Two integrals are driven to the same limit from above. -/
theorem pi_down (hs : c.slope = none) (ht : c.steady = false) (hd : c.discrete = false) (hkd : p.kd = 0) {a ε : K} (ha : 0 ≤ a)
    (hε : 0 ≤ ε) (hp : p.aw = some a) (js : List (Inp K)) : ∀ {s s' : St K} (τ : K), (∀ j ∈ js, 0 ≤ j.dt ∧ j.error ≤ -ε) →
    (s.iTerm = s'.iTerm ∨ s.iTerm ≤ max (-a) (a - ε * τ) ∧ s'.iTerm ≤ max (-a) (a - ε * τ)) →
    (calls c (p.run c) s js).iTerm = (calls c (p.run c) s' js).iTerm ∨
      (calls c (p.run c) s js).iTerm ≤ max (-a) (a - ε * (τ + lasting js)) ∧
      (calls c (p.run c) s' js).iTerm ≤ max (-a) (a - ε * (τ + lasting js)) := by
  induction js with
  | nil =>
    intro s s' τ _ h
    simpa [lasting, calls] using h
  | cons j js ih =>
    intro s s' τ hj h
    obtain ⟨h1, h2⟩ := hj j (by simp)
    have e : τ + lasting (j :: js) = (τ + j.dt) + lasting js := by
      unfold lasting
      rw [List.map_cons, List.sum_cons]
      ring
    rw [e]
    refine ih (τ + j.dt) (fun k hk => hj k (List.mem_cons_of_mem _ hk)) ?_
    rcases h with h | ⟨ha1, ha2⟩
    · exact .inl (pi_iTerm hs ht hd hkd j h).1
    · obtain ⟨a1, -, -⟩ := pi_call hs ht hd hkd j s
      obtain ⟨b1, -, -⟩ := pi_call hs ht hd hkd j s'
      by_cases ho : offByMaster c j = true
      · left
        rw [a1, b1, if_pos ho, if_pos ho]
      · right
        rw [if_neg ho, hp, clipAw_some ha] at a1 b1
        have hm : j.dt * j.error ≤ -(ε * j.dt) := by nlinarith
        have hm0 : 0 ≤ ε * j.dt := mul_nonneg hε h1
        have key : ∀ x : K, x ≤ max (-a) (a - ε * τ) → max (-a) (min a (j.dt * j.error + x)) ≤ max (-a) (a - ε * (τ + j.dt)) := by
          intro x hx
          refine max_le (le_max_left _ _) (le_trans (min_le_right _ _) ?_)
          rcases le_max_iff.1 hx with q | q
          · exact le_max_of_le_left (by linarith)
          · refine le_max_of_le_right ?_
            rw [mul_add]
            linarith
        rw [a1, b1]
        exact ⟨key _ ha1, key _ ha2⟩

/-- Two integrals are driven to the same limit from below. -/
theorem pi_up (hs : c.slope = none) (ht : c.steady = false) (hd : c.discrete = false) (hkd : p.kd = 0) {a ε : K} (ha : 0 ≤ a)
    (hε : 0 ≤ ε) (hp : p.aw = some a) (js : List (Inp K)) : ∀ {s s' : St K} (τ : K), (∀ j ∈ js, 0 ≤ j.dt ∧ ε ≤ j.error) →
    (s.iTerm = s'.iTerm ∨ min a (ε * τ - a) ≤ s.iTerm ∧ min a (ε * τ - a) ≤ s'.iTerm) →
    (calls c (p.run c) s js).iTerm = (calls c (p.run c) s' js).iTerm ∨
      min a (ε * (τ + lasting js) - a) ≤ (calls c (p.run c) s js).iTerm ∧
      min a (ε * (τ + lasting js) - a) ≤ (calls c (p.run c) s' js).iTerm := by
  induction js with
  | nil =>
    intro s s' τ _ h
    simpa [lasting, calls] using h
  | cons j js ih =>
    intro s s' τ hj h
    obtain ⟨h1, h2⟩ := hj j (by simp)
    have e : τ + lasting (j :: js) = (τ + j.dt) + lasting js := by
      unfold lasting
      rw [List.map_cons, List.sum_cons]
      ring
    rw [e]
    refine ih (τ + j.dt) (fun k hk => hj k (List.mem_cons_of_mem _ hk)) ?_
    rcases h with h | ⟨ha1, ha2⟩
    · exact .inl (pi_iTerm hs ht hd hkd j h).1
    · obtain ⟨a1, -, -⟩ := pi_call hs ht hd hkd j s
      obtain ⟨b1, -, -⟩ := pi_call hs ht hd hkd j s'
      by_cases ho : offByMaster c j = true
      · left
        rw [a1, b1, if_pos ho, if_pos ho]
      · right
        rw [if_neg ho, hp, clipAw_some ha] at a1 b1
        have hm : ε * j.dt ≤ j.dt * j.error := by nlinarith
        have hm0 : 0 ≤ ε * j.dt := mul_nonneg hε h1
        have key : ∀ x : K, min a (ε * τ - a) ≤ x → min a (ε * (τ + j.dt) - a) ≤ max (-a) (min a (j.dt * j.error + x)) := by
          intro x hx
          refine le_max_of_le_right (le_min (min_le_left _ _) ?_)
          rcases min_le_iff.1 hx with q | q
          · exact min_le_of_left_le (by linarith)
          · refine min_le_of_right_le ?_
            rw [mul_add]
            linarith
        rw [a1, b1]
        exact ⟨key _ ha1, key _ ha2⟩

/-- **C209**, partial: once the deviation has been at least `ε`, of one sign, for `2 * anti_windup / ε` seconds, a PI controller in
continuous time acts as if its history before had been any other one, in all calls that follow.  Missing: derivative parts, slope limits
and discrete time; without anti-windup the memory has no limit (`C209_fails_unlimited`). -/
theorem C209_forgets_partial (hs : c.slope = none) (ht : c.steady = false) (hd : c.discrete = false) (hkd : p.kd = 0) {a ε : K}
    (ha : 0 ≤ a) (hε : 0 < ε) (hp : p.aw = some a) (act act' : K) (is is' js : List (Inp K)) (hpos : ∀ j ∈ js, 0 ≤ j.dt)
    (hj : (∀ j ∈ js, j.error ≤ -ε) ∨ ∀ j ∈ js, ε ≤ j.error) (hlong : 2 * a / ε ≤ lasting js) (k : Inp K) (ks : List (Inp K)) :
    (calls c (p.run c) (St.init act) (is ++ js ++ k :: ks)).cv = (calls c (p.run c) (St.init act') (is' ++ js ++ k :: ks)).cv ∧
      (calls c (p.run c) (St.init act) (is ++ js ++ k :: ks)).act =
        (calls c (p.run c) (St.init act') (is' ++ js ++ k :: ks)).act := by
  have split : ∀ (s : St K) (u v w : List (Inp K)), calls c (p.run c) s (u ++ v ++ w) =
      calls c (p.run c) (calls c (p.run c) (calls c (p.run c) s u) v) w := by
    intro s u v w
    unfold calls
    rw [List.foldl_append, List.foldl_append]
  rw [split, split]
  refine pi_same hs ht hd hkd ks k ?_
  have h0 : ∀ b : K, -a ≤ (St.init b).iTerm ∧ (St.init b).iTerm ≤ a := fun b => ⟨neg_nonpos.2 ha, ha⟩
  have w1 := pi_within hs ht hd hkd ha hp is (h0 act)
  have w2 := pi_within hs ht hd hkd ha hp is' (h0 act')
  have v1 := pi_within hs ht hd hkd ha hp js w1
  have v2 := pi_within hs ht hd hkd ha hp js w2
  have long : 2 * a ≤ ε * lasting js := by
    rw [div_le_iff₀ hε] at hlong
    linarith
  rcases hj with hj | hj
  · rcases pi_down hs ht hd hkd ha hε.le hp js (s := calls c (p.run c) (St.init act) is) (s' := calls c (p.run c) (St.init act') is')
      0 (fun j h => ⟨hpos j h, hj j h⟩) (.inr ⟨by simpa using .inr w1.2, by simpa using .inr w2.2⟩) with h | ⟨q1, q2⟩
    · exact h
    · rw [zero_add, max_eq_left (by linarith)] at q1 q2
      rw [le_antisymm q1 v1.1, le_antisymm q2 v2.1]
  · rcases pi_up hs ht hd hkd ha hε.le hp js (s := calls c (p.run c) (St.init act) is) (s' := calls c (p.run c) (St.init act') is')
      0 (fun j h => ⟨hpos j h, hj j h⟩) (.inr ⟨by simpa using .inr w1.1, by simpa using .inr w2.1⟩) with h | ⟨q1, q2⟩
    · exact h
    · rw [zero_add, min_eq_left (by linarith)] at q1 q2
      rw [le_antisymm v1.2 q1, le_antisymm v2.2 q2]

end Forget

/-- An anti-windup of 2 and deviations of -1: 4 s are enough, 3 s are not. -/
example : let p : Pid ℚ := ⟨0, 1, 0, some 2, none⟩
    let c := stepCfg false false
    (2 * 2 / 1 : ℚ) ≤ lasting [stepInp 1 (-1), stepInp 3 (-1)] ∧
    (calls c (p.run c) (St.init 0) ([stepInp 9 5] ++ [stepInp 1 (-1), stepInp 3 (-1)] ++ [stepInp 1 1])).cv = -1 ∧
    (calls c (p.run c) (St.init 0) ([stepInp 9 (-5)] ++ [stepInp 1 (-1), stepInp 3 (-1)] ++ [stepInp 1 1])).cv = -1 ∧
    (calls c (p.run c) (St.init 0) ([stepInp 9 5] ++ [stepInp 3 (-1)] ++ [stepInp 1 1])).cv = 0 ∧
    (calls c (p.run c) (St.init 0) ([stepInp 9 (-5)] ++ [stepInp 3 (-1)] ++ [stepInp 1 1])).cv = -1 := by
  decide +kernel

/-- **C209** fails without anti-windup: however long it has been too hot, there is a history after which the controller still heats at
full power. -/
theorem C209_fails_unlimited (T : ℚ) : let p : Pid ℚ := ⟨0, 1, 0, none, none⟩
    let c := stepCfg false false
    (calls c (p.run c) (St.init 0) [stepInp (T + 20) 1, stepInp T (-1)]).act = 10 := by
  intro p c
  obtain ⟨a1, -, -⟩ := pi_call (c := c) (p := p) rfl rfl rfl rfl (stepInp (T + 20) 1) (St.init 0)
  obtain ⟨-, b2, b3⟩ := pi_call (c := c) (p := p) rfl rfl rfl rfl (stepInp T (-1)) (ctrl c (p.run c) (stepInp (T + 20) 1) (St.init 0))
  show (ctrl c (p.run c) (stepInp T (-1)) (ctrl c (p.run c) (stepInp (T + 20) 1) (St.init 0))).act = 10
  rw [b3, b2, a1]
  norm_num [p, c, stepCfg, stepInp, offByMaster, clipAw, clipSat, clip, inv, St.init]

end Verif.Controls
