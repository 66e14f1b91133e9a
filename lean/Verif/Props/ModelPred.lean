import Verif.Model.ModelPred
import Mathlib.Algebra.Order.Field.Rat
import Mathlib.Tactic.Linarith
import Mathlib.Tactic.Ring
import Mathlib.Tactic.NormNum
import Mathlib.Tactic.Positivity

/-!
# C49, C74-C78: predictive CHP controller
-/

set_option linter.unusedSectionVars false

namespace Verif.ModelPred

variable {K : Type*} [Field K] [LinearOrder K] [IsStrictOrderedRing K]

/-! ## C49 -/

/-- **C49** (the value that is used): whatever the optimiser returns, NaN included, and whatever the previous
result, the modulation taken from a plan is 0 or between the lower limit and 1. -/
theorem C49_used_entry (c : Cfg K) (hc : c.Ok) (prev : K) (x : Option K) :
    clipCont c prev x = 0 ∨ c.lo ≤ clipCont c prev x ∧ clipCont c prev x ≤ 1 := by
  have key : ∀ thr, clipTo c.lo thr x = 0 ∨ c.lo ≤ clipTo c.lo thr x ∧ clipTo c.lo thr x ≤ 1 := by
    intro thr
    have hlo : c.lo ≤ 1 := hc.loUp.trans hc.up
    cases x with
    | none => exact .inl rfl
    | some x =>
      dsimp only [clipTo]
      split_ifs with h1 h2 h3
      · exact .inr h1
      · exact .inr ⟨hlo, le_rfl⟩
      · exact .inr ⟨le_rfl, hlo⟩
      · exact .inl rfl
  unfold clipCont
  split_ifs <;> exact key _

/-- **C49** (no needless changes): of all allowed modulations, the one that is nearest to the result of the optimiser is
taken; only a plant that is off and controlled continuously is not started unless the result reaches the lower limit
up to one percent. -/
theorem C49_nearest (c : Cfg K) (hc : c.Ok) (h0 : 0 < c.lo) (prev x : K) :
    (¬ (c.cont = true ∧ prev < c.lo) → ∀ y, y = 0 ∨ c.lo ≤ y ∧ y ≤ 1 → |clipCont c prev (some x) - x| ≤ |y - x|) ∧
      (c.cont = true → prev < c.lo → (clipCont c prev (some x) ≠ 0 ↔ c.lo - 1 / 100 ≤ x)) := by
  constructor
  · intro h y hy
    rw [clipCont, if_neg (by rwa [not_le]), clipTo]
    split_ifs with h1 h2 h3
    · simp
    · rw [abs_of_neg (by linarith : 1 - x < 0)]
      rcases hy with rfl | hy
      · rw [abs_of_neg (by linarith)]; linarith
      · rw [abs_of_neg (by linarith)]; linarith
    · have hx : x < c.lo := by
        by_contra h4
        exact h1 ⟨not_lt.1 h4, not_lt.1 h2⟩
      rw [abs_of_pos (by linarith)]
      rcases hy with rfl | hy
      · rw [zero_sub, abs_neg]
        exact le_trans (by linarith) (le_abs_self x)
      · rw [abs_of_pos (by linarith)]; linarith
    · have hx := not_le.1 h3
      rcases hy with rfl | hy
      · exact le_rfl
      · rw [abs_of_pos (by linarith : 0 < y - x), zero_sub, abs_neg]
        exact abs_le.2 ⟨by linarith, by linarith⟩
  · intro h1 h2
    rw [clipCont, if_pos ⟨h1, not_le.2 h2⟩, clipTo]
    split_ifs with h3 h4 h5
    · exact ⟨fun _ => by linarith, fun _ => by linarith [h3.1]⟩
    · exact ⟨fun _ => by linarith [hc.loUp, hc.up], fun _ => one_ne_zero⟩
    · exact ⟨fun _ => h5, fun _ => h0.ne'⟩
    · exact ⟨fun h => absurd rfl h, fun h => absurd h h5⟩

/-- **C49**, partial (the plan used to judge the storage): entry by entry the clipped plan is 0 or between the
lower limit and 1 if the lower limit is at most 0.5.  Missing: higher limits (`C49_fails_plan`). -/
theorem C49_plan_partial {lo atol : K} (h : lo ≤ 1 / 2) (xs : List K) :
    ∀ y ∈ xs.map (clipEntry lo atol), y = 0 ∨ lo ≤ y ∧ y ≤ 1 := by
  intro y hy
  obtain ⟨x, -, rfl⟩ := List.mem_map.1 hy
  have hlo : lo ≤ 1 := by linarith
  unfold clipEntry
  dsimp only
  generalize (if x < lo - atol then 0 else x) = z
  by_cases h1 : z < lo ∧ z ≠ 0
  · rw [if_pos h1, if_neg (by norm_num)]
    exact .inr ⟨h, by norm_num⟩
  · rw [if_neg h1]
    by_cases h2 : 1 < z
    · rw [if_pos h2]
      exact .inr ⟨hlo, le_rfl⟩
    · rw [if_neg h2]
      by_cases h3 : z = 0
      · exact .inl h3
      · exact .inr ⟨by
          by_contra h4
          exact h1 ⟨not_le.1 h4, h3⟩, not_lt.1 h2⟩

/-- **C49** is false of the clipped plan: with modulation limits of 60 % and 100 % the entry 59.5 % becomes 50 %. -/
theorem C49_fails_plan : clipEntry (6 / 10 : ℚ) (1 / 100) (595 / 1000) = 1 / 2 := by decide +kernel

/-! ## C74 -/

/-- Invariant: the current long-term value is 0 or at least the lower limit. -/
def Good (c : Cfg K) (s : St K) : Prop := s.opt = 0 ∨ c.lo ≤ s.opt

theorem adaptCap_opt (b : Bool) (i : Inp K) (s : St K) : (adaptCap b i s).opt = s.opt := by
  unfold adaptCap
  split_ifs <;> rfl

theorem adaptCap_cv (b : Bool) (i : Inp K) (s : St K) : (adaptCap b i s).cv = s.cv := by
  unfold adaptCap
  split_ifs <;> rfl

theorem adaptCap_emergOn (b : Bool) (i : Inp K) (s : St K) : (adaptCap b i s).emergOn = s.emergOn := by
  unfold adaptCap
  split_ifs <;> rfl

theorem restoreCaps_opt (c : Cfg K) (i : Inp K) (s : St K) : (restoreCaps c i s).opt = s.opt := by
  unfold restoreCaps
  split_ifs <;> rfl

theorem restoreCaps_cv (c : Cfg K) (i : Inp K) (s : St K) : (restoreCaps c i s).cv = s.cv := by
  unfold restoreCaps
  split_ifs <;> rfl

theorem restoreCaps_emergOn (c : Cfg K) (i : Inp K) (s : St K) : (restoreCaps c i s).emergOn = s.emergOn := by
  unfold restoreCaps
  split_ifs <;> rfl

theorem second_opt (c : Cfg K) (i : Inp K) (e : Bool) (s : St K) :
    (second c i e s).opt = if i.due = true ∧ e = false then clipCont c s.ltPrev i.plan else s.opt := by
  unfold second finalizeStep
  cases i.due <;> cases e <;> simp [restoreCaps_opt]

theorem second_cv (c : Cfg K) (i : Inp K) (e : Bool) (s : St K) : (second c i e s).cv = s.cv := by
  unfold second finalizeStep
  cases i.due <;> cases e <;> simp [restoreCaps_cv]

theorem second_emergOn (c : Cfg K) (i : Inp K) (e : Bool) (s : St K) :
    (second c i e s).emergOn = s.emergOn := by
  unfold second finalizeStep
  cases i.due <;> cases e <;> simp [restoreCaps_emergOn]

/-- What the emergency control does to the value in use and the control value. -/
theorem emergency_cases (c : Cfg K) (i : Inp K) (s : St K) :
    (c.two.off i.base ∧ (emergency c i s).opt = c.base.off ∧ (emergency c i s).cv = c.base.off ∧
      (emergency c i s).emergOn = false ∧ emerg c i s = true) ∨
    (¬ c.two.off i.base ∧ on c i s ∧
      (emergency c i s).opt = (if full c i then c.base.satMax * 2 else c.base.satMax) ∧
      (emergency c i s).cv = c.base.satMax ∧ (emergency c i s).emergOn = true ∧ emerg c i s = true) ∨
    (¬ c.two.off i.base ∧ ¬ on c i s ∧ (emergency c i s).opt = s.opt ∧ (emergency c i s).cv = s.cv ∧
      emerg c i s = false) := by
  unfold emergency deactivate
  by_cases h1 : c.two.off i.base
  · refine .inl ⟨h1, ?_, ?_, ?_, ?_⟩
    · simp [h1, adaptCap_opt]
    · simp [h1, adaptCap_cv]
    · simp [h1, adaptCap_emergOn]
    · simp [emerg, h1]
  · rw [if_neg h1]
    unfold activate
    by_cases h2 : on c i s
    · rw [if_pos h2]
      refine .inr (.inl ⟨h1, h2, ?_, ?_, ?_, ?_⟩)
      · simp [adaptCap_opt]
      · simp [adaptCap_cv]
      · simp [adaptCap_emergOn]
      · simp [emerg, h2]
    · rw [if_neg h2]
      refine .inr (.inr ⟨h1, h2, rfl, rfl, ?_⟩)
      simp [emerg, h1, h2]

/-- The assumptions on the settings under which the controller is meant to work: the plant is off at 0 and the
saturation covers the modulation range. -/
structure Sensible (c : Cfg K) : Prop where
  ok : c.Ok
  off : c.base.off = 0
  satMin : c.base.satMin ≤ 0
  satMax : c.lo ≤ c.base.satMax
  invert : c.base.invert = false

theorem clipSat_range {c : Controls.Cfg K} (h : c.satMin ≤ 0) {l x : K} (hl : l ≤ c.satMax) (hl0 : 0 ≤ l)
    (hx : x = 0 ∨ l ≤ x) (hs : c.satMin ≤ c.satMax) :
    (Controls.clipSat c x = 0 ∨ l ≤ Controls.clipSat c x) ∧ Controls.clipSat c x ≤ c.satMax := by
  unfold Controls.clipSat
  have hs0 : 0 ≤ c.satMax := hl0.trans hl
  split_ifs with h1 h2
  · rcases hx with rfl | hx
    · exact absurd h1 (not_lt.2 h)
    · exact ⟨.inr (hx.trans h1.le), hs⟩
  · exact ⟨.inr hl, le_rfl⟩
  · exact ⟨hx, not_lt.1 h2⟩

theorem run_good {c : Cfg K} (hc : Sensible c) {i : Inp K} (hi : c.lo ≤ i.short ∧ i.short ≤ c.up) {s : St K}
    (hs : Good c s) :
    Good c (run c i s) ∧ ((run c i s).cv = 0 ∨ c.lo ≤ (run c i s).cv) ∧ (run c i s).cv ≤ c.base.satMax := by
  have hlo := hc.ok.lo
  have hsat := hc.satMax
  have hsat0 : 0 ≤ c.base.satMax := hlo.trans hsat
  -- the value in use after the emergency control and after the second step
  have g1 : Good c (emergency c i s) := by
    rcases emergency_cases c i s with h | h | h
    · exact .inl (h.2.1.trans hc.off)
    · refine .inr ?_
      rw [h.2.2.1]
      split_ifs <;> linarith
    · unfold Good
      rw [h.2.2.1]
      exact hs
  have g2 : Good c (second c i (emerg c i s) (emergency c i s)) := by
    unfold Good
    rw [second_opt]
    split_ifs with h
    · rcases C49_used_entry c hc.ok (emergency c i s).ltPrev i.plan with h | h
      · exact .inl h
      · exact .inr h.1
    · exact g1
  have cv2 : emerg c i s = true → (second c i (emerg c i s) (emergency c i s)).cv = 0 ∨
      c.lo ≤ (second c i (emerg c i s) (emergency c i s)).cv := by
    intro he
    rw [second_cv]
    rcases emergency_cases c i s with h | h | h
    · exact .inl (h.2.2.1.trans hc.off)
    · rw [h.2.2.2.1]
      exact .inr hsat
    · rw [h.2.2.2.2] at he
      cases he
  generalize hs2 : second c i (emerg c i s) (emergency c i s) = s2 at g2 cv2
  have g3 : Good c (third i (emerg c i s) s2) := by
    unfold third Good
    split_ifs <;> exact g2
  have cv3 : (third i (emerg c i s) s2).cv = 0 ∨ c.lo ≤ (third i (emerg c i s) s2).cv := by
    unfold third
    by_cases h : (!emerg c i s || s2.emergOn) = true ∧ 0 < s2.opt
    · rw [if_pos h]
      have ho : c.lo ≤ s2.opt := by
        rcases g2 with h0 | h0
        · exact absurd h.2 (by rw [h0]; exact lt_irrefl _)
        · exact h0
      refine .inr ?_
      dsimp only
      split_ifs
      · linarith [hi.1]
      · linarith [hi.1]
    · rw [if_neg h]
      cases he : emerg c i s with
      | true => simpa [he] using cv2 he
      | false => simp
  generalize hs3 : third i (emerg c i s) s2 = s3 at g3 cv3
  have e : run c i s = final c i s3 := by
    unfold run
    rw [hs2, hs3]
  rw [e]
  refine ⟨g3, ?_⟩
  unfold final
  dsimp only
  split_ifs
  · exact ⟨.inl hc.off, by rw [hc.off]; exact hsat0⟩
  · have hinv : Controls.inv c.base = 1 := by simp [Controls.inv, hc.invert]
    rw [hinv, mul_one]
    exact clipSat_range hc.satMin hsat hlo cv3 hc.ok.sat.le

/-- **C74**, partial: in every history the control value is 0 or between the lower modulation limit and the upper
saturation.  Missing: the upper modulation limit (`C74_fails_upper_limit`) and a lower saturation above 0
(`C74_fails_saturation`). -/
theorem C74_possible_power_partial {c : Cfg K} (hc : Sensible c) (is : List (Inp K))
    (hi : ∀ i ∈ is, c.lo ≤ i.short ∧ i.short ≤ c.up) :
    let s := calls c (St.init c) is
    (s.cv = 0 ∨ c.lo ≤ s.cv) ∧ s.cv ≤ c.base.satMax := by
  have main : ∀ (is : List (Inp K)) (s : St K), (∀ i ∈ is, c.lo ≤ i.short ∧ i.short ≤ c.up) → Good c s →
      ((s.cv = 0 ∨ c.lo ≤ s.cv) ∧ s.cv ≤ c.base.satMax) →
      (((calls c s is).cv = 0 ∨ c.lo ≤ (calls c s is).cv) ∧ (calls c s is).cv ≤ c.base.satMax) := by
    intro is
    induction is with
    | nil => exact fun s _ _ h => h
    | cons i is ih =>
      intro s hi hs _
      have := run_good hc (hi i (by simp)) hs
      exact ih (run c i s) (fun j hj => hi j (by simp [hj])) this.1 this.2
  exact main is (St.init c) hi (.inl rfl) ⟨.inl rfl, hc.ok.lo.trans hc.satMax⟩

/-- Settings for the examples: emergency on below 60, off above 80 at the other sensor. -/
def exCfg : Cfg ℚ :=
  ⟨⟨0, 1, 0, 1, 0, none, false, none, false, false⟩, ⟨60, true, false⟩, true, 1, 2, 1 / 2, 1, true, 10, 50, 86400⟩

example : clipCont exCfg 1 (some (1 / 3)) = 1 / 2 ∧ clipCont exCfg 1 (some (1 / 5)) = 0 ∧
    clipCont exCfg 0 (some (1 / 3)) = 0 ∧ clipCont exCfg 0 (some (495 / 1000)) = 1 / 2 := by decide +kernel

/-- One regular call with plan 0.4: from the off state the plant stays off. -/
example : Sensible exCfg ∧
    (calls exCfg (St.init exCfg) [⟨⟨60, 80, 70, 0, 70, false⟩, 0, 30, true, some (4 / 10), 7 / 10⟩]).cv = 0 :=
  ⟨⟨⟨by norm_num [exCfg], by norm_num [exCfg], by norm_num [exCfg], by norm_num [exCfg], by norm_num [exCfg],
    by norm_num [exCfg], by norm_num [exCfg], by norm_num [exCfg], by norm_num [exCfg]⟩, rfl, by norm_num [exCfg],
    by norm_num [exCfg], rfl⟩, by decide +kernel⟩

/-- **C74** is false of the code for the upper limit: with limits of 50 % and 80 % the plan is clipped to 1 and the
plant is asked for 86.7 %. -/
theorem C74_fails_upper_limit :
    let c : Cfg ℚ := { exCfg with up := 4 / 5 }
    (calls c (St.init c) [⟨⟨60, 80, 70, 0, 70, false⟩, 0, 30, true, some 1, 4 / 5⟩]).cv = 13 / 15 := by
  decide +kernel

/-- **C74** is false of the code for a lower saturation above 0: with a saturation of 50 % to 100 % the plant is
never switched off, neither by the plan nor by the emergency control. -/
theorem C74_fails_saturation :
    let c : Cfg ℚ := { exCfg with base := { exCfg.base with satMin := 1 / 2 } }
    (calls c (St.init c) [⟨⟨60, 80, 70, 0, 70, false⟩, 0, 30, true, some 0, 1 / 2⟩]).cv = 1 / 2 ∧
    (calls c (St.init c) [⟨⟨60, 80, 95, 0, 70, false⟩, 0, 30, true, some 0, 1 / 2⟩]).cv = 1 / 2 := by
  decide +kernel

/-! ## C75 -/

theorem run_cv (c : Cfg K) (i : Inp K) (s : St K) (hm : Controls.offByMaster c.base i.base = false)
    (hv : c.base.invert = false) :
    (run c i s).cv = Controls.clipSat c.base
      (third i (emerg c i s) (second c i (emerg c i s) (emergency c i s))).cv := by
  unfold run final
  simp [hm, Controls.inv, hv]

/-- **C75** (switching off has priority): while the deactivation condition holds the plant is off, whatever the
plan, the other sensor and the history. -/
theorem C75_emergency_off {c : Cfg K} (hoff : c.base.satMin ≤ c.base.off ∧ c.base.off ≤ c.base.satMax)
    (hv : c.base.invert = false) (i : Inp K) (s : St K)
    (h : if c.two.deactLower then i.base.pv < i.base.sp else i.base.sp < i.base.pv) :
    (run c i s).cv = c.base.off := by
  by_cases hm : Controls.offByMaster c.base i.base = true
  · unfold run final
    simp [hm]
  rw [run_cv c i s (by simpa using hm) hv]
  have hcl : Controls.clipSat c.base c.base.off = c.base.off := by
    unfold Controls.clipSat
    rw [if_neg (not_lt.2 hoff.1), if_neg (not_lt.2 hoff.2)]
  rcases emergency_cases c i s with h1 | h1 | h1
  · obtain ⟨-, h2, h3, h4, h5⟩ := h1
    have : (third i (emerg c i s) (second c i (emerg c i s) (emergency c i s))).cv = c.base.off := by
      unfold third
      rw [h5, second_emergOn, h4]
      simp [second_cv, h3]
    rw [this, hcl]
  · exact absurd h h1.1
  · exact absurd h h1.1

/-- **C75** (heat supply has priority over the plan): while the activation condition holds, the deactivation
condition does not and no master switches it off, the plant is on with at least half of its full power, and beyond
the full power offset with full power, whatever the plan and the history. -/
theorem C75_emergency_on {c : Cfg K} (hc : c.Ok) (hs : c.base.satMin ≤ 0) (hpos : 0 < c.base.satMax)
    (hv : c.base.invert = false) (i : Inp K) (s : St K) (hi : c.lo ≤ i.short)
    (hm : Controls.offByMaster c.base i.base = false)
    (hon : if c.two.actLower then i.base.onVal < c.two.actVal else c.two.actVal < i.base.onVal)
    (hoff : ¬ if c.two.deactLower then i.base.pv < i.base.sp else i.base.sp < i.base.pv) :
    c.base.satMax / 2 ≤ (run c i s).cv ∧
    ((if c.two.actLower then i.base.onVal < c.two.actVal - c.fpDiff else c.two.actVal + c.fpDiff < i.base.onVal) →
      (run c i s).cv = c.base.satMax) := by
  have hh : 0 ≤ hystNow c s := by
    unfold hystNow
    split_ifs
    · exact hc.hyst
    · exact le_rfl
  have hon' : on c i s := by
    unfold on
    split_ifs at hon ⊢
    · linarith
    · linarith
  have hx : 0 ≤ i.short := hc.lo.trans hi
  rw [run_cv c i s hm hv]
  rcases emergency_cases c i s with h | h | h
  · exact absurd h.1 hoff
  · obtain ⟨-, -, h2, h3, h4, h5⟩ := h
    have e2 : (second c i (emerg c i s) (emergency c i s)).opt =
        if full c i then c.base.satMax * 2 else c.base.satMax := by
      rw [second_opt, h5]
      simp [h2]
    have e3 : (third i (emerg c i s) (second c i (emerg c i s) (emergency c i s))).cv =
        (i.short + if full c i then c.base.satMax * 2 else c.base.satMax) / 2 := by
      have hp : 0 < (second c i (emerg c i s) (emergency c i s)).opt := by
        rw [e2]
        split_ifs <;> linarith
      unfold third
      rw [if_pos ⟨by rw [second_emergOn, h4]; simp, hp⟩, h5]
      dsimp only
      rw [if_pos rfl, ← h5, e2]
    rw [e3]
    unfold Controls.clipSat
    by_cases hf : full c i
    · rw [if_pos hf]
      have h6 : ¬ (i.short + c.base.satMax * 2) / 2 < c.base.satMin := by linarith
      rw [if_neg h6]
      by_cases h7 : c.base.satMax < (i.short + c.base.satMax * 2) / 2
      · rw [if_pos h7]
        exact ⟨by linarith, fun _ => rfl⟩
      · rw [if_neg h7]
        exact ⟨by linarith, fun _ => by linarith⟩
    · rw [if_neg hf]
      have h6 : ¬ (i.short + c.base.satMax) / 2 < c.base.satMin := by linarith
      rw [if_neg h6]
      refine ⟨?_, fun h => absurd h hf⟩
      split_ifs with h7
      · linarith
      · linarith
  · exact absurd hon' h.2.1

/-- **C75** (otherwise the plan is followed): after a call without emergency, while neither condition holds, the
control value is the mean of the planned and the short-term value, and 0 if nothing is planned; a hysteresis plays no
role. -/
theorem C75_plan_followed {c : Cfg K} (hv : c.base.invert = false) (i : Inp K) (s : St K)
    (hm : Controls.offByMaster c.base i.base = false) (hn : s.cnsctv = false)
    (hon : ¬ if c.two.actLower then i.base.onVal < c.two.actVal else c.two.actVal < i.base.onVal)
    (hoff : ¬ if c.two.deactLower then i.base.pv < i.base.sp else i.base.sp < i.base.pv) :
    let p := if i.due then clipCont c s.ltPrev i.plan else s.opt
    (run c i s).cv = Controls.clipSat c.base (if 0 < p then (2 * i.short + p) / 3 else 0) ∧
      (run c i s).opt = p ∧ (run c i s).cnsctv = false := by
  intro p
  have hon' : ¬ on c i s := by
    unfold on hystNow
    rw [hn]
    simpa using hon
  have he : emerg c i s = false := by
    unfold emerg
    simp only [Bool.or_eq_false_iff, decide_eq_false_iff_not]
    exact ⟨hon', hoff⟩
  have e1 : emergency c i s = { s with cnsctv := false } := by
    unfold emergency deactivate activate
    rw [if_neg hon', if_neg (show ¬ c.two.off i.base from hoff), he]
  have e2 : (second c i false { s with cnsctv := false }).opt = p := by
    rw [second_opt]
    simp [p]
  have e3 : (second c i false { s with cnsctv := false }).cnsctv = false := by
    unfold second finalizeStep restoreCaps
    split_ifs <;> simp_all
  rw [run_cv c i s hm hv]
  have e4 : (run c i s).opt = (third i false (second c i false { s with cnsctv := false })).opt ∧
      (run c i s).cnsctv = (third i false (second c i false { s with cnsctv := false })).cnsctv := by
    unfold run final
    rw [he, e1]
    exact ⟨rfl, rfl⟩
  rw [e4.1, e4.2, he, e1]
  unfold third
  by_cases hp : 0 < p
  · rw [if_pos ⟨by simp, by rw [e2]; exact hp⟩, if_pos hp]
    refine ⟨?_, e2, e3⟩
    simp [e2, mul_comm]
  · rw [if_neg (by rw [e2]; exact fun h => hp h.2), if_neg hp]
    exact ⟨rfl, e2, e3⟩

/-- **C75** (hysteresis): after an emergency call, the emergency operation goes on until the sensor has passed the
activation value by the hysteresis, if there is one. -/
theorem C75_hysteresis {c : Cfg K} (i : Inp K) (s : St K) (he : s.cnsctv = true)
    (hoff : ¬ if c.two.deactLower then i.base.pv < i.base.sp else i.base.sp < i.base.pv) :
    let d := if c.useHyst then c.hyst else 0
    (run c i s).cnsctv = true ↔
      if c.two.actLower then i.base.onVal < c.two.actVal + d else c.two.actVal - d < i.base.onVal := by
  intro d
  have hd : hystNow c s = d := by
    unfold hystNow
    rw [he, Bool.and_true]
  have h1 : (run c i s).cnsctv = emerg c i s := by
    unfold run final third second finalizeStep restoreCaps emergency
    dsimp only
    split_ifs <;> rfl
  rw [h1]
  unfold emerg
  have : decide (c.two.off i.base) = false := decide_eq_false hoff
  rw [this, Bool.or_false, decide_eq_true_iff]
  unfold on
  rw [hd]

/-- With a hysteresis of 2 and an activation value of 60 a sensor at 61 goes on with an emergency, but does not start
one. -/
example :
    let c : Cfg ℚ := { exCfg with useHyst := true, hyst := 2 }
    let i : Inp ℚ := ⟨⟨60, 80, 70, 0, 61, false⟩, 0, 30, false, none, 1 / 2⟩
    (run c i (St.init c)).cnsctv = false ∧ (run c i { St.init c with cnsctv := true }).cnsctv = true := by
  decide +kernel

/-- Sensor at 59 (mixed mode) and at 57 (full power) with an activation value of 60. -/
example : (run exCfg ⟨⟨60, 80, 70, 0, 59, false⟩, 0, 30, false, none, 1 / 2⟩ (St.init exCfg)).cv = 3 / 4 ∧
    (run exCfg ⟨⟨60, 80, 70, 0, 57, false⟩, 0, 30, false, none, 1 / 2⟩ (St.init exCfg)).cv = 1 := by
  decide +kernel

/-! ## C76 -/

/-- `x` is between `a` and `b`. -/
def Between (a b x : K) : Prop := min a b ≤ x ∧ x ≤ max a b

theorem between_mix {a b f : K} (h0 : 0 ≤ f) (h1 : f ≤ 1) : Between a b (a * (1 - f) + b * f) := by
  unfold Between
  rcases le_total a b with h | h
  · rw [min_eq_left h, max_eq_right h]
    constructor <;> nlinarith
  · rw [min_eq_right h, max_eq_left h]
    constructor <;> nlinarith

/-- Invariant of the capacities: between the original and the adapted value, and adapted in the past. -/
def CapGood (orig t : K) (a : Cap K) : Prop := Between a.backup orig a.cur ∧ a.time ≤ t

theorem Between.left (a b : K) : Between a b a := ⟨min_le_left _ _, le_max_left _ _⟩

/-- **C76**, partial: in every history with increasing time, each of the two capacities used by the optimisation
lies between its original value and the value it was last adapted to.  Missing: the return to the original value
(`C76_fails_restore`). -/
theorem C76_capacities_partial {c : Cfg K} (hc : c.Ok) (is : List (Inp K)) (ht : (is.map (·.time)).Pairwise (· ≤ ·))
    (h0 : ∀ i ∈ is, 0 ≤ i.time) :
    let s := calls c (St.init c) is
    Between s.lo.backup c.capLo s.lo.cur ∧ Between s.hi.backup c.capHi s.hi.cur := by
  have stepAdapt : ∀ (b : Bool) (i : Inp K) (s : St K) (t : K), t ≤ i.time → CapGood c.capLo t s.lo →
      CapGood c.capHi t s.hi →
      CapGood c.capLo i.time (adaptCap b i s).lo ∧ CapGood c.capHi i.time (adaptCap b i s).hi := by
    intro b i s t hti h1 h2
    have h1' : CapGood c.capLo i.time s.lo := ⟨h1.1, h1.2.trans hti⟩
    have h2' : CapGood c.capHi i.time s.hi := ⟨h2.1, h2.2.trans hti⟩
    unfold adaptCap
    split_ifs
    · exact ⟨h1', h2'⟩
    · exact ⟨⟨.left _ _, le_rfl⟩, h2'⟩
    · exact ⟨h1', ⟨.left _ _, le_rfl⟩⟩
  have restGood : ∀ (orig t : K) (a : Cap K), CapGood orig t a →
      CapGood orig t { a with cur := restored c t orig a } := by
    intro orig t a h
    refine ⟨?_, h.2⟩
    have hf : 0 ≤ restFactor c t a := div_nonneg (by linarith [h.2]) hc.restore.le
    unfold restored
    dsimp only
    split_ifs with h1
    · exact between_mix (by norm_num) le_rfl
    · exact between_mix hf (not_lt.1 h1)
  have step : ∀ (i : Inp K) (s : St K) (t : K), t ≤ i.time → CapGood c.capLo t s.lo → CapGood c.capHi t s.hi →
      CapGood c.capLo i.time (run c i s).lo ∧ CapGood c.capHi i.time (run c i s).hi := by
    intro i s t hti h1 h2
    have h1' : CapGood c.capLo i.time s.lo := ⟨h1.1, h1.2.trans hti⟩
    have h2' : CapGood c.capHi i.time s.hi := ⟨h2.1, h2.2.trans hti⟩
    have a1 : CapGood c.capLo i.time (activate c i s).lo ∧ CapGood c.capHi i.time (activate c i s).hi := by
      unfold activate
      by_cases h : on c i s
      · rw [if_pos h]
        exact stepAdapt _ i _ i.time le_rfl h1' h2'
      · rw [if_neg h]
        exact ⟨h1', h2'⟩
    have a2 : CapGood c.capLo i.time (emergency c i s).lo ∧ CapGood c.capHi i.time (emergency c i s).hi := by
      unfold emergency
      dsimp only
      unfold deactivate
      split_ifs
      · exact stepAdapt _ i _ i.time le_rfl a1.1 a1.2
      · exact a1
    have a3 : ∀ s : St K, CapGood c.capLo i.time s.lo → CapGood c.capHi i.time s.hi →
        CapGood c.capLo i.time (finalizeStep c i s).lo ∧ CapGood c.capHi i.time (finalizeStep c i s).hi := by
      intro s h1 h2
      unfold finalizeStep
      dsimp only
      unfold restoreCaps
      split_ifs
      · exact ⟨h1, h2⟩
      · exact ⟨restGood _ _ _ h1, restGood _ _ _ h2⟩
      · exact ⟨h1, h2⟩
    have a4 : CapGood c.capLo i.time (second c i (emerg c i s) (emergency c i s)).lo ∧
        CapGood c.capHi i.time (second c i (emerg c i s) (emergency c i s)).hi := by
      unfold second
      by_cases hd : i.due = true
      · rw [if_pos hd]
        cases emerg c i s
        · exact a3 _ a2.1 a2.2
        · exact a3 _ a2.1 a2.2
      · rw [if_neg hd]
        exact a2
    have a5 : (run c i s).lo = (second c i (emerg c i s) (emergency c i s)).lo ∧
        (run c i s).hi = (second c i (emerg c i s) (emergency c i s)).hi := by
      unfold run final third
      dsimp only
      split_ifs <;> exact ⟨rfl, rfl⟩
    rw [a5.1, a5.2]
    exact a4
  have main : ∀ (is : List (Inp K)) (s : St K) (t : K), (is.map (·.time)).Pairwise (· ≤ ·) →
      (∀ i ∈ is, t ≤ i.time) → CapGood c.capLo t s.lo → CapGood c.capHi t s.hi →
      Between (calls c s is).lo.backup c.capLo (calls c s is).lo.cur ∧
      Between (calls c s is).hi.backup c.capHi (calls c s is).hi.cur := by
    intro is
    induction is with
    | nil => exact fun s t _ _ h1 h2 => ⟨h1.1, h2.1⟩
    | cons i is ih =>
      intro s t hp hi h1 h2
      have := step i s t (hi i (by simp)) h1 h2
      rw [List.map_cons, List.pairwise_cons] at hp
      refine ih (run c i s) i.time hp.2 (fun j hj => hp.1 _ (List.mem_map_of_mem hj)) this.1 this.2
  exact main is (St.init c) 0 ht h0 ⟨.left _ _, le_rfl⟩ ⟨.left _ _, le_rfl⟩

/-- **C76**, partial: at every optimisation without emergency, as long as the restore time has not passed for one of the
two capacities, both have the value which the time since their last adaption demands: linear between the adapted and
the original value, the original value after the restore time.  Missing: the time after both have passed it
(`C76_fails_restore`). -/
theorem C76_restoring_partial {c : Cfg K} (hc : c.Ok) (i : Inp K) (s : St K) (hd : i.due = true)
    (hon : ¬ on c i s) (hoff : ¬ c.two.off i.base) (ha : s.adapted = true)
    (ht : i.time < s.lo.time + c.restore ∨ i.time < s.hi.time + c.restore) :
    let s' := run c i s
    s'.adapted = true ∧
    (s.lo.time + c.restore ≤ i.time → s'.lo.cur = c.capLo) ∧ (s.hi.time + c.restore ≤ i.time → s'.hi.cur = c.capHi) ∧
    (i.time ≤ s.lo.time + c.restore →
      (s'.lo.cur - s.lo.backup) * c.restore = (c.capLo - s.lo.backup) * (i.time - s.lo.time)) ∧
    (i.time ≤ s.hi.time + c.restore →
      (s'.hi.cur - s.hi.backup) * c.restore = (c.capHi - s.hi.backup) * (i.time - s.hi.time)) := by
  have hr := hc.restore
  have he : emerg c i s = false := by
    unfold emerg
    simp [hon, hoff]
  have e1 : emergency c i s = { s with cnsctv := false } := by
    unfold emergency deactivate activate
    rw [if_neg hon, if_neg hoff, he]
  have h1 : ¬ (1 ≤ restFactor c i.time s.lo ∧ 1 ≤ restFactor c i.time s.hi) := by
    unfold restFactor
    rw [le_div_iff₀ hr, le_div_iff₀ hr]
    rintro ⟨h, h'⟩
    rcases ht with ht | ht <;> linarith
  have e2 : ∀ o : K, restoreCaps c i { s with cnsctv := false, opt := o } = { s with
      cnsctv := false
      opt := o
      lo := { s.lo with cur := restored c i.time c.capLo s.lo }
      hi := { s.hi with cur := restored c i.time c.capHi s.hi } } := by
    intro o
    unfold restoreCaps
    rw [if_pos ha, if_neg h1]
  have e3 : (run c i s).adapted = true ∧ (run c i s).lo.cur = restored c i.time c.capLo s.lo ∧
      (run c i s).hi.cur = restored c i.time c.capHi s.hi := by
    unfold run final third second finalizeStep
    rw [he, e1, if_pos hd]
    simp only [Bool.false_eq_true, if_false, e2]
    split_ifs <;> exact ⟨ha, rfl, rfl⟩
  have full : ∀ (orig : K) (a : Cap K), a.time + c.restore ≤ i.time → restored c i.time orig a = orig := by
    intro orig a h
    unfold restored restFactor
    dsimp only
    have : (1 : K) ≤ (i.time - a.time) / c.restore := by rw [le_div_iff₀ hr]; linarith
    split_ifs with hlt
    · ring
    · rw [le_antisymm (not_lt.1 hlt) this]; ring
  have lin : ∀ (orig : K) (a : Cap K), i.time ≤ a.time + c.restore →
      (restored c i.time orig a - a.backup) * c.restore = (orig - a.backup) * (i.time - a.time) := by
    intro orig a h
    unfold restored restFactor
    dsimp only
    have : ¬ (1 : K) < (i.time - a.time) / c.restore := by rw [lt_div_iff₀ hr]; linarith
    rw [if_neg this]
    field_simp
    ring
  intro s'
  refine ⟨e3.1, fun h => ?_, fun h => ?_, fun h => ?_, fun h => ?_⟩
  · exact e3.2.1.trans (full _ _ h)
  · exact e3.2.2.trans (full _ _ h)
  · rw [e3.2.1]; exact lin _ _ h
  · rw [e3.2.2]; exact lin _ _ h

/-- The lower capacity was adapted to 30 kWh at time 0, the upper one later: after more than a day the lower one is
back at 10 kWh. -/
example :
    let s : St ℚ := ⟨0, 0, false, false, 0, ⟨12, 30, 0⟩, ⟨80, 80, 43200⟩, true⟩
    let i : Inp ℚ := ⟨⟨60, 80, 70, 0, 70, false⟩, 90000, 30, true, some 0, 1 / 2⟩
    (run exCfg i s).lo.cur = 10 ∧ exCfg.capLo = 10 ∧ exCfg.restore = 86400 := by
  decide +kernel

/-- **C76** is false of the code: once the restore time has passed for both capacities, the last partially restored
values stay.  Here the storage was adapted at time 0 from 10 to 30 kWh, the restore time is one day; one optimisation
after 23 h, the next ones after two days: the capacity stays at 10.83 kWh. -/
theorem C76_fails_restore :
    let reg (t : ℚ) : Inp ℚ := ⟨⟨60, 80, 70, 0, 70, false⟩, t, 30, true, some 0, 1 / 2⟩
    let s := calls exCfg (St.init exCfg)
      [⟨⟨60, 80, 70, 0, 59, false⟩, 0, 30, true, some 0, 1 / 2⟩, reg 82800, reg 172800, reg 259200]
    s.lo.cur = 65 / 6 ∧ s.adapted = false ∧ exCfg.capLo = 10 ∧ exCfg.restore = 86400 := by
  decide +kernel

/-! ## C77 -/

/-- Specification: the energy content after the steps `0, ..., k` of the plan if it was `now` at the beginning: heat
produced minus heat used in the same steps. -/
def content (now q : K) (dmd : List K) (n : Nat) (xs : List K) (k : Nat) : K :=
  now + (xs.take (k + 1)).sum * q - ((dmd.drop n).take (k + 1)).sum

theorem sum_mul_take (xs : List K) (q : K) (k : Nat) : cumsum (xs.map (· * q)) k = (xs.take (k + 1)).sum * q := by
  unfold cumsum
  rw [← List.map_take, List.sum_map_mul_right]
  simp

theorem sum_take_drop (dmd : List K) (n k : Nat) :
    cumsum dmd (n + k) = (dmd.take n).sum + ((dmd.drop n).take (k + 1)).sum := by
  unfold cumsum
  rw [← List.sum_append, ← List.take_add, Nat.add_assoc]

/-- **C77**, partial: both constraints hold at step `k` exactly if the content predicted for this step is between the
two capacities, where the demand of the first step is left out of the prediction.  Missing: with that demand, that
is, the content that the plan leads to (`C77_fails_first_demand`). -/
theorem C77_constraints_partial (capLo capHi now q : K) (dmd : List K) {n : Nat} (hn : n < dmd.length) (xs : List K)
    (k : Nat) :
    (0 ≤ beforeEmpty (now - capLo) q dmd n xs k ∧ 0 ≤ beforeFull (capHi - now) q dmd n xs k) ↔
    (capLo ≤ content now q dmd n xs k + dmd[n] ∧ content now q dmd n xs k + dmd[n] ≤ capHi) := by
  have h0 : cumsum dmd n = (dmd.take n).sum + dmd[n] := by
    unfold cumsum
    rw [List.sum_take_succ _ _ hn]
  unfold beforeEmpty beforeFull heatDmd content
  rw [sum_mul_take, sum_take_drop, h0]
  constructor
  · rintro ⟨h1, h2⟩
    constructor <;> linarith
  · rintro ⟨h1, h2⟩
    constructor <;> linarith

/-- **C77** is false of the code: 10 kWh above the minimum, a demand of 8 kWh in each of two steps and no production
empty the storage in the second step; the constraint still reports 2 kWh. -/
theorem C77_fails_first_demand :
    beforeEmpty (10 : ℚ) 5 [8, 8] 0 [0, 0] 1 = 2 ∧ content (10 : ℚ) 5 [8, 8] 0 [0, 0] 1 = -6 := by
  decide +kernel

/-! ## C78 -/

/-- Entries between 0 and 1, at least one of them positive. -/
def Plan (xs : List ℝ) : Prop := (∀ x ∈ xs, 0 ≤ x ∧ x ≤ 1) ∧ ∃ x ∈ xs, 0 < x

theorem le_listMax : ∀ {xs : List ℝ} {x : ℝ}, x ∈ xs → x ≤ listMax xs
  | [y], x, h => by simp at h; simp [listMax, h]
  | y :: z :: l, x, h => by
    rw [listMax]
    rcases List.mem_cons.1 h with rfl | h
    · exact le_max_left _ _
    · exact (le_listMax h).trans (le_max_right _ _)

theorem listMax_mem : ∀ {xs : List ℝ}, xs ≠ [] → listMax xs ∈ xs
  | [y], _ => by simp [listMax]
  | y :: z :: l, _ => by
    rw [listMax]
    rcases max_choice y (listMax (z :: l)) with h | h
    · rw [h]; simp
    · rw [h]; exact List.mem_cons_of_mem _ (listMax_mem (by simp))

theorem Plan.max {xs : List ℝ} (h : Plan xs) : 0 < listMax xs ∧ listMax xs ≤ 1 := by
  obtain ⟨x, hx, hp⟩ := h.2
  exact ⟨hp.trans_le (le_listMax hx), (h.1 _ (listMax_mem (List.ne_nil_of_mem hx))).2⟩

/-- Scaling by something between the maximum and 1 raises a plan and keeps it a plan. -/
theorem scale_plan {d : ℝ → ℝ} (hd : ∀ m, 0 < m → m ≤ 1 → m ≤ d m ∧ d m ≤ 1) {xs : List ℝ} (h : Plan xs) :
    ∃ ys, scaleBy d xs = some ys ∧ Plan ys ∧ List.Forall₂ (· ≤ ·) xs ys := by
  obtain ⟨hm, hm1⟩ := h.max
  obtain ⟨h1, h2⟩ := hd _ hm hm1
  have hdp : 0 < d (listMax xs) := hm.trans_le h1
  refine ⟨xs.map (· / d (listMax xs)), by unfold scaleBy; rw [if_pos hm], ⟨?_, ?_⟩, ?_⟩
  · intro y hy
    obtain ⟨x, hx, rfl⟩ := List.mem_map.1 hy
    exact ⟨div_nonneg (h.1 x hx).1 hdp.le, (div_le_one hdp).2 ((le_listMax hx).trans h1)⟩
  · obtain ⟨x, hx, hp⟩ := h.2
    exact ⟨_, List.mem_map_of_mem hx, div_pos hp hdp⟩
  · rw [List.forall₂_map_right_iff, List.forall₂_same]
    intro x hx
    rw [le_div_iff₀ hdp]
    nlinarith [(h.1 x hx).1]

theorem forall₂_le_trans : ∀ {xs ys zs : List ℝ}, List.Forall₂ (· ≤ ·) xs ys → List.Forall₂ (· ≤ ·) ys zs →
    List.Forall₂ (· ≤ ·) xs zs
  | _, _, _, .nil, .nil => .nil
  | _, _, _, .cons h t, .cons h' t' => .cons (h.trans h') (forall₂_le_trans t t')

theorem sqrt_ok (m : ℝ) (h0 : 0 < m) (h1 : m ≤ 1) : m ≤ Real.sqrt m ∧ Real.sqrt m ≤ 1 := by
  refine ⟨?_, Real.sqrt_le_one.2 h1⟩
  apply Real.le_sqrt_of_sq_le
  nlinarith

theorem socLoop_plan (empty : List ℝ → Bool) : ∀ (n : Nat) {xs : List ℝ}, Plan xs →
    ∃ ys, socLoop empty n xs = some ys ∧ Plan ys ∧ List.Forall₂ (· ≤ ·) xs ys
  | 0, xs, h => by
    unfold socLoop
    split_ifs
    · exact scale_plan (fun m _ h1 => ⟨le_rfl, h1⟩) h
    · exact ⟨xs, rfl, h, List.forall₂_same.2 fun _ _ => le_rfl⟩
  | n + 1, xs, h => by
    unfold socLoop
    split_ifs
    · obtain ⟨ys, e, hy, l⟩ := scale_plan sqrt_ok h
      obtain ⟨zs, e', hz, l'⟩ := socLoop_plan empty n hy
      refine ⟨zs, by rw [e]; exact e', hz, ?_⟩
      exact forall₂_le_trans l l'
    · exact ⟨xs, rfl, h, List.forall₂_same.2 fun _ _ => le_rfl⟩

theorem clip_id {xs : List ℝ} (h : ∀ x ∈ xs, 0 ≤ x ∧ x ≤ 1) : (xs.map fun x => min (max x 0) 1) = xs := by
  conv_rhs => rw [← List.map_id xs]
  refine List.map_congr_left fun x hx => ?_
  rw [max_eq_left (h x hx).1, min_eq_left (h x hx).2]
  rfl

/-- **C78**, partial: a plan with entries between 0 and 1, not all of them 0, is adjusted to a plan of the same length
with entries between 0 and 1 that are nowhere lower, and it is unchanged if the storage neither runs empty nor gets too full.
Missing: a plan that is 0 throughout (`C78_fails_zero_plan`), entries outside of `[0, 1]`
(`C78_fails_unclipped`). -/
theorem C78_adjusted_plan_partial (empty full : List ℝ → Bool) (empty0 : Bool) {xs : List ℝ}
    (h : ∀ x ∈ xs, 0 ≤ x ∧ x ≤ 1) (hp : ∃ x ∈ xs, 0 < x) :
    ∃ ys, adjBySoc empty full empty0 xs = some ys ∧ (∀ y ∈ ys, 0 ≤ y ∧ y ≤ 1) ∧ List.Forall₂ (· ≤ ·) xs ys ∧
      (empty0 = false → ys = xs) := by
  unfold adjBySoc
  split_ifs with h1 h2
  · exact ⟨xs, rfl, h, List.forall₂_same.2 fun _ _ => le_rfl, fun _ => rfl⟩
  · obtain ⟨ys, e, hy, l⟩ := scale_plan sqrt_ok ⟨h, hp⟩
    obtain ⟨zs, e', hz, l'⟩ := socLoop_plan empty 4 hy
    rw [e]
    dsimp only [Option.bind_some]
    rw [e']
    refine ⟨_, rfl, ?_⟩
    dsimp only
    split_ifs
    · rw [clip_id h]
      exact ⟨h, List.forall₂_same.2 fun _ _ => le_rfl, fun _ => rfl⟩
    · rw [clip_id hz.1]
      exact ⟨hz.1, forall₂_le_trans l l', fun h => absurd h2 (by simp [h])⟩
  · refine ⟨_, rfl, ?_⟩
    dsimp only
    rw [ite_self, clip_id h]
    exact ⟨h, List.forall₂_same.2 fun _ _ => le_rfl, fun _ => rfl⟩

/-- A plan with two entries whose storage would run empty and is full power after the last resort. -/
example : ∃ ys, adjBySoc (fun _ => true) (fun _ => false) true [1 / 2, 1 / 4] = some ys ∧
    (∀ y ∈ ys, 0 ≤ y ∧ y ≤ 1) := by
  obtain ⟨ys, h1, h2, _⟩ := C78_adjusted_plan_partial (fun _ => true) (fun _ => false) true
    (xs := [1 / 2, 1 / 4]) (by intro x hx; simp at hx; rcases hx with rfl | rfl <;> norm_num)
    ⟨1 / 2, by simp, by norm_num⟩
  exact ⟨ys, h1, h2⟩

theorem scale_raises {d : ℝ → ℝ} (hd : ∀ m, 0 < m → m < 1 → m ≤ d m ∧ d m < 1) {xs ys : List ℝ} (h : Plan xs)
    (hlt : ∀ x ∈ xs, x < 1) (e : scaleBy d xs = some ys) : List.Forall₂ (fun x y => 0 < x → x < y) xs ys := by
  obtain ⟨hm, -⟩ := h.max
  obtain ⟨x0, hx0, _⟩ := h.2
  obtain ⟨h1, h2⟩ := hd _ hm (hlt _ (listMax_mem (List.ne_nil_of_mem hx0)))
  have hdp : 0 < d (listMax xs) := hm.trans_le h1
  unfold scaleBy at e
  rw [if_pos hm, Option.some_inj] at e
  subst e
  rw [List.forall₂_map_right_iff, List.forall₂_same]
  intro x _ hx
  rw [lt_div_iff₀ hdp]
  nlinarith

theorem forall₂_lt_of_le : ∀ {xs ys zs : List ℝ}, List.Forall₂ (fun x y => 0 < x → x < y) xs ys →
    List.Forall₂ (· ≤ ·) ys zs → List.Forall₂ (fun x y => 0 < x → x < y) xs zs
  | _, _, _, .nil, .nil => .nil
  | _, _, _, .cons h t, .cons h' t' => .cons (fun hx => (h hx).trans_le h') (forall₂_lt_of_le t t')

theorem socLoop_end (empty : List ℝ → Bool) : ∀ (n : Nat) {xs : List ℝ}, Plan xs → ∀ {ys}, socLoop empty n xs = some ys →
    empty ys = false ∨ 1 ∈ ys
  | 0, xs, h, ys, e => by
    unfold socLoop at e
    split_ifs at e with he
    · right
      obtain ⟨hm, -⟩ := h.max
      obtain ⟨x0, hx0, _⟩ := h.2
      unfold scaleBy at e
      rw [if_pos hm, Option.some_inj] at e
      subst e
      exact List.mem_map.2 ⟨_, listMax_mem (List.ne_nil_of_mem hx0), div_self hm.ne'⟩
    · rw [Option.some_inj] at e
      subst e
      exact Or.inl (by simpa using he)
  | n + 1, xs, h, ys, e => by
    unfold socLoop at e
    split_ifs at e with he
    · obtain ⟨zs, e1, hz, -⟩ := scale_plan sqrt_ok h
      rw [e1, Option.bind_some] at e
      exact socLoop_end empty n hz e
    · rw [Option.some_inj] at e
      subst e
      exact Or.inl (by simpa using he)

/-- **C78** (the plan is raised), partial: if the storage runs empty with a plan below full power that does not make it
too full, every step with production is raised until the storage does not run empty or one step has full power; the
raised plan is returned unless it makes the storage too full, then the plan stays as it was. -/
theorem C78_raised_partial (empty full : List ℝ → Bool) {xs : List ℝ} (h : ∀ x ∈ xs, 0 ≤ x ∧ x < 1)
    (hp : ∃ x ∈ xs, 0 < x) (hf : full xs = false) :
    ∃ zs, adjBySoc empty full true xs = some (if full zs then xs else zs) ∧ (empty zs = false ∨ 1 ∈ zs) ∧
      List.Forall₂ (fun x z => 0 < x → x < z) xs zs := by
  have h' : ∀ x ∈ xs, 0 ≤ x ∧ x ≤ 1 := fun x hx => ⟨(h x hx).1, (h x hx).2.le⟩
  obtain ⟨ys, e, hy, -⟩ := scale_plan sqrt_ok ⟨h', hp⟩
  obtain ⟨zs, e', hz, l'⟩ := socLoop_plan empty 4 hy
  refine ⟨zs, ?_, socLoop_end empty 4 hy e', forall₂_lt_of_le (scale_raises ?_ ⟨h', hp⟩ (fun x hx => (h x hx).2) e) l'⟩
  · unfold adjBySoc
    rw [hf, if_neg (by simp), if_pos rfl, e, Option.bind_some, e', Option.map_some]
    split_ifs
    · rw [clip_id h']
    · rw [clip_id hz.1]
  · exact fun m h0 h1 => ⟨(sqrt_ok m h0 h1.le).1, by rw [Real.sqrt_lt' one_pos]; simpa using h1⟩

example : ∃ zs, adjBySoc (fun _ => true) (fun _ => false) true [1 / 2, 0] = some zs ∧ 1 ∈ zs := by
  obtain ⟨zs, h1, h2, _⟩ := C78_raised_partial (fun _ => true) (fun _ => false)
    (xs := [1 / 2, 0]) (by intro x hx; simp at hx; rcases hx with rfl | rfl <;> norm_num)
    ⟨1 / 2, by simp, by norm_num⟩ rfl
  exact ⟨zs, by simpa using h1, by simpa using h2⟩

/-- **C78** is false of the code for a plan that is 0 throughout: if the storage runs empty the plan is divided by its
maximum 0 and becomes NaN, and the plant stays off although the storage runs empty. -/
theorem C78_fails_zero_plan (empty full : List ℝ → Bool) (c : Cfg ℝ) (prev : ℝ) (n : Nat)
    (hf : full (List.replicate (n + 1) 0) = false) :
    adjBySoc empty full true (List.replicate (n + 1) 0) = none ∧ clipCont c prev none = 0 := by
  have hm : ∀ n, listMax (List.replicate (n + 1) 0) = 0 := by
    intro n
    induction n with
    | zero => rfl
    | succ n ih =>
      rw [List.replicate_succ, List.replicate_succ, listMax, ← List.replicate_succ, ih, max_self]
  refine ⟨?_, ?_⟩
  · unfold adjBySoc
    rw [hf]
    simp [scaleBy, hm n]
  · unfold clipCont clipTo
    split_ifs <;> rfl

/-- **C78** is false of the code for a plan with an entry above 1 whose storage gets too full: it is returned
unchanged. -/
theorem C78_fails_unclipped (empty : List ℝ → Bool) (e : Bool) :
    adjBySoc empty (fun _ => true) e [6 / 5] = some [6 / 5] := rfl

end Verif.ModelPred
