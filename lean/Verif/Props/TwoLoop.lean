import Verif.Props.Controls
import Mathlib.Tactic.NormNum
import Mathlib.Tactic.IntervalCases

/-!
# C165: a two-sensor controller charges a stratified storage completely and without short cycles

The controller switches on when the upper sensor is colder than the activation value and off when the lower sensor is
hotter than the setpoint.  The storage is arbitrary; it is stratified, and its temperatures change by at most `Δ` from
call to call.
-/

set_option linter.unusedSectionVars false

namespace Verif.Controls

variable {K : Type*} [Field K] [LinearOrder K] [IsStrictOrderedRing K]

/-- Specification: controller and stratified storage.  Call `k` sees the temperatures `top k` and `bot k` and leaves the
state `st (k + 1)`. -/
structure Charged (c : Cfg K) (t : Two K) (sp Δ : K) (top bot : ℕ → K) (inp : ℕ → Inp K) (st : ℕ → St K) : Prop where
  call : ∀ k, st (k + 1) = ctrl c (t.run c) (inp k) (st k)
  sees : ∀ k, (inp k).onVal = top k ∧ (inp k).pv = bot k ∧ (inp k).sp = sp
  signs : t.actLower = true ∧ t.deactLower = false
  strat : ∀ k, bot k ≤ top k
  slow : ∀ k, |top (k + 1) - top k| ≤ Δ ∧ |bot (k + 1) - bot k| ≤ Δ

variable {c : Cfg K} {t : Two K} {sp Δ : K} {top bot : ℕ → K} {inp : ℕ → Inp K} {st : ℕ → St K}

theorem charged_law (h : Charged c t sp Δ top bot inp st) (hi : c.invert = false) (hs : c.slope = none)
    (hm : c.sub = none) (k : ℕ) :
    (sp < bot k → (st (k + 1)).cv = c.off) ∧ (top k < t.actVal → bot k ≤ sp → (st (k + 1)).cv = c.satMax) ∧
      (t.actVal ≤ top k → bot k ≤ sp → (st (k + 1)).cv = (st k).cv) := by
  have := C39_two_sensors_partial t hi hs hm (inp k) (st k)
  simp only [h.signs.1, h.signs.2, if_true, Bool.false_eq_true, if_false, (h.sees k).1, (h.sees k).2.1, (h.sees k).2.2,
    not_lt] at this
  rw [h.call k]
  exact this

theorem walk {f : ℕ → K} {Δ : K} (h : ∀ k, |f (k + 1) - f k| ≤ Δ) (a n : ℕ) : |f (a + n) - f a| ≤ n * Δ := by
  induction n with
  | zero => simp
  | succ n ih =>
    have h2 : f (a + (n + 1)) - f a = (f (a + n + 1) - f (a + n)) + (f (a + n) - f a) := by
      rw [← add_assoc]; ring
    rw [h2]
    refine (abs_add_le _ _).trans ?_
    push_cast
    linarith [h (a + n)]

/-- **C165, a cold storage is charged**: whenever the upper sensor is below the activation value, the controller is on. -/
theorem C165_starts_partial (h : Charged c t sp Δ top bot inp st) (hi : c.invert = false) (hs : c.slope = none)
    (hm : c.sub = none) (hval : t.actVal ≤ sp) {k : ℕ} (hk : top k < t.actVal) : (st (k + 1)).cv = c.satMax :=
  (charged_law h hi hs hm k).2.1 hk (((h.strat k).trans hk.le).trans hval)

/-- **C165, charging is completed**: once it is on, the controller stays on until the lower sensor exceeds the setpoint. -/
theorem C165_completes_partial (h : Charged c t sp Δ top bot inp st) (hi : c.invert = false) (hs : c.slope = none)
    (hm : c.sub = none) {a b : ℕ} (hab : a ≤ b) (ha : (st a).cv = c.satMax) (hb : ∀ k, a ≤ k → k < b → bot k ≤ sp) :
    (st b).cv = c.satMax := by
  induction b, hab using Nat.le_induction with
  | base => exact ha
  | succ b hab ih =>
    have hin := ih fun k h1 h2 => hb k h1 (by omega)
    obtain ⟨-, h2, h3⟩ := charged_law h hi hs hm b
    have hsp := hb b hab (by omega)
    rcases lt_or_ge (top b) t.actVal with h4 | h4
    · exact h2 h4 hsp
    · rw [h3 h4 hsp]
      exact hin

/-- **C165, no short cycles**: between two switchings the temperatures cross the distance between activation value and
setpoint: there are more than `(sp - actVal) / Δ` calls in between. -/
theorem C165_switching_partial (h : Charged c t sp Δ top bot inp st) (hi : c.invert = false) (hs : c.slope = none)
    (hm : c.sub = none) {a b : ℕ} (hab : a < b) (ha : (st (a + 1)).cv ≠ (st a).cv)
    (hb : (st (b + 1)).cv ≠ (st b).cv) (hkeep : ∀ k, a < k → k < b → (st (k + 1)).cv = (st k).cv) :
    sp - t.actVal < (b - a : ℕ) * Δ := by
  have hconst : (st b).cv = (st (a + 1)).cv := by
    have : ∀ k, a + 1 ≤ k → k ≤ b → (st k).cv = (st (a + 1)).cv := by
      intro k hk
      induction k, hk using Nat.le_induction with
      | base => intro _; rfl
      | succ k hk ih =>
        intro hkb
        rw [hkeep k (by omega) (by omega)]
        exact ih (by omega)
    exact this b (by omega) le_rfl
  have htop := abs_le.1 (walk (fun k => (h.slow k).1) a (b - a))
  have hbot := abs_le.1 (walk (fun k => (h.slow k).2) a (b - a))
  rw [show a + (b - a) = b by omega] at htop hbot
  obtain ⟨a1, a2, a3⟩ := charged_law h hi hs hm a
  obtain ⟨b1, b2, b3⟩ := charged_law h hi hs hm b
  have sa := h.strat a
  have sb := h.strat b
  rcases lt_or_ge sp (bot a) with h1 | h1
  · rcases lt_or_ge sp (bot b) with h2 | h2
    · exact absurd (by rw [b1 h2, hconst, a1 h1]) hb
    · rcases lt_or_ge (top b) t.actVal with h3 | h3
      · linarith
      · exact absurd (b3 h3 h2) hb
  · rcases lt_or_ge (top a) t.actVal with h2 | h2
    · rcases lt_or_ge sp (bot b) with h3 | h3
      · linarith
      · rcases lt_or_ge (top b) t.actVal with h4 | h4
        · exact absurd (by rw [b2 h4 h3, hconst, a2 h2 h1]) hb
        · exact absurd (b3 h4 h3) hb
    · exact absurd (a3 h2 h1) ha

/-- **C165 is false of the code for a storage that is not stratified**: the controller stays off however cold the upper
sensor is, as long as the lower sensor is hot. -/
theorem C165_fails_inversion (t : Two K) (ht : t.actLower = true ∧ t.deactLower = false) {c : Cfg K}
    (hi : c.invert = false) (hs : c.slope = none) (hm : c.sub = none) (i : Inp K) (s : St K) (_hcold : i.onVal < t.actVal)
    (hhot : i.sp < i.pv) : (ctrl c (t.run c) i s).cv = c.off := by
  have := (C39_two_sensors_partial t hi hs hm i s).1
  simp only [ht.2, Bool.false_eq_true, if_false] at this
  exact this hhot

/-- **C165 is false of the code if the activation value is above the setpoint**: between the two values the controller
switches off and on again although nothing changes at the sensors but half a kelvin. -/
theorem C165_fails_order :
    ∃ (c : Cfg ℚ) (t : Two ℚ) (i1 i2 : Inp ℚ) (s : St ℚ), c.Ok ∧ i1.sp < t.actVal ∧ i1.pv ≤ i1.onVal ∧ i2.pv ≤ i2.onVal ∧
      |i1.pv - i2.pv| ≤ 1 / 2 ∧ i1.onVal = i2.onVal ∧ i1.sp = i2.sp ∧
      (ctrl c (t.run c) i1 s).act = 0 ∧ (ctrl c (t.run c) i2 (ctrl c (t.run c) i1 s)).act = 1 := by
  refine ⟨⟨0, 1, 0, 1, 0, none, false, none, false, false⟩, ⟨70, true, false⟩, ⟨1, 60, 121 / 2, 0, 65, false⟩,
    ⟨1, 60, 60, 0, 65, false⟩, .init 0, ⟨by norm_num, by norm_num, ?_⟩, by norm_num, by norm_num, by norm_num,
    by norm_num [abs_le], rfl, rfl, by decide +kernel, by decide +kernel⟩
  intro n p h
  simp at h

/-! ## Example: a storage of two temperatures that gain 1 K per call while charging and lose 1 K otherwise -/

/-- Controller of the example: on below 50 degrees at the top, off above 60 degrees at the bottom. -/
def twoCfg : Cfg ℚ := ⟨0, 1, 0, 1, 0, none, false, none, false, false⟩

/-- Temperature of the top (the bottom is 5 K colder) and state of the controller before call `k`. -/
def twoRun : ℕ → ℚ × St ℚ
  | 0 => (55, .init 0)
  | k + 1 =>
    let (T, s) := twoRun k
    let s' := ctrl twoCfg (Two.run ⟨50, true, false⟩ twoCfg) ⟨1, 60, T - 5, 60 - (T - 5), T, false⟩ s
    (if s'.act = 1 then T + 1 else T - 1, s')

theorem two_charged : Charged twoCfg ⟨50, true, false⟩ 60 1 (fun k => (twoRun k).1) (fun k => (twoRun k).1 - 5)
    (fun k => ⟨1, 60, (twoRun k).1 - 5, 60 - ((twoRun k).1 - 5), (twoRun k).1, false⟩) (fun k => (twoRun k).2) := by
  have step : ∀ k, |(twoRun (k + 1)).1 - (twoRun k).1| ≤ 1 := by
    intro k
    have h2 : (twoRun (k + 1)).1 = if (twoRun (k + 1)).2.act = 1 then (twoRun k).1 + 1 else (twoRun k).1 - 1 := rfl
    rw [h2]
    split_ifs <;> norm_num [abs_le]
  refine ⟨fun k => rfl, fun k => ⟨rfl, rfl, rfl⟩, ⟨rfl, rfl⟩, fun k => by linarith, fun k => ⟨step k, ?_⟩⟩
  have : (twoRun (k + 1)).1 - 5 - ((twoRun k).1 - 5) = (twoRun (k + 1)).1 - (twoRun k).1 := by ring
  rw [this]
  exact step k

/-- The example switches on at call 6 and off at call 23. -/
example : (60 : ℚ) - 50 < (23 - 6 : ℕ) * 1 :=
  C165_switching_partial two_charged rfl rfl rfl (a := 6) (b := 23) (by norm_num) (by decide +kernel)
    (by decide +kernel) (fun k h1 h2 => by interval_cases k <;> decide +kernel)

end Verif.Controls
