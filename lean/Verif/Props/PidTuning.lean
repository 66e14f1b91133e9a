import Verif.Model.PidTuning
import Verif.Props.Controls
import Mathlib.Tactic.Linarith
import Mathlib.Tactic.Positivity
import Mathlib.Tactic.FieldSimp

/-!
# C59: coefficients of PID controllers
-/

set_option linter.unusedSectionVars false

namespace Verif.PidTuning

variable {K : Type*} [Field K] [LinearOrder K] [IsStrictOrderedRing K]

/-- **C59**, partial (Ziegler-Nichols): for positive critical gain and period, each controller type except `I`
gets positive coefficients for exactly the terms it has, with `ki = kp / Tn` and `kd = kp * Tv` for positive
times; `PID` needs a rule.  Missing: type `I` (`C59_fails_integral_only`). -/
theorem C59_ziegler_nichols_partial {t : Terms} (ht : t ≠ .I) {kc tc : K} (hk : 0 < kc) (htc : 0 < tc)
    (r : Option Rule) (hr : t = .PID → r ≠ none) {w : K} (hw : 0 < w) :
    ∃ (c : Coeffs K) (aw : Option K), construct t (.zn kc tc r) none (.auto w) = .ok c aw ∧
      0 < c.kp ∧ c.kp < kc ∧
      (t.hasI = true → ∃ tn, 0 < tn ∧ tn < tc ∧ c.ki = c.kp / tn) ∧ (t.hasI = false → c.ki = 0) ∧
      (t.hasD = true → ∃ tv, 0 < tv ∧ tv < tc ∧ c.kd = c.kp * tv) ∧ (t.hasD = false → c.kd = 0) ∧
      (t.hasI = true → aw = some (w / c.ki) ∧ 0 < c.ki) := by
  cases t with
  | I => exact absurd rfl ht
  | P =>
    refine ⟨⟨kc * 0.5, 0, 0⟩, none, rfl, by positivity, by norm_num; linarith, ?_, fun _ => rfl, ?_, fun _ => rfl, ?_⟩ <;>
      simp [Terms.hasI, Terms.hasD]
  | PI =>
    have hki : 0 < kc * 0.45 / (tc * 0.85) := by positivity
    refine ⟨⟨kc * 0.45, kc * 0.45 / (tc * 0.85), 0⟩, some (w / (kc * 0.45 / (tc * 0.85))), ?_, by positivity,
      by norm_num; linarith, fun _ => ⟨tc * 0.85, by positivity, by norm_num; linarith, rfl⟩, by simp [Terms.hasI],
      by simp [Terms.hasD], fun _ => rfl, fun _ => ⟨rfl, hki⟩⟩
    have : windup .PI (kc * 0.45 / (tc * 0.85)) (.auto w) = some (some (w / (kc * 0.45 / (tc * 0.85)))) := by
      unfold windup
      rw [if_pos (by rfl)]
      dsimp only
      rw [if_neg hki.ne', if_pos (div_pos hw hki)]
    show finish _ (windup .PI (kc * 0.45 / (tc * 0.85)) (.auto w)) = _
    rw [this]
    rfl
  | PD =>
    refine ⟨⟨kc * 0.55, 0, kc * 0.55 * (tc * 0.15)⟩, none, rfl, by positivity, by norm_num; linarith,
      by simp [Terms.hasI], fun _ => rfl, fun _ => ⟨tc * 0.15, by positivity, by norm_num; linarith, rfl⟩,
      by simp [Terms.hasD], by simp [Terms.hasI]⟩
  | PID =>
    cases r with
    | none => exact absurd rfl (hr rfl)
    | some r =>
      obtain ⟨f1, f2, f3, e, p1, q1, p2, q2, p3, q3⟩ : ∃ f1 f2 f3 : K, (r.factors : K × K × K) = (f1, f2, f3) ∧
          0 < f1 ∧ f1 < 1 ∧ 0 < f2 ∧ f2 < 1 ∧ 0 < f3 ∧ f3 < 1 := by
        cases r <;> exact ⟨_, _, _, rfl, by norm_num, by norm_num, by norm_num, by norm_num, by norm_num, by norm_num⟩
      have hki : 0 < kc * f1 / (tc * f2) := by positivity
      refine ⟨⟨kc * f1, kc * f1 / (tc * f2), kc * f1 * (tc * f3)⟩, some (w / (kc * f1 / (tc * f2))), ?_,
        by positivity, by nlinarith, fun _ => ⟨tc * f2, by positivity, by nlinarith, rfl⟩, by simp [Terms.hasI],
        fun _ => ⟨tc * f3, by positivity, by nlinarith, rfl⟩, by simp [Terms.hasD], fun _ => ⟨rfl, hki⟩⟩
      have : windup .PID (kc * f1 / (tc * f2)) (.auto w) = some (some (w / (kc * f1 / (tc * f2)))) := by
        unfold windup
        rw [if_pos (by rfl)]
        dsimp only
        rw [if_neg hki.ne', if_pos (div_pos hw hki)]
      unfold construct
      rw [if_neg (by simp)]
      simp only [Tuning.coeffs, Tuning.windup, ziegler, Option.map_some, e, withCoeffs, multiply, this, finish]

/-- A PI controller with critical gain 2 and period 10 s. -/
example : ∃ aw, construct .PI (.zn (2 : ℚ) 10 none) none (.auto 1) = .ok ⟨9 / 10, 9 / 85, 0⟩ aw :=
  ⟨some (85 / 9), by
    rw [construct, if_neg (by decide)]
    norm_num [withCoeffs, Tuning.coeffs, Tuning.windup, multiply, finish, ziegler, windup, Terms.hasI]⟩

/-- **C59** (all ways of tuning): unless the type is `I`, an accepted controller has all coefficients, and those of
terms it does not have are 0. -/
theorem C59_coefficients_exist {t : Terms} (ht : t ≠ .I) (tu : Tuning K) (mult : Option (K × K × K)) (w : Windup K) :
    construct t tu mult w = .refused ∨
    ∃ (c : Coeffs K) (aw : Option K), construct t tu mult w = .ok c aw ∧ (t.hasI = false → c.ki = 0) ∧
      (t.hasD = false → c.kd = 0) ∧ ∀ a, aw = some a → 0 < a := by
  unfold construct
  rw [if_neg ht]
  generalize tu.windup w = w'
  generalize hc : tu.coeffs t = c
  cases c with
  | none => exact .inl rfl
  | some c =>
    have hz : (t.hasI = false → c.ki = 0) ∧ (t.hasD = false → c.kd = 0) := by
      cases tu with
      | manual kp ki kd =>
        simp only [Tuning.coeffs, Option.some.injEq] at hc
        subst hc
        exact ⟨fun h => by simp [h], fun h => by simp [h]⟩
      | tune kp =>
        simp only [Tuning.coeffs, Option.some.injEq] at hc
        subst hc
        exact ⟨fun _ => rfl, fun _ => rfl⟩
      | zn kc tc r =>
        cases t with
        | P =>
          simp only [Tuning.coeffs, ziegler, Option.some.injEq] at hc
          subst hc
          exact ⟨fun _ => rfl, fun _ => rfl⟩
        | I => exact absurd rfl ht
        | PI =>
          simp only [Tuning.coeffs, ziegler, Option.some.injEq] at hc
          subst hc
          exact ⟨by simp [Terms.hasI], fun _ => rfl⟩
        | PD =>
          simp only [Tuning.coeffs, ziegler, Option.some.injEq] at hc
          subst hc
          exact ⟨fun _ => rfl, by simp [Terms.hasD]⟩
        | PID => exact ⟨by simp [Terms.hasI], by simp [Terms.hasD]⟩
    dsimp only [withCoeffs]
    generalize hc' : multiply c mult = c'
    have hz' : (t.hasI = false → c'.ki = 0) ∧ (t.hasD = false → c'.kd = 0) := by
      cases mult with
      | none =>
        dsimp only [multiply] at hc'
        subst hc'
        exact hz
      | some m =>
        dsimp only [multiply] at hc'
        subst hc'
        exact ⟨fun h => by simp [hz.1 h], fun h => by simp [hz.2 h]⟩
    cases hwd : windup t c'.ki w' with
    | none => exact .inl rfl
    | some aw =>
      refine .inr ⟨c', aw, rfl, hz'.1, hz'.2, ?_⟩
      intro a ha
      subst ha
      unfold windup at hwd
      by_cases h1 : t.hasI = true
      · rw [if_pos h1] at hwd
        cases w' with
        | num x =>
          dsimp only at hwd
          by_cases h2 : 0 < x
          · rw [if_pos h2] at hwd
            simp only [Option.some.injEq] at hwd
            exact hwd ▸ h2
          · rw [if_neg h2] at hwd
            cases hwd
        | inf => cases hwd
        | auto x =>
          dsimp only at hwd
          by_cases h2 : c'.ki = 0
          · rw [if_pos h2] at hwd
            cases hwd
          · rw [if_neg h2] at hwd
            by_cases h3 : 0 < x / c'.ki
            · rw [if_pos h3] at hwd
              simp only [Option.some.injEq] at hwd
              exact hwd ▸ h3
            · rw [if_neg h3] at hwd
              cases hwd
      · rw [if_neg h1] at hwd
        cases hwd

/-- **C59** (automatic anti-windup): with `anti_windup='auto_X'` the contribution of the integral term of a
continuous time controller stays within `± X`, whatever happens. -/
theorem C59_auto_windup {t : Terms} {tu : Tuning K} (htu : ∀ kp, tu ≠ .tune kp) {mult : Option (K × K × K)} {x : K}
    {k : Coeffs K} {aw : Option K} (hI : t.hasI = true) (h : construct t tu mult (.auto x) = .ok k aw) (hx : 0 < x)
    (rc : Option K) (c : Controls.Cfg K) (hd : c.discrete = false) (act : K) (is : List (Controls.Inp K)) :
    let p : Controls.Pid K := ⟨k.kp, k.ki, k.kd, aw, rc⟩
    |(Controls.calls c (p.run c) (.init act) is).iTerm * k.ki| ≤ x := by
  intro p
  have ht : t ≠ .I := by
    rintro rfl
    cases mult <;> simp [construct, constructI] at h
  have haw : aw = some (x / k.ki) ∧ k.ki ≠ 0 ∧ 0 < x / k.ki := by
    unfold construct at h
    rw [if_neg ht] at h
    have hw' : tu.windup (.auto x) = .auto x := by
      cases tu with
      | tune kp => exact absurd rfl (htu kp)
      | manual _ _ _ => rfl
      | zn _ _ _ => rfl
    rw [hw'] at h
    cases hc : tu.coeffs t with
    | none =>
      rw [hc] at h
      cases h
    | some c0 =>
      rw [hc] at h
      unfold withCoeffs at h
      dsimp only at h
      generalize multiply c0 mult = c' at h
      cases hwd : windup t c'.ki (.auto x) with
      | none =>
        rw [hwd] at h
        cases h
      | some aw' =>
        rw [hwd] at h
        unfold finish at h
        simp only [Outcome.ok.injEq] at h
        obtain ⟨rfl, rfl⟩ := h
        unfold windup at hwd
        rw [if_pos hI] at hwd
        dsimp only at hwd
        split_ifs at hwd with h2 h3
        simp only [Option.some.injEq] at hwd
        exact ⟨hwd.symm, h2, h3⟩
  obtain ⟨h1, h2, h3⟩ := haw
  have hki : 0 < k.ki := (div_pos_iff_of_pos_left hx).1 h3
  have := Controls.C36_integral_bounded c hd p h3 h1 act is
  rw [abs_mul, abs_of_pos hki]
  calc _ ≤ x / k.ki * k.ki := mul_le_mul_of_nonneg_right this hki.le
    _ = x := div_mul_cancel₀ _ h2

/-- **C59** is false of the code for the type `I`: it is accepted, with any tuning, but has no coefficients; its
first call ends with an `AttributeError`. -/
theorem C59_fails_integral_only (tu : Tuning K) {x : K} (hx : 0 < x) :
    construct .I tu none (.num x) = .noCoeffs (some x) := by
  simp [construct, constructI, hx]

/-- The explanation of the rules in the error message (`controllers.py:176-190`) is false: the Pessen rule has the
higher, not the lower integral coefficient, and for the two rules with less overshoot neither is the integral
coefficient unchanged nor the derivative coefficient 2.64 times the classic one. -/
theorem C59_fails_explanation {kc tc : K} (hk : 0 < kc) (ht : 0 < tc) :
    ∃ c p s n : Coeffs K, ziegler .PID kc tc (some .classic) = some c ∧
      ziegler .PID kc tc (some .pessenInt) = some p ∧ ziegler .PID kc tc (some .someOs) = some s ∧
      ziegler .PID kc tc (some .noOs) = some n ∧
      c.ki < p.ki ∧ s.ki < c.ki ∧ n.ki < c.ki ∧ s.kd < 2 * c.kd ∧ n.kd < c.kd := by
  refine ⟨_, _, _, _, rfl, rfl, rfl, rfl, ?_, ?_, ?_, ?_, ?_⟩ <;> dsimp only [Rule.factors]
  · rw [div_lt_div_iff₀ (by positivity) (by positivity)]
    nlinarith [mul_pos hk ht]
  · rw [div_lt_div_iff₀ (by positivity) (by positivity)]
    nlinarith [mul_pos hk ht]
  · rw [div_lt_div_iff₀ (by positivity) (by positivity)]
    nlinarith [mul_pos hk ht]
  · nlinarith [mul_pos hk ht]
  · nlinarith [mul_pos hk ht]

/-- **C59** (`K_mult`): factors for the coefficients multiply each coefficient by its own factor and change nothing else;
with automatic anti-windup the limit is divided by the factor of the integral coefficient, so that the contribution of the
integral term keeps its limit. -/
theorem C59_factors {t : Terms} (ht : t ≠ .I) {tu : Tuning K} {w : Windup K} {c : Coeffs K} {aw : Option K}
    (h : construct t tu none w = .ok c aw) (a b d : K) (hb : 0 < b) :
    ∃ aw', construct t tu (some (a, b, d)) w = .ok ⟨c.kp * a, c.ki * b, c.kd * d⟩ aw' ∧
      (aw' = aw ∨ ∃ x, w = .auto x ∧ aw' = aw.map (· / b)) := by
  have hc : ∃ k, tu.coeffs t = some k := by
    unfold construct at h
    rw [if_neg ht] at h
    cases e : tu.coeffs t with
    | none => rw [e] at h; simp [withCoeffs] at h
    | some k => exact ⟨k, rfl⟩
  obtain ⟨k, hk⟩ := hc
  unfold construct at h ⊢
  rw [if_neg ht, hk] at h ⊢
  simp only [withCoeffs, multiply] at h ⊢
  unfold windup at h ⊢
  have fin : ∀ {c' : Coeffs K} {o : Option (Option K)}, finish c' o = .ok c aw → c' = c ∧ o = some aw := by
    intro c' o ho
    cases o with
    | none => simp [finish] at ho
    | some v => simpa [finish] using ho
  obtain ⟨e1, e2⟩ := fin h
  subst e1
  by_cases hI : t.hasI = true
  · rw [if_pos hI] at e2 ⊢
    rcases hw : tu.windup w with x | _ | x
    · rw [hw] at e2
      dsimp only at e2 ⊢
      rw [e2]
      exact ⟨aw, rfl, .inl rfl⟩
    · rw [hw] at e2
      dsimp only at e2 ⊢
      rw [e2]
      exact ⟨aw, rfl, .inl rfl⟩
    · rw [hw] at e2
      dsimp only at e2 ⊢
      split_ifs at e2 with h1 h2
      cases e2
      have h3 : k.ki * b ≠ 0 := mul_ne_zero h1 hb.ne'
      have h4 : x / (k.ki * b) = x / k.ki / b := by rw [div_div]
      rw [if_neg h3, h4, if_pos (div_pos h2 hb)]
      refine ⟨_, rfl, .inr ⟨x, ?_, rfl⟩⟩
      cases tu <;> simp_all [Tuning.windup]
  · rw [if_neg hI] at e2 ⊢
    cases e2
    exact ⟨_, rfl, .inl rfl⟩

/-- **C59** (manual tuning): the coefficients are those given, for the terms the controller has. -/
theorem C59_manual {t : Terms} (ht : t ≠ .I) (kp ki kd : K) {x : K} (hx : 0 < x) :
    ∃ c aw, construct t (.manual kp ki kd) none (.num x) = .ok c aw ∧ c.kp = kp ∧
      (t.hasI = true → c.ki = ki ∧ aw = some x) ∧ (t.hasD = true → c.kd = kd) := by
  cases t <;> simp_all [construct, withCoeffs, Tuning.coeffs, Tuning.windup, windup, multiply, finish, Terms.hasI, Terms.hasD]

/-- A PID controller with three different factors. -/
example : ∃ aw', construct .PID (.manual (2 : ℚ) 3 5) (some (7, 1 / 2, 11)) (.auto 6) = .ok ⟨2 * 7, 3 * (1 / 2), 5 * 11⟩ aw' ∧
    (aw' = some 2 ∨ ∃ x, Windup.auto (6 : ℚ) = .auto x ∧ aw' = (some (2 : ℚ)).map (· / (1 / 2))) :=
  C59_factors (K := ℚ) (t := .PID) (tu := .manual 2 3 5) (w := .auto 6) (by decide) (c := ⟨2, 3, 5⟩) (aw := some 2)
    (by rw [construct, if_neg (by decide)]; norm_num [ withCoeffs, Tuning.coeffs, Tuning.windup, windup, multiply, finish, Terms.hasI, Terms.hasD]) 7 (1 / 2) 11
    (by norm_num)

end Verif.PidTuning
