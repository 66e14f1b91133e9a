import Verif.Props.Controls
import Verif.Props.PidTuning

/-!
# C214: controllers do not depend on the unit of the process value
-/

set_option linter.unusedSectionVars false

namespace Verif.Controls

variable {K : Type*} [Field K] [LinearOrder K] [IsStrictOrderedRing K]

/-- Specification: what a controller sees when process value and setpoint are expressed in another unit, in which `x` is `a x + b`
(for example degrees Fahrenheit instead of degrees Celsius). -/
def Inp.inUnit (a b : K) (i : Inp K) : Inp K :=
  { i with sp := a * i.sp + b, pv := a * i.pv + b, error := a * i.error, onVal := a * i.onVal + b }

/-- Specification: a controller with its settings converted to the other unit.  The limit of the integral term is a limit of an integral of
deviations in the continuous version, and a limit of the control value in the discrete version. -/
def Law.inUnit (a b : K) (discrete : Bool) : Law K → Law K
  | .pid p => .pid { p with
      kp := p.kp / a
      ki := p.ki / a
      kd := p.kd / a
      aw := if discrete then p.aw else p.aw.map (a * ·) }
  | .bang h => .bang (a * h)
  | .two t => .two { t with actVal := a * t.actVal + b }

/-- The state in the other unit. -/
def St.inUnit (a : K) (s : St K) : St K :=
  { s with
    error := a * s.error
    prevError := a * s.prevError
    prev2Error := a * s.prev2Error
    iTerm := a * s.iTerm
    prevITerm := a * s.prevITerm
    deriv := a * s.deriv }

theorem clipAw_scale {a : K} (ha : 0 < a) (aw : Option K) (x : K) : clipAw (aw.map (a * ·)) (a * x) = a * clipAw aw x := by
  cases aw with
  | none => rfl
  | some w =>
    simp only [Option.map_some, clipAw]
    simp only [← mul_neg, mul_lt_mul_iff_right₀ ha]
    split_ifs <;> ring

theorem shift_inUnit (a b : K) (c : Cfg K) (i : Inp K) (s : St K) : shift c (i.inUnit a b) (s.inUnit a) = (shift c i s).inUnit a := by
  unfold shift St.inUnit Inp.inUnit
  dsimp only
  split_ifs <;> rfl

theorem slopeLimit_inUnit (a b : K) (c : Cfg K) (i : Inp K) (s : St K) :
    slopeLimit c (i.inUnit a b) (s.inUnit a) = (slopeLimit c i s).inUnit a := by
  unfold slopeLimit
  cases c.slope <;> rfl

theorem subCheck_inUnit (a b : K) (c : Cfg K) (pid : Bool) (i : Inp K) (s : St K) :
    subCheck c pid (i.inUnit a b) (s.inUnit a) = (subCheck c pid i s).inUnit a := by
  unfold subCheck
  rw [show offByMaster c (i.inUnit a b) = offByMaster c i from rfl]
  split_ifs <;> simp [St.inUnit]

theorem filter_inUnit (a b : K) (p p' : Pid K) (h : p'.rc = p.rc) (i : Inp K) (s : St K) (d : K) :
    p'.filter (i.inUnit a b) (s.inUnit a) (a * d) = a * p.filter i s d := by
  unfold Pid.filter
  rw [h]
  cases p.rc with
  | none => rfl
  | some rc =>
    show a * s.deriv + i.dt / (rc + i.dt) * (a * d - a * s.deriv) = a * (s.deriv + i.dt / (rc + i.dt) * (d - s.deriv))
    ring

theorem pidLaw_inUnit {a : K} (ha : 0 < a) (b : K) {p p' : Pid K} (c : Cfg K) (hp : p'.kp = p.kp / a) (hi : p'.ki = p.ki / a)
    (hd : p'.kd = p.kd / a) (hw : p'.aw = if c.discrete then p.aw else p.aw.map (a * ·)) (hr : p'.rc = p.rc) (i : Inp K) (s : St K) :
    p'.law c (i.inUnit a b) (s.inUnit a) = (p.law c i s).inUnit a := by
  have ha' := ha.ne'
  have hf : ∀ d x : K, x = a * d → p'.filter (i.inUnit a b) (s.inUnit a) x = a * p.filter i s d := fun d x hx => by
    rw [hx]
    exact filter_inUnit a b p p' hr i s d
  have k0 : p'.ki ≠ 0 ↔ p.ki ≠ 0 := by
    rw [hi, Ne, div_eq_zero_iff, not_or]
    exact ⟨fun h => h.1, fun h => ⟨h, ha'⟩⟩
  have e1 : (s.inUnit a).error - (s.inUnit a).prevError = a * (s.error - s.prevError) := by simp only [St.inUnit]; ring
  have e2 : (s.inUnit a).error - 2 * (s.inUnit a).prevError + (s.inUnit a).prev2Error =
      a * (s.error - 2 * s.prevError + s.prev2Error) := by simp only [St.inUnit]; ring
  have e3 : (i.inUnit a b).dt * (s.inUnit a).error + (s.inUnit a).prevITerm = a * (i.dt * s.error + s.prevITerm) := by
    simp only [St.inUnit, Inp.inUnit]; ring
  have mc : ∀ k x : K, k / a * (a * x) = k * x := fun k x => by field_simp
  unfold Pid.law
  by_cases hc : c.discrete = true
  · rw [if_pos hc] at hw
    rw [if_pos hc, if_pos hc]
    by_cases hk : p.ki ≠ 0
    · rw [if_pos (k0.2 hk), if_pos hk, hf _ _ e2, hp, hi, hd, hw, e1]
      simp only [St.inUnit, Inp.inUnit, St.mk.injEq, and_true]
      congr 1
      rw [mc, show p.ki / a * i.dt * (a * s.error) = p.ki / a * (a * (i.dt * s.error)) by ring, mc, div_right_comm, mc, ← mul_assoc]
    · rw [if_neg (fun h => hk (k0.1 h)), if_neg hk, hf _ _ e1, hp, hd]
      simp only [St.inUnit, Inp.inUnit, St.mk.injEq, and_true]
      congr 1
      rw [mc, div_right_comm, mc]
  · rw [if_neg hc] at hw
    rw [if_neg hc, if_neg hc, hf _ _ e1, e3, hp, hi, hd, hw, clipAw_scale ha]
    simp only [St.inUnit, Inp.inUnit, St.mk.injEq, and_true]
    congr 2
    rw [mc, mc, mul_div_assoc, mc]

theorem bangLaw_inUnit {a : K} (ha : 0 < a) (b h : K) (c : Cfg K) (i : Inp K) (s : St K) :
    bangBangLaw (a * h) c (i.inUnit a b) (s.inUnit a) = (bangBangLaw h c i s).inUnit a := by
  unfold bangBangLaw
  have h1 : (i.inUnit a b).pv < (i.inUnit a b).sp - |a * h| / 2 ↔ i.pv < i.sp - |h| / 2 := by
    simp only [Inp.inUnit]
    rw [abs_mul, abs_of_pos ha, show a * i.sp + b - a * |h| / 2 = a * (i.sp - |h| / 2) + b by ring, add_lt_add_iff_right,
      mul_lt_mul_iff_right₀ ha]
  have h2 : (i.inUnit a b).sp + |a * h| / 2 < (i.inUnit a b).pv ↔ i.sp + |h| / 2 < i.pv := by
    simp only [Inp.inUnit]
    rw [abs_mul, abs_of_pos ha, show a * i.sp + b + a * |h| / 2 = a * (i.sp + |h| / 2) + b by ring, add_lt_add_iff_right,
      mul_lt_mul_iff_right₀ ha]
  have h3 : a * h < 0 ↔ h < 0 := by
    rw [← mul_lt_mul_iff_right₀ ha (b := h), mul_zero]
  simp only [h1, h2, h3]
  rfl

theorem twoLaw_inUnit {a : K} (ha : 0 < a) (b : K) (t : Two K) (c : Cfg K) (i : Inp K) (s : St K) :
    Two.law { t with actVal := a * t.actVal + b } c (i.inUnit a b) (s.inUnit a) = (t.law c i s).inUnit a := by
  unfold Two.law
  have h1 : Two.off { t with actVal := a * t.actVal + b } (i.inUnit a b) ↔ t.off i := by
    unfold Two.off
    simp only [Inp.inUnit, add_lt_add_iff_right, mul_lt_mul_iff_right₀ ha]
  have h2 : Two.on { t with actVal := a * t.actVal + b } (i.inUnit a b) ↔ t.on i := by
    unfold Two.on
    simp only [Inp.inUnit, add_lt_add_iff_right, mul_lt_mul_iff_right₀ ha]
  simp only [h1, h2]
  rfl

theorem run_inUnit {a : K} (ha : 0 < a) (b : K) (l : Law K) (c : Cfg K) (i : Inp K) (s : St K) :
    (l.inUnit a b c.discrete).run c (i.inUnit a b) (s.inUnit a) = (l.run c i s).inUnit a := by
  cases l with
  | pid p =>
    show subCheck c true _ (Pid.law _ c _ _) = _
    rw [pidLaw_inUnit ha b (p := p) (p' := ⟨p.kp / a, p.ki / a, p.kd / a, if c.discrete then p.aw else p.aw.map (a * ·), p.rc⟩) c
      rfl rfl rfl rfl rfl, subCheck_inUnit]
    rfl
  | bang h =>
    show subCheck c false _ (bangBangLaw _ c _ _) = _
    rw [bangLaw_inUnit ha, subCheck_inUnit]
    rfl
  | two t =>
    show subCheck c false _ (Two.law _ c _ _) = _
    rw [twoLaw_inUnit ha, subCheck_inUnit]
    rfl

theorem ctrl_inUnit {a : K} (ha : 0 < a) (b : K) (l : Law K) (c : Cfg K) (i : Inp K) (s : St K) :
    ctrl c ((l.inUnit a b c.discrete).run c) (i.inUnit a b) (s.inUnit a) = (ctrl c (l.run c) i s).inUnit a := by
  unfold ctrl
  rw [shift_inUnit, run_inUnit ha, slopeLimit_inUnit]
  rfl

theorem calls_inUnit {a : K} (ha : 0 < a) (b : K) (l : Law K) (c : Cfg K) : ∀ (is : List (Inp K)) (s : St K),
    calls c ((l.inUnit a b c.discrete).run c) (s.inUnit a) (is.map (Inp.inUnit a b)) = (calls c (l.run c) s is).inUnit a
  | [], s => rfl
  | i :: is, s => by
    show calls c _ (ctrl c _ _ _) _ = _
    rw [ctrl_inUnit ha, calls_inUnit ha b l c is]
    rfl

/-- **C214**: a controller whose settings are converted to another unit of the process value does the same to its actuator, after every
sequence of calls, for all three kinds of controllers. -/
theorem C214_units {a : K} (ha : 0 < a) (b : K) (l : Law K) (c : Cfg K) (act : K) (is : List (Inp K)) :
    (calls c ((l.inUnit a b c.discrete).run c) (St.init act) (is.map (Inp.inUnit a b))).act = (calls c (l.run c) (St.init act) is).act ∧
    (calls c ((l.inUnit a b c.discrete).run c) (St.init act) (is.map (Inp.inUnit a b))).cv = (calls c (l.run c) (St.init act) is).cv := by
  have h := calls_inUnit ha b l c is (St.init act)
  have h0 : (St.init act : St K).inUnit a = St.init act := by simp [St.inUnit, St.init]
  rw [h0] at h
  rw [h]
  exact ⟨rfl, rfl⟩

open PidTuning in
/-- **C214** (tuning): a controller that was tuned with a critical gain in the other unit is the converted controller: its coefficients are
the converted ones, and so is its automatic limit of the integral term. -/
theorem C214_tuning {a : K} (ha : 0 < a) {t : Terms} (kc tc : K) (r : Option Rule) {m : Option (K × K × K)} {x : K} {q : Coeffs K}
    {aw : Option K} (h : construct t (.zn kc tc r) m (.auto x) = .ok q aw) :
    construct t (.zn (kc / a) tc r) m (.auto x) = .ok ⟨q.kp / a, q.ki / a, q.kd / a⟩ (aw.map (a * ·)) := by
  unfold construct at h ⊢
  by_cases hI : t = .I
  · rw [if_pos hI] at h
    cases m <;> simp [constructI] at h
  rw [if_neg hI] at h ⊢
  simp only [Tuning.coeffs, Tuning.windup] at h ⊢
  have hz : ziegler t (kc / a) tc r = (ziegler t kc tc r).map fun q => ⟨q.kp / a, q.ki / a, q.kd / a⟩ := by
    cases t <;> cases r <;> simp only [ziegler, Option.map_some, Option.map_none, zero_div] <;> ring_nf
  rw [hz]
  cases e : ziegler t kc tc r with
  | none => rw [e] at h; simp [withCoeffs] at h
  | some z =>
    rw [e] at h
    simp only [withCoeffs, Option.map_some] at h ⊢
    have hm : multiply ⟨z.kp / a, z.ki / a, z.kd / a⟩ m = ⟨(multiply z m).kp / a, (multiply z m).ki / a, (multiply z m).kd / a⟩ := by
      cases m with
      | none => rfl
      | some m => simp only [multiply, Coeffs.mk.injEq]; refine ⟨?_, ?_, ?_⟩ <;> ring
    rw [hm]
    generalize multiply z m = y at h ⊢
    have hx : x / (y.ki / a) = a * (x / y.ki) := by
      rw [div_div_eq_mul_div]; ring
    have k0 : y.ki / a = 0 ↔ y.ki = 0 := by
      rw [div_eq_zero_iff]
      exact ⟨fun h => h.resolve_right ha.ne', Or.inl⟩
    have hpos : 0 < a * (x / y.ki) ↔ 0 < x / y.ki := mul_pos_iff_of_pos_left ha
    unfold windup at h ⊢
    simp only [k0, hx, hpos]
    split_ifs at h ⊢ <;> simp_all [finish] <;> obtain ⟨rfl, rfl⟩ := h <;> simp

/-- The hypothesis of `C214_tuning` for a PI controller with critical gain 2 and critical period 17. -/
example : PidTuning.construct .PI (.zn 2 17 none) none (.auto (9 / 10)) =
    (.ok ⟨9 / 10, 18 / 289, 0⟩ (some (289 / 20)) : PidTuning.Outcome ℚ) := by
  unfold PidTuning.construct
  rw [if_neg (by decide)]
  norm_num [PidTuning.withCoeffs, PidTuning.Tuning.coeffs, PidTuning.Tuning.windup, PidTuning.ziegler,
    PidTuning.multiply, PidTuning.windup, PidTuning.finish, PidTuning.Terms.hasI]

/-- A PI controller with 2 % per kelvin that sees a deviation of 10 K for 5 s, and the same in degrees Fahrenheit. -/
example : let c : Cfg ℚ := ⟨0, 1, 0, 1, 0, none, false, none, false, false⟩
    let l : Law ℚ := .pid ⟨1 / 50, 1 / 1000, 0, some 100, none⟩
    (calls c (l.run c) (St.init 0) [⟨5, 60, 50, 10, 0, false⟩]).act = 1 / 4 ∧
    (calls c ((l.inUnit (9 / 5) 32 false).run c) (St.init 0) [⟨5, 140, 122, 18, 32, false⟩]).act = 1 / 4 := by
  decide +kernel

end Verif.Controls
