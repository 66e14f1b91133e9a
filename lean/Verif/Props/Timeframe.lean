import Verif.Spec.Timeframe
import Verif.Model.StepControl
import Mathlib.Tactic.NormNum
import Mathlib.Tactic.Linarith

/-! # Properties of `set_timeframe`: C10 -/

namespace Verif.Timeframe
open Spec

theorem number_eq : number = Py.num? := by
  funext v
  cases v with
  | bool b => cases b <;> rfl
  | _ => rfl

theorem opt_num_ok {cond : ℚ → Bool} {d : ℚ} {v : Option Py} {x : ℚ} :
    opt Py.num? cond d v = .ok x ↔
      InRange false (fun q => cond q = true) v ∧ x = value d v := by
  unfold opt InRange value
  rw [number_eq]
  cases v with
  | none =>
    simp only [Except.ok.injEq, Option.bind_none, Option.getD_none]
    exact ⟨fun h => ⟨fun x hx => by simp at hx, h.symm⟩, fun h => h.2.symm⟩
  | some v =>
    cases h : v.num? with
    | none => simp [h]
    | some q =>
      simp only [h, Option.some.injEq, Option.bind_some, Option.getD_some]
      by_cases hc : cond q = true
      · simp only [hc, if_true, Except.ok.injEq]
        constructor
        · rintro rfl; exact ⟨fun x hx => ⟨q, by subst hx; simp [h], hc⟩, rfl⟩
        · rintro ⟨_, rfl⟩; rfl
      · simp only [hc]
        constructor
        · intro hh; simp at hh
        · rintro ⟨hh, _⟩
          obtain ⟨q', h1, h2⟩ := hh v rfl
          simp [h] at h1
          subst h1; exact absurd h2 hc

theorem opt_float_ok {cond : ℚ → Bool} {d : ℚ} {v : Option Py} {x : ℚ} :
    opt Py.float? cond d v = .ok x ↔
      InRange true (fun q => cond q = true) v ∧ x = value d v := by
  unfold opt InRange value
  rw [number_eq]
  cases v with
  | none =>
    simp only [Except.ok.injEq, Option.bind_none, Option.getD_none]
    exact ⟨fun h => ⟨fun x hx => by simp at hx, h.symm⟩, fun h => h.2.symm⟩
  | some v =>
    cases v with
    | float q =>
      simp only [Py.float?, Option.bind_some, Py.num?, Option.getD_some]
      by_cases hc : cond q = true
      · simp only [hc, if_true, Except.ok.injEq]
        exact ⟨fun h => ⟨fun x hx => ⟨q, by simpa using hx.symm, hc⟩, h.symm⟩, fun h => h.2.symm⟩
      · simp only [hc]
        constructor
        · intro hh; simp at hh
        · rintro ⟨hh, _⟩
          obtain ⟨q', h1, h2⟩ := hh _ rfl
          simp at h1
          subst h1; exact absurd h2 hc
    | int n => simp [Py.float?]
    | bool b => simp [Py.float?]
    | other => simp [Py.float?]

theorem bind_ok {ε α β : Type} {x : Except ε α} {f : α → Except ε β} {s : β} :
    (x >>= f) = .ok s ↔ ∃ a, x = .ok a ∧ f a = .ok s := by
  cases x with
  | error e => simp [bind, Except.bind]
  | ok a => simp [bind, Except.bind]

theorem checkVN_ok {v : Option Py} {b : Bool} : checkVN v = .ok b ↔ v = none ∧ b = true := by
  cases v <;> simp [checkVN, eq_comm]

theorem optBool_ok {v : Option Py} {b : Bool} :
    optBool v = .ok b ↔
      (∀ x, v = some x → ∃ b, x = .bool b) ∧ b = decide (v = some (.bool true)) := by
  cases v with
  | none => cases b <;> simp [optBool]
  | some v =>
    cases v with
    | bool c => cases b <;> cases c <;> simp [optBool, Py.bool?]
    | int n => simp [optBool, Py.bool?]
    | float q => simp [optBool, Py.bool?]
    | other => simp [optBool, Py.bool?]

/-- **C10** (exact form).  `set_timeframe(adaptive_steps=True)` succeeds exactly if all given options
are in the documented ranges, except that `max_stepsize` must exceed `1e-8` (documented: 0) and that
`check_vN` must not be given.  What it stores is the given value of each option and the default of
each omitted one. -/
theorem C10_accepts_iff_partial {tf : Py} {kw : Kwargs} {s : Stored} :
    setAdaptive tf kw = .ok s ↔
      Documented (1 / 10 ^ 8) tf kw ∧ kw "check_vN" = none ∧
      s = { timeframe := value 0 (some tf), rtol := value (1 / 1000) (kw "rtol"),
            atol := value (1 / 1000000) (kw "atol"), maxStep := value 100 (kw "max_stepsize"),
            minStep := value (1 / 10 ^ 8) (kw "min_stepsize"),
            maxFactor := value 2 (kw "max_factor"),
            minFactor := value (1 / 5) (kw "min_factor"),
            maxSpeed := decide (kw "max_speed" = some (.bool true)),
            safety := value (9 / 10) (kw "safety_factor"),
            fctrRec := value 50 (kw "factor_recovery"), timestep := 1,
            numSteps := ⌈value 0 (some tf)⌉ } := by
  unfold setAdaptive
  simp only [bind_ok, opt_num_ok, opt_float_ok, checkVN_ok, optBool_ok, decide_eq_true_eq]
  constructor
  · rintro ⟨_, ⟨h1, rfl⟩, _, ⟨h2, rfl⟩, _, ⟨h3, rfl⟩, _, ⟨h4, rfl⟩, _, ⟨h5, rfl⟩, _, ⟨h6, rfl⟩, _,
      ⟨h7, rfl⟩, _, ⟨h8, rfl⟩, _, ⟨h9, rfl⟩, _, ⟨h10, rfl⟩, _, ⟨h11, rfl⟩, h⟩
    refine ⟨⟨h1, h2, h3, h4, h5, h6, h7, h9, h10, h11⟩, h8, ?_⟩
    simp only [Except.ok.injEq] at h
    rw [← h]; simp
  · rintro ⟨⟨h1, h2, h3, h4, h5, h6, h7, h9, h10, h11⟩, h8, rfl⟩
    refine ⟨_, ⟨h1, rfl⟩, _, ⟨h2, rfl⟩, _, ⟨h3, rfl⟩, _, ⟨h4, rfl⟩, _, ⟨h5, rfl⟩, _, ⟨h6, rfl⟩, _,
      ⟨h7, rfl⟩, _, ⟨h8, rfl⟩, _, ⟨h9, rfl⟩, _, ⟨h10, rfl⟩, _, ⟨h11, rfl⟩, ?_⟩
    simp

/-- Options that meet the hypotheses: `set_timeframe(3600, True, max_stepsize=20, rtol=0.01)`. -/
def sampleKw : Kwargs := fun k =>
  if k = "max_stepsize" then some (.int 20) else if k = "rtol" then some (.float (1 / 100)) else none

example : ∃ s, setAdaptive (.int 3600) sampleKw = .ok s ∧ s.maxStep = 20 ∧ s.minStep = 1 / 10 ^ 8 :=
  ⟨⟨3600, 1/100, 1/1000000, 20, 1/10^8, 2, 1/5, false, 9/10, 50, 1, 3600⟩, by decide +kernel, rfl, rfl⟩

/-- An out-of-range option is refused whatever the other options are. -/
example (kw : Kwargs) (s : Stored) (h : kw "rtol" = some (.int 1)) :
    setAdaptive (.int 3600) kw ≠ .ok s := by
  intro hs
  obtain ⟨q, h1, _⟩ := (C10_accepts_iff_partial.1 hs).1.rtol _ h
  simp at h1

theorem inRange_value {f : Bool} {r : ℚ → Prop} {d : ℚ} {v : Option Py} (h : InRange f r v)
    (hd : v = none → r d) : r (value d v) := by
  cases v with
  | none => exact hd rfl
  | some x =>
    obtain ⟨q, h1, h2⟩ := h x rfl
    cases f with
    | true => simp at h1; subst h1; simpa [value, number] using h2
    | false => simp at h1; simpa [value, h1] using h2

/-- **C10** (consequence used by the step-size results).  Every accepted call leaves a configuration
that meets the assumptions `Cfg.Valid` of C01-C06 and the other stored numbers are in range. -/
theorem C10_stored_values_in_range {tf : Py} {kw : Kwargs} {s : Stored}
    (h : setAdaptive tf kw = .ok s) :
    0 < s.timeframe ∧ (0 < s.rtol ∧ s.rtol < 1) ∧ (0 < s.atol ∧ s.atol < 1) ∧
    (0 < s.minStep ∧ s.minStep < s.maxStep) ∧ 1 < s.maxFactor ∧
    (0 < s.minFactor ∧ s.minFactor < 1) ∧ (0 < s.safety ∧ s.safety < 1) ∧ 0 < s.fctrRec ∧
    s.timestep = 1 ∧ s.timeframe ≤ s.numSteps ∧ (s.numSteps : ℚ) < s.timeframe + 1 ∧
    (StepControl.Cfg.mk (s.minStep : ℝ) s.maxStep s.minFactor s.safety s.fctrRec).Valid := by
  obtain ⟨d, _, rfl⟩ := C10_accepts_iff_partial.1 h
  have htf := inRange_value (d := 0) d.timeframe (by simp)
  have hr := inRange_value (d := 1 / 1000) d.rtol (by norm_num)
  have ha := inRange_value (d := 1 / 1000000) d.atol (by norm_num)
  have hM := inRange_value (d := 100) d.max_stepsize (by norm_num)
  have hm := inRange_value (d := 1 / 10 ^ 8) d.min_stepsize
    (fun _ => ⟨by norm_num, hM⟩)
  have hF := inRange_value (d := 2) d.max_factor (by norm_num)
  have hf := inRange_value (d := 1 / 5) d.min_factor (by norm_num)
  have hs := inRange_value (d := 9 / 10) d.safety_factor (by norm_num)
  have hc := inRange_value (d := 50) d.factor_recovery (by norm_num)
  refine ⟨htf, hr, ha, hm, hF, hf, hs, hc, rfl, Int.le_ceil _, Int.ceil_lt_add_one _, ?_⟩
  exact ⟨Rat.cast_pos.2 hm.1, Rat.cast_lt.2 hm.2, Rat.cast_pos.2 hf.1, (Rat.cast_lt.2 hf.2).trans_eq Rat.cast_one,
    Rat.cast_pos.2 hs.1, (Rat.cast_lt.2 hs.2).trans_eq Rat.cast_one, Rat.cast_pos.2 hc⟩

example : ∃ s, setAdaptive (.float (7200 / 7)) sampleKw = .ok s ∧ s.numSteps = 1029 :=
  ⟨⟨7200 / 7, 1/100, 1/1000000, 20, 1/10^8, 2, 1/5, false, 9/10, 50, 1, 1029⟩,
    by decide +kernel, rfl⟩

/-- **C10 fails**: the documented option `check_vN` can never be given.  Whatever value (also `True` or
`False`) is passed, and however correct the other options are, a `TypeError` is raised. -/
theorem C10_fails_check_vN (tf : Py) (kw : Kwargs) (v : Py)
    (hdoc : Documented (1 / 10 ^ 8) tf kw) (h : kw "check_vN" = some v) :
    setAdaptive tf kw = .error .typeError := by
  have n1 := fun d => (opt_num_ok (d := d)).2
    ⟨(by simpa using hdoc.timeframe : InRange false (fun q => decide (0 < q) = true) _), rfl⟩
  have n2 := fun d => (opt_float_ok (d := d)).2
    ⟨(by simpa using hdoc.rtol : InRange true (fun q => decide (0 < q ∧ q < 1) = true) _), rfl⟩
  have n3 := fun d => (opt_float_ok (d := d)).2
    ⟨(by simpa using hdoc.atol : InRange true (fun q => decide (0 < q ∧ q < 1) = true) _), rfl⟩
  have n4 := fun d => (opt_num_ok (d := d)).2
    ⟨(by simpa using hdoc.max_stepsize :
      InRange false (fun q => decide (1 / 10 ^ 8 < q) = true) _), rfl⟩
  have n5 := fun d => (opt_num_ok (d := d)).2
    ⟨(by simpa using hdoc.min_stepsize :
      InRange false (fun q => decide (0 < q ∧ q < value 100 (kw "max_stepsize")) = true) _), rfl⟩
  have n6 := fun d => (opt_num_ok (d := d)).2
    ⟨(by simpa using hdoc.max_factor : InRange false (fun q => decide (1 < q) = true) _), rfl⟩
  have n7 := fun d => (opt_float_ok (d := d)).2
    ⟨(by simpa using hdoc.min_factor : InRange true (fun q => decide (0 < q ∧ q < 1) = true) _), rfl⟩
  unfold setAdaptive
  rw [n1, n2, n3, n4]
  simp only [bind, Except.bind, n5, n6, n7, h, checkVN]

example : setAdaptive (.int 3600) (fun k => if k = "check_vN" then some (.bool true) else none)
    = .error .typeError := by decide +kernel

/-- **C10 fails**: `max_stepsize=1e-9, min_stepsize=1e-10` is in the documented ranges
(`0 < min_stepsize < max_stepsize`) but refused. -/
theorem C10_fails_small_max_stepsize :
    ∃ tf kw, Documented 0 tf kw ∧ kw "check_vN" = none ∧
      setAdaptive tf kw = .error .assertionError := by
  refine ⟨.int 1, fun k => if k = "max_stepsize" then some (.float (1 / 10 ^ 9)) else
    if k = "min_stepsize" then some (.float (1 / 10 ^ 10)) else none, ?_, by decide, by decide +kernel⟩
  constructor <;> (simp [InRange, value, number]; try norm_num)

/-- **C10**, constant steps: accepted exactly if both numbers are given and positive. -/
theorem C10_fixed_accepts_iff {tf : Py} {kw : Kwargs} {s : StoredFixed} :
    setFixed tf kw = .ok s ↔
      ∃ T h v, kw "timestep" = some v ∧ number tf = some T ∧ number v = some h ∧ 0 < T ∧ 0 < h ∧
        s = ⟨T, h, ⌈T / h⌉⟩ := by
  unfold setFixed
  simp only [bind_ok, opt_num_ok]
  constructor
  · rintro ⟨T, ⟨h1, rfl⟩, h⟩
    cases hv : kw "timestep" with
    | none => simp [hv] at h
    | some v =>
      simp only [hv, bind_ok, opt_num_ok] at h
      obtain ⟨_, ⟨h2, rfl⟩, h⟩ := h
      obtain ⟨T, hT, hT'⟩ := h1 _ rfl
      obtain ⟨q, hq, hq'⟩ := h2 _ rfl
      simp at hT hq hT' hq'
      refine ⟨T, q, v, rfl, hT, hq, hT', hq', ?_⟩
      simp [value, hT, hq] at h
      exact h.symm
  · rintro ⟨T, h, v, hv, hT, hh, hT', hh', rfl⟩
    refine ⟨T, ⟨fun x hx => ⟨T, by simp at hx; subst hx; simpa using hT, by simpa using hT'⟩,
      by simp [value, hT]⟩, ?_⟩
    simp only [hv, bind_ok, opt_num_ok]
    exact ⟨h, ⟨fun x hx => ⟨h, by simp at hx; subst hx; simpa using hh, by simpa using hh'⟩,
      by simp [value, hh]⟩, rfl⟩

example : setFixed (.int 10) (fun k => if k = "timestep" then some (.float (3 / 2)) else none)
    = .ok ⟨10, 3 / 2, 7⟩ := by decide +kernel

end Verif.Timeframe
