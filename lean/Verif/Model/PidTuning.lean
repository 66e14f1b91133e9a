import Verif.Model.Controls
import Mathlib.Tactic.NormNum

/-!
# Coefficients of PID controllers

Transcription of `PID.__init__` (`/repo/multisim/parts/controllers.py:15-364`) as far as it sets `kp`, `ki`, `kd`
and `_anti_windup`.  The checks of argument types are left out: arguments have the right type.
-/

namespace Verif.PidTuning

variable {K : Type*} [Field K] [LinearOrder K]

/-- `terms`. -/
inductive Terms | P | I | PI | PD | PID
  deriving DecidableEq

/-- `'I' in terms`. -/
def Terms.hasI : Terms → Bool
  | .I | .PI | .PID => true
  | _ => false

/-- `'D' in terms`. -/
def Terms.hasD : Terms → Bool
  | .PD | .PID => true
  | _ => false

/-- `rule`. -/
inductive Rule | classic | pessenInt | someOs | noOs
  deriving DecidableEq

/-- `loop_tuning` with the arguments that belong to it. -/
inductive Tuning (K : Type*) where
  | manual (kp ki kd : K)
  | tune (kp : K)
  | zn (kpCrit tCrit : K) (rule : Option Rule)

/-- `kp`, `ki`, `kd`. -/
structure Coeffs (K : Type*) where
  kp : K
  ki : K
  kd : K

/-- Factors for `kp`, the time constants `t_n`, `t_v` of the rules, `controllers.py:222-263`. -/
def Rule.factors : Rule → K × K × K
  | .classic => (0.6, 0.5, 0.125)
  | .pessenInt => (0.7, 0.4, 0.15)
  | .someOs => (0.33, 0.5, 0.33)
  | .noOs => (0.2, 0.5, 0.33)

/-- Ziegler-Nichols, `controllers.py:195-263`; `none` is the assertion on a missing rule.  Term `I` does not get
here. -/
def ziegler (t : Terms) (kc tc : K) (rule : Option Rule) : Option (Coeffs K) :=
  match t with
  | .P => some ⟨kc * 0.5, 0, 0⟩
  | .PI => some ⟨kc * 0.45, kc * 0.45 / (tc * 0.85), 0⟩
  | .PD => some ⟨kc * 0.55, 0, kc * 0.55 * (tc * 0.15)⟩
  | .PID => rule.map fun r =>
      let f : K × K × K := r.factors
      ⟨kc * f.1, kc * f.1 / (tc * f.2.1), kc * f.1 * (tc * f.2.2)⟩
  | .I => none

/-- Outcome of the constructor. -/
inductive Outcome (K : Type*) where
  /-- `AssertionError` or another error. -/
  | refused
  /-- Constructed, but `kp`, `ki`, `kd` do not exist. -/
  | noCoeffs (aw : Option K)
  /-- Constructed. -/
  | ok (c : Coeffs K) (aw : Option K)

/-- `anti_windup`: a number, infinity, or `'auto_X'`. -/
inductive Windup (K : Type*) where
  | num (x : K)
  | inf
  | auto (x : K)

/-- `_anti_windup` (`none` for infinity), `controllers.py:342-364`, for the existing coefficient `ki`; the outer
`none` is an error (division by zero, or not positive). -/
def windup (t : Terms) (ki : K) (w : Windup K) : Option (Option K) :=
  if t.hasI then
    match w with
    | .num x => if 0 < x then some (some x) else none
    | .inf => some none
    | .auto x => if ki = 0 then none else if 0 < x / ki then some (some (x / ki)) else none
  else some none

/-- `loop_tuning='tune'` overwrites `anti_windup` with infinity, `controllers.py:132-141`. -/
def Tuning.windup (w : Windup K) : Tuning K → Windup K
  | .tune _ => .inf
  | _ => w

/-- Coefficients of a controller of a type other than `I`, `controllers.py:86-263`. -/
def Tuning.coeffs (t : Terms) : Tuning K → Option (Coeffs K)
  | .manual kp ki kd => some ⟨kp, if t.hasI then ki else 0, if t.hasD then kd else 0⟩
  | .tune kp => some ⟨kp, 0, 0⟩
  | .zn kc tc r => ziegler t kc tc r

/-- `K_mult`, `controllers.py:264-295`. -/
def multiply (c : Coeffs K) : Option (K × K × K) → Coeffs K
  | none => c
  | some m => ⟨c.kp * m.1, c.ki * m.2.1, c.kd * m.2.2⟩

/-- Type `I`: the branch `if self.terms in ['P', 'PI', 'PD', 'PID']` (line 50) is skipped, so no coefficients
exist; using one of them is an `AttributeError`. -/
def constructI : Option (K × K × K) → Windup K → Outcome K
  | some _, _ => .refused
  | none, .auto _ => .refused
  | none, .inf => .noCoeffs none
  | none, .num x => if 0 < x then .noCoeffs (some x) else .refused

/-- Last step of the constructor. -/
def finish (c : Coeffs K) : Option (Option K) → Outcome K
  | none => .refused
  | some aw => .ok c aw

/-- The constructor with the coefficients found. -/
def withCoeffs (t : Terms) (mult : Option (K × K × K)) (w : Windup K) : Option (Coeffs K) → Outcome K
  | none => .refused
  | some c => finish (multiply c mult) (windup t (multiply c mult).ki w)

/-- `PID.__init__`, with `K_mult` and `anti_windup`. -/
def construct (t : Terms) (tu : Tuning K) (mult : Option (K × K × K)) (w : Windup K) : Outcome K :=
  if t = .I then constructI mult w else withCoeffs t mult (tu.windup w) (tu.coeffs t)

end Verif.PidTuning
