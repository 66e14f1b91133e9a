import Mathlib.Analysis.SpecialFunctions.Pow.Real

/-!
# Adaptive step size control of the solver

Transcription of `SimEnv._heun_adaptive`, `/repo/multisim/simenv.py:3920-4260`, as far as the
control flow of the retry loop is concerned.  What the parts compute in an attempt is abstracted to
an `Attempt` record: the stability reports and the scaled error.  (`Model/Attempt.lean` models the
computation done by an attempt.)

Numbers are reals.  `err = none` stands for a not-a-number (or infinite) error estimate: both fail
the comparisons in lines 4148 and 4175, and `max(min_factor, safety * err ** (-1/3))` is
`min_factor` for both (Python's `max` keeps its first argument when the comparison with NaN fails).
-/

namespace Verif.StepControl

/-- The solver options read by the retry loop, `simenv.py:340-422`.
`order` (`simenv.py:653`) is 2 for the only supported solver and is written out below. -/
structure Cfg where
  minStep : ℝ
  maxStep : ℝ
  minFactor : ℝ
  safety : ℝ
  fctrRec : ℝ

/-- The ranges checked by `SimEnv.set_timeframe`, `simenv.py:340-416`. -/
structure Cfg.Valid (c : Cfg) : Prop where
  min_pos : 0 < c.minStep
  min_lt_max : c.minStep < c.maxStep
  minFactor_pos : 0 < c.minFactor
  minFactor_lt : c.minFactor < 1
  safety_pos : 0 < c.safety
  safety_lt : c.safety < 1
  rec_pos : 0 < c.fctrRec

/-- What one attempt reports to the retry loop. -/
structure Attempt where
  /-- Stable step proposed by the part whose stability check failed in the predictor;
  `none` if the predictor was stable (`simenv.py:3974-3992`, the loop breaks at the first one). -/
  pred : Option ℝ
  /-- Stable steps proposed by stability checks failing in the corrector (`simenv.py:4028-4049`).
  The corrector does not look at the stability flag, so these do not reject the step. -/
  corr : List ℝ
  /-- `err_rms`, `simenv.py:4144`; `none` is NaN/inf. Not computed if the predictor was unstable. -/
  err : Option ℝ

/-- Environment variables that survive between two solver calls. -/
structure Env where
  /-- `_new_step` -/
  newStep : ℝ
  /-- `_max_factor[0]` -/
  maxFactor : ℝ
  /-- `_steps_since_fail` -/
  sinceFail : ℕ

/-- State after `set_timeframe`: `simenv.py:419-422` and `376/378`. -/
def Env.init (maxFactor : ℝ) : Env := ⟨1, maxFactor, 0⟩

/-- Local state of the retry loop. -/
structure Loop where
  /-- `_h` -/
  h : ℝ
  /-- `_vN_max_step[0]`, `none` is infinity -/
  vN : Option ℝ
  maxFactor : ℝ
  sinceFail : ℕ
  /-- `cnt_instable` -/
  cnt : ℕ
  /-- increments of `_failed_steps[stepnum]` -/
  failed : ℕ

/-- Lowering of the growth limit on a stability violation,
`precomp_funs.py:738-741` (same lines in the other two checks: 870-873, 1007-1010). -/
noncomputable def damp (mf : ℝ) : ℝ :=
  if mf > 1.05 then
    (if mf ^ (0.99 : ℝ) < 1.05 then 1.05 else mf ^ (0.99 : ℝ))
  else mf

/-- `if vN_max_step[0] > local: vN_max_step[0] = local`, `precomp_funs.py:732-733`. -/
noncomputable def lower (vN : Option ℝ) (loc : ℝ) : ℝ :=
  match vN with
  | none => loc
  | some v => if v > loc then loc else v

/-- One report of a failing stability check. -/
noncomputable def report (l : Loop) (loc : ℝ) : Loop :=
  { l with vN := some (lower l.vN loc), maxFactor := damp l.maxFactor }

/-- Start of a solver call, `simenv.py:3945-3964`. -/
def Loop.start (e : Env) : Loop :=
  { h := e.newStep, vN := none, maxFactor := e.maxFactor, sinceFail := e.sinceFail + 1,
    cnt := 0, failed := 0 }

/-- `safety * err_rms ** (-1 / (order + 1))`, `simenv.py:4160-4163` and `4211-4214`. -/
noncomputable def errFactor (c : Cfg) (e : ℝ) : ℝ := c.safety * e ^ (-1 / 3 : ℝ)

/-- Growth factor after a good step, `simenv.py:4156-4166`. -/
noncomputable def growth (c : Cfg) (maxFactor : ℝ) (sinceFail : ℕ) (e : ℝ) : ℝ :=
  max 1 (min maxFactor (errFactor c e) * ((sinceFail : ℝ) / c.fctrRec) ^ 2)

/-- Shrink factor after a bad step, `simenv.py:4209-4215`. -/
noncomputable def shrink (c : Cfg) (err : Option ℝ) : ℝ :=
  match err with
  | none => c.minFactor
  | some e => max c.minFactor (errFactor c e)

/-- What the predictor reports (`Attempt.pred`) for parts whose explicit step is stable up to the given lengths: the
stable length of the first part in the order of `solve_num_expl` which is not stable with step `h`, with the factor
0.95, `simenv.py:3974-3992`, `precomp_funs.py:715-733` (`timestep / vN_div_max`, where `vN_div_max` is the step
divided by the stable length). -/
noncomputable def breach (h : ℝ) (limits : List ℝ) : Option ℝ :=
  (limits.find? fun x => decide (x < h)).map fun x => x * 0.95

/-- Outcome of one pass of the `while` loop. -/
inductive Pass where
  /-- accepted; new loop state (its `h` is the proposal for the next step) and solver state code -/
  | accept (l : Loop) (code : ℕ)
  | retry (l : Loop)
  /-- `ValueError`, `simenv.py:4245` -/
  | raise (l : Loop)

/-- One pass of the `while` loop, `simenv.py:3966-4256`. -/
noncomputable def pass (c : Cfg) (l : Loop) (a : Attempt) : Pass :=
  match a.pred with
  | some loc =>                                             -- 4223-4254
    let v := lower l.vN loc
    let l := report l loc
    let l' := { l with h := v * 0.9, failed := l.failed + 1, sinceFail := 0, cnt := l.cnt + 1 }
    if l'.cnt = 100 then .raise l' else .retry l'
  | none =>
    let l := a.corr.foldl report l
    let bad : Pass :=                                       -- 4189-4222
      if l.h = c.minStep then .accept l 6
      else
        let h' := l.h * shrink c a.err
        let h'' := if h' < c.minStep then c.minStep else h'
        .retry { l with h := h'', failed := l.failed + 1 }
    match a.err with
    | none => bad
    | some e =>
      if 0 < e ∧ e < 1 then                                 -- 4148-4174
        let h' := l.h * growth c l.maxFactor l.sinceFail e
        if h' > c.maxStep then .accept { l with h := c.maxStep } 5
        else .accept { l with h := h' } 4
      else if e = 0 then                                    -- 4175-4188
        let h' := l.h * l.maxFactor
        .accept { l with h := if h' > c.maxStep then c.maxStep else h' } 7
      else bad

/-- Result of a solver call. -/
inductive Result where
  /-- length of the accepted step (`timestep`), solver state, environment for the next call -/
  | accepted (h : ℝ) (code : ℕ) (failed : ℕ) (env : Env)
  | raised

/-- `Exec c l as r`: started in loop state `l`, the loop makes exactly the attempts `as` and then
ends with result `r`. -/
inductive Exec (c : Cfg) : Loop → List Attempt → Result → Prop
  | accept {l a l' code} : pass c l a = .accept l' code →
      Exec c l [a] (.accepted l.h code l'.failed ⟨l'.h, l'.maxFactor, l'.sinceFail⟩)
  | raise {l a l'} : pass c l a = .raise l' → Exec c l [a] .raised
  | retry {l a l' as r} : pass c l a = .retry l' → Exec c l' as r → Exec c l (a :: as) r

/-- A solver call, `simenv.py:3920-4260`. -/
def Call (c : Cfg) (e : Env) (as : List Attempt) (r : Result) : Prop :=
  Exec c (Loop.start e) as r

/-- One executed step: the environment before the call, the attempts made, the accepted length,
the solver state, the number of failed attempts recorded. -/
structure Step where
  env : Env
  attempts : List Attempt
  h : ℝ
  code : ℕ
  failed : ℕ

/-- `Sim c e steps e'`: consecutive solver calls of the main loop (`simenv.py:5071-5077`). -/
inductive Sim (c : Cfg) : Env → List Step → Env → Prop
  | nil {e} : Sim c e [] e
  | cons {e as h code failed e' ss e''} : Call c e as (.accepted h code failed e') →
      Sim c e' ss e'' → Sim c e (⟨e, as, h, code, failed⟩ :: ss) e''

/-- The stability checks never propose a step that is not positive or not shorter than the step
tried.  This is a fact about the checks (`precomp_funs.py:721-733`), proved as property C25. -/
def Honest (c : Cfg) : Loop → List Attempt → Prop
  | _, [] => True
  | l, a :: as =>
    (∀ x, (a.pred = some x ∨ x ∈ a.corr) → 0 < x ∧ x < l.h) ∧
    (∀ l', pass c l a = .retry l' → Honest c l' as)

end Verif.StepControl
