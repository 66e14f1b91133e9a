import Verif.Model.Controls
import Mathlib.Data.Real.Sqrt

/-!
# Predictive CHP controller

Transcription of `ModelPredCHP.run_controller` and its helpers
(`/repo/multisim/parts/controllers.py:1591-2199`).  The results of the two optimisers of scipy are inputs of a
call: anything for the long-term plan, a value inside the bounds for the short-term optimisation (method
`bounded` only evaluates inside).  `Verif/Model/Tariff.lean` has the cost function.

Not modelled here: reading the profiles; the recorded histories are in `Model/PlanRecords.lean`, `_preopt_x0` in `Model/Preopt.lean`.
-/

namespace Verif.ModelPred

variable {K : Type*} [Field K] [LinearOrder K]

open Controls (Two)

/-- Settings, `controllers.py:674-1240`, besides those of every controller (`Controls.Cfg`). -/
structure Cfg (K : Type*) where
  base : Controls.Cfg K
  two : Two K
  /-- `use_hysteresis`, `hysteresis`, `full_power_offset`. -/
  useHyst : Bool
  hyst : K
  fpDiff : K
  /-- `mod_range`. -/
  lo : K
  up : K
  /-- `increase_continuity`. -/
  cont : Bool
  /-- `tes_soc_minmax`. -/
  capLo : K
  capHi : K
  /-- `tes_cap_restore_time`. -/
  restore : K

/-- What the constructor checks, `controllers.py:778-800, 843-851, 940-956, 989-997`, `controls.py:156`. -/
structure Cfg.Ok (c : Cfg K) : Prop where
  sat : c.base.satMin < c.base.satMax
  hyst : 0 ≤ c.hyst
  fp : 0 ≤ c.fpDiff
  lo : 0 ≤ c.lo
  loUp : c.lo ≤ c.up
  up : c.up ≤ 1
  capLo : 0 ≤ c.capLo
  cap : c.capLo < c.capHi
  restore : 0 < c.restore

/-- One of the two adaptable storage capacities: `_tes_caps_adpt[i]`, `_tes_cap_adpt_lo`/`_hi`,
`_time_last_cap_adpt[i]`. -/
structure Cap (K : Type*) where
  cur : K
  backup : K
  time : K

/-- Attributes that change. -/
structure St (K : Type*) where
  cv : K
  /-- `opt_chp_now`. -/
  opt : K
  /-- `_emerg_cnsctv`, `_emerg_on`. -/
  cnsctv : Bool
  emergOn : Bool
  /-- `_lt_prev_opt`. -/
  ltPrev : K
  lo : Cap K
  hi : Cap K
  /-- `_caps_adapted`. -/
  adapted : Bool

/-- State after construction; `opt_chp_now` does not exist before the first call, which sets it. -/
def St.init (c : Cfg K) : St K :=
  ⟨0, 0, false, false, 0, ⟨c.capLo, c.capLo, 0⟩, ⟨c.capHi, c.capHi, 0⟩, false⟩

/-- What a call sees. -/
structure Inp (K : Type*) where
  base : Controls.Inp K
  /-- `time_sim`. -/
  time : K
  /-- `_tes_heat_content()`. -/
  content : K
  /-- `time_sim >= _opt_steps[-1]`. -/
  due : Bool
  /-- First entry of the adjusted plan; `none` is NaN. -/
  plan : Option K
  /-- Result of the short-term optimisation. -/
  short : K

/-! ## Emergency control -/

/-- `_hyst`, `controllers.py:1675-1678`. -/
def hystNow (c : Cfg K) (s : St K) : K := if c.useHyst && s.cnsctv then c.hyst else 0

/-- The activation condition, `controllers.py:1682, 1698`. -/
def on (c : Cfg K) (i : Inp K) (s : St K) : Prop :=
  if c.two.actLower then i.base.onVal < c.two.actVal + hystNow c s else c.two.actVal - hystNow c s < i.base.onVal

/-- The full power condition, `controllers.py:789-793, 1690, 1706`. -/
def full (c : Cfg K) (i : Inp K) : Prop :=
  if c.two.actLower then i.base.onVal < c.two.actVal - c.fpDiff else c.two.actVal + c.fpDiff < i.base.onVal

instance (c : Cfg K) (i : Inp K) (s : St K) : Decidable (on c i s) := by unfold on; infer_instance
instance (c : Cfg K) (i : Inp K) : Decidable (full c i) := by unfold full; infer_instance

/-- `_adapt_cap`, `controllers.py:1757-1783`. -/
def adaptCap (lower : Bool) (i : Inp K) (s : St K) : St K :=
  if s.cnsctv then s
  else if lower then { s with lo := ⟨i.content, i.content, i.time⟩, adapted := true }
  else { s with hi := ⟨i.content, i.content, i.time⟩, adapted := true }

/-- Activation, `controllers.py:1681-1712`. -/
def activate (c : Cfg K) (i : Inp K) (s : St K) : St K :=
  if on c i s then
    adaptCap c.two.actLower i { s with
      cv := c.base.satMax, opt := if full c i then c.base.satMax * 2 else c.base.satMax, emergOn := true }
  else s

/-- Deactivation, `controllers.py:1715-1734`. -/
def deactivate (c : Cfg K) (i : Inp K) (s : St K) : St K :=
  if c.two.off i.base then
    adaptCap c.two.deactLower i { s with cv := c.base.off, opt := c.base.off, emergOn := false }
  else s

/-- `emerg_cntrl`. -/
def emerg (c : Cfg K) (i : Inp K) (s : St K) : Bool := decide (on c i s) || decide (c.two.off i.base)

/-- `_emergency_control`, `controllers.py:1666-1755`. -/
def emergency (c : Cfg K) (i : Inp K) (s : St K) : St K :=
  { deactivate c i (activate c i s) with cnsctv := emerg c i s }

/-! ## Long-term plan -/

/-- `_longterm_clip_array` for one entry, `controllers.py:1929-1937`. -/
def clipEntry (lo atol x : K) : K :=
  let x := if x < lo - atol then 0 else x
  let x := if x < lo ∧ x ≠ 0 then 1 / 2 else x
  if 1 < x then 1 else x

/-- `_longterm_clip_w_cont` for the threshold below which the plant is switched off,
`controllers.py:1973-2015`. -/
def clipTo (lo thr : K) : Option K → K
  | none => 0
  | some x => if lo ≤ x ∧ x ≤ 1 then x else if 1 < x then 1 else if thr ≤ x then lo else 0

/-- `_longterm_clip_w_cont`; `atol=1e-2`. -/
def clipCont (c : Cfg K) (prev : K) (x : Option K) : K :=
  if c.cont = true ∧ ¬ c.lo ≤ prev then clipTo c.lo (c.lo - 1 / 100) x else clipTo c.lo (c.lo / 2) x

/-- Factor of `_restore_adptd_caps`, `controllers.py:2031-2042`, before it is limited to 1. -/
def restFactor (c : Cfg K) (t : K) (a : Cap K) : K := (t - a.time) / c.restore

/-- Restored capacity, `controllers.py:2044-2054`. -/
def restored (c : Cfg K) (t orig : K) (a : Cap K) : K :=
  let f := if 1 < restFactor c t a then 1 else restFactor c t a
  a.backup * (1 - f) + orig * f

/-- `_restore_adptd_caps`, `controllers.py:2028-2059`. -/
def restoreCaps (c : Cfg K) (i : Inp K) (s : St K) : St K :=
  if s.adapted then
    if 1 ≤ restFactor c i.time s.lo ∧ 1 ≤ restFactor c i.time s.hi then { s with adapted := false }
    else { s with
      lo := { s.lo with cur := restored c i.time c.capLo s.lo }
      hi := { s.hi with cur := restored c i.time c.capHi s.hi } }
  else s

/-- `_longterm_finalize_step`, `controllers.py:2016-2026`. -/
def finalizeStep (c : Cfg K) (i : Inp K) (s : St K) : St K :=
  { restoreCaps c i s with ltPrev := s.opt }

/-- The second control step, `controllers.py:2109-2124`; `e` is `emerg_cntrl`. -/
def second (c : Cfg K) (i : Inp K) (e : Bool) (s : St K) : St K :=
  if i.due then finalizeStep c i (if e then s else { s with opt := clipCont c s.ltPrev i.plan }) else s

/-- The third control step, `controllers.py:2126-2151`. -/
def third (i : Inp K) (e : Bool) (s : St K) : St K :=
  if (!e || s.emergOn) ∧ 0 < s.opt then
    { s with cv := if e then (i.short + s.opt) / 2 else (i.short * 2 + s.opt) / 3 }
  else if e then s
  else { s with cv := 0 }

/-- The end of `run_controller`, `controllers.py:2153-2161`. -/
def final (c : Cfg K) (i : Inp K) (s : St K) : St K :=
  { s with cv := if Controls.offByMaster c.base i.base then c.base.off
      else Controls.clipSat c.base s.cv * Controls.inv c.base }

/-- `run_controller`, `controllers.py:2102-2161`. -/
def run (c : Cfg K) (i : Inp K) (s : St K) : St K :=
  final c i (third i (emerg c i s) (second c i (emerg c i s) (emergency c i s)))

/-- A sequence of calls. -/
def calls (c : Cfg K) (s : St K) (is : List (Inp K)) : St K := is.foldl (fun s i => run c i s) s

/-! ## Storage constraints -/

/-- `np.cumsum` of a list, entry `k`. -/
def cumsum (xs : List K) (k : Nat) : K := (xs.take (k + 1)).sum

/-- `_heat_dmd`, `controllers.py:1376-1380, 1805-1813`: cumulated demand of the whole profile (in kWh per
step), cut at the current step `n`, minus its first entry. -/
def heatDmd (dmd : List K) (n k : Nat) : K := cumsum dmd (n + k) - cumsum dmd n

/-- `tes_cap_before_empty`, `controllers.py:1600-1632`; `q` is `_precalc_pth_oe_uf`. -/
def beforeEmpty (socMin q : K) (dmd : List K) (n : Nat) (xs : List K) (k : Nat) : K :=
  socMin - heatDmd dmd n k + cumsum (xs.map (· * q)) k

/-- `tes_cap_before_full`, `controllers.py:1634-1664`. -/
def beforeFull (socMax q : K) (dmd : List K) (n : Nat) (xs : List K) (k : Nat) : K :=
  socMax - (cumsum (xs.map (· * q)) k - heatDmd dmd n k)

/-! ## Adjusting a plan by the state of charge -/

section Soc

/-- `new_x_unclp.max()`. -/
noncomputable def listMax : List ℝ → ℝ
  | [] => 0
  | [x] => x
  | x :: y :: l => max x (listMax (y :: l))

/-- Division of a plan; a plan is `none` once it contains NaN.  A maximum of 0 gives 0/0 = NaN, a negative one the
square root of a negative number; both NaN.  (With a maximum of exactly 0 negative entries would become infinite
instead, they are then also outside every use.) -/
noncomputable def scaleBy (d : ℝ → ℝ) (xs : List ℝ) : Option (List ℝ) :=
  if 0 < listMax xs then some (xs.map (· / d (listMax xs))) else none

/-- The loop, `controllers.py:1953-1962`, with at most `n` more rounds, and the last resort,
`controllers.py:1963-1966`.  `empty` tells whether the storage runs empty with the plan after clipping; for a NaN
plan all comparisons are false. -/
noncomputable def socLoop (empty : List ℝ → Bool) : Nat → List ℝ → Option (List ℝ)
  | 0, xs => if empty xs then scaleBy id xs else some xs
  | n + 1, xs => if empty xs then (scaleBy Real.sqrt xs).bind (socLoop empty n) else some xs

/-- `_longterm_adj_by_soc`, `controllers.py:1939-1971`.  `empty` and `full` tell whether the storage runs empty or
full with a plan after clipping, `empty0` whether it runs empty with the original plan without clipping. -/
noncomputable def adjBySoc (empty full : List ℝ → Bool) (empty0 : Bool) (xs : List ℝ) : Option (List ℝ) :=
  if full xs then some xs
  else
    (if empty0 then (scaleBy Real.sqrt xs).bind (socLoop empty 4) else some xs).map fun ys =>
      (if full ys then xs else ys).map fun x => min (max x 0) 1

end Soc

end Verif.ModelPred
