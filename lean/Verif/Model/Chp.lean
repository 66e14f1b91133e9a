import Mathlib.Algebra.Order.Field.Basic
import Mathlib.Algebra.Order.Field.Rat

/-!
# The operating state of a CHP plant

Transcription of `CHPPlant.get_diff`, first part (`/repo/multisim/parts/chp_plant.py:675-774`).
The compiled twin `_process_chp_core_modulation` (`/repo/multisim/precomp_funs.py:5787-5995`) has the
same logic and is not called.

The block runs only while `_process_flows[0]` is true (`chp_plant.py:679`), that is once per time
step, in the *first* evaluation of the step.  `hFirst` is the step length of that evaluation; the
step length that is finally accepted (`h` in `Input`) may be shorter.
-/

namespace Verif.Chp

variable {K : Type} [Field K] [LinearOrder K]

/-- Plant parameters, `chp_plant.py:214-255, 285`. -/
structure Par (K : Type) where
  minOn : K
  minOff : K
  modLower : K
  /-- stored (`chp_plant.py:217`) but not read by any other line -/
  modUpper : K
  maxRamp : K
  tInMax : K
  tEmergency : K
  maxExc : K

/-- What the constructor asserts (`chp_plant.py:216-249`); only the parts that are used. -/
structure Par.Valid [IsStrictOrderedRing K] (p : Par K) : Prop where
  minOn_pos : 0 < p.minOn
  minOff_pos : 0 < p.minOff
  modLower_pos : 0 < p.modLower
  modLower_lt : p.modLower < p.modUpper
  modUpper_le : p.modUpper ≤ 1
  maxRamp_pos : 0 < p.maxRamp

/-- Data kept from one step to the next. -/
structure Plant (K : Type) where
  /-- last row of `_chp_state` -/
  state : K
  /-- `_startup_at_time` -/
  startupAt : K
  /-- `_shutdown_at_time` -/
  shutdownAt : K
  /-- `_dt_time_temp_exc` -/
  dtExc : K

/-- Constructor state, `chp_plant.py:271-308` and `_special_array_init`, 561-565: row 0 of
`_chp_state` is zero in both cases. -/
def Plant.init (p : Par K) (onAtStart : Bool) : Plant K :=
  if onAtStart then
    { state := 0, startupAt := -p.minOn, shutdownAt := -p.minOn - 1, dtExc := 0 }
  else
    { state := 0, startupAt := 0, shutdownAt := -p.minOff - 1, dtExc := 0 }

/-- Inputs of one time step. -/
structure Input (K : Type) where
  /-- step length of the first evaluation in this time step -/
  hFirst : K
  /-- step length finally accepted -/
  h : K
  /-- requested modulation, `_power_modulation[0]` as left by the controller -/
  req : K
  /-- cell temperatures; the inlet cell is the first one (`chp_plant.py:324`) -/
  T : List K

/-- `self._T_chp_in[0] > self._T_chp_in_max`. -/
def inletHot (p : Par K) (i : Input K) : Bool := i.T.head?.any (fun t => p.tInMax < t)

/-- `np.any(self.T > self._T_chp_in_max_emrgncy)`. -/
def emergency (p : Par K) (i : Input K) : Bool := i.T.any (fun t => p.tEmergency < t)

/-- Intermediate values: `_chp_on`, `_power_modulation[0]`, the two times. -/
structure Mid (K : Type) where
  on : Bool
  mod : K
  startupAt : K
  shutdownAt : K

/-- Ramp limitation, `chp_plant.py:729-744`. -/
def ramp (p : Par K) (last req h : K) : K :=
  let diff := last - req
  if p.maxRamp < |diff| / h then
    if diff ≤ 0 then last + p.maxRamp * h else last - p.maxRamp * h
  else req

/-- On/off decision and minimum times, `chp_plant.py:685-744`. -/
def switch (p : Par K) (pl : Plant K) (i : Input K) (curr : K) : Mid K :=
  let on : Bool := !decide (i.req < p.modLower)                              -- 686-694
  if decide (pl.state ≠ 0) ≠ on then                                         -- 697
    if on = false then                                                       -- 698
      if curr - pl.startupAt < p.minOn then                                  -- 701-705
        ⟨true, p.modLower, pl.startupAt, pl.shutdownAt⟩
      else ⟨false, i.req, pl.startupAt, curr⟩                                -- 706-708
    else if curr - pl.shutdownAt < p.minOff ∨ inletHot p i ∨ emergency p i then -- 713-725
      ⟨false, 0, pl.startupAt, pl.shutdownAt⟩
    else ⟨true, i.req, curr, pl.shutdownAt⟩                                  -- 726-728
  else if on = true then
    ⟨true, ramp p pl.state i.req i.hFirst, pl.startupAt, pl.shutdownAt⟩      -- 729-744
  else ⟨false, i.req, pl.startupAt, pl.shutdownAt⟩

/-- One time step of the plant; `t` is the simulated time before the step. -/
def step (p : Par K) (t : K) (pl : Plant K) (i : Input K) : Plant K :=
  let curr := t + i.hFirst                                                   -- 681
  let m := switch p pl i curr
  if m.on = true ∧ (inletHot p i ∨ emergency p i) then                       -- 747-750
    if p.maxExc < pl.dtExc ∨ emergency p i then                              -- 755-762
      { state := 0 * 0, startupAt := m.startupAt, shutdownAt := curr, dtExc := pl.dtExc }
    else                                                                     -- 763-767
      { state := 1 * m.mod, startupAt := m.startupAt, shutdownAt := m.shutdownAt,
        dtExc := pl.dtExc + i.hFirst }
  else                                                                       -- 768-774
    { state := (if m.on then 1 else 0) * m.mod, startupAt := m.startupAt,
      shutdownAt := m.shutdownAt, dtExc := 0 }

/-- Simulated time after `n` steps (`simenv.py:5071-5084`: accepted steps are added up). -/
def time (inp : ℕ → Input K) : ℕ → K
  | 0 => 0
  | n + 1 => time inp n + (inp n).h

/-- The plant after `n` steps. -/
def plant (p : Par K) (onAtStart : Bool) (inp : ℕ → Input K) : ℕ → Plant K
  | 0 => Plant.init p onAtStart
  | n + 1 => step p (time inp n) (plant p onAtStart inp n) (inp n)

/-- The operating state recorded in row `n` (`_chp_state[n]`). -/
def state (p : Par K) (onAtStart : Bool) (inp : ℕ → Input K) (n : ℕ) : K :=
  (plant p onAtStart inp n).state

end Verif.Chp
