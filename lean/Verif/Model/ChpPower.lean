import Mathlib.Analysis.SpecialFunctions.Pow.Real

/-!
# Power output of a CHP plant

Transcription of `CHPPlant.get_diff`, second part (`/repo/multisim/parts/chp_plant.py:776-900`), of the
fitted curves in `/repo/multisim/precomp_funs.py:5476-5703` and of the conversion factors in
`/repo/multisim/parts/chp_plant.py:143-165`.

The on/off logic (`Verif.Chp`) enters through an arbitrary sequence of inputs: modulation, on/off
factor, the two events and the two durations.  Nothing is assumed about how they hang together.
-/

namespace Verif.ChpPower
open Real

/-- `lim_growth`, `precomp_funs.py:5476-5500`. -/
noncomputable def limGrowth (x s b0 k : ℝ) : ℝ := s - (s - b0) * k ^ x

/-- `chp_startup_th`, 5503-5533. -/
noncomputable def startupTh (t : ℝ) : ℝ :=
  1 / (1 + (1 / 4.3715647889609857e-4 - 1) * exp (-8.61423130773867e-3 * 1 * t))

/-- `chp_startup_el`, 5536-5572. -/
noncomputable def startupEl (t : ℝ) : ℝ :=
  limGrowth t 4.6611096613889975 (-3.6832212021813398e-09) 0.9997484824090741

/-- `chp_startup_gas`, 5575-5599. -/
noncomputable def startupGas (t : ℝ) : ℝ := startupEl t / 0.32733 + startupTh t / 0.6334

/-- `chp_thermal_power`, 5602-5634. -/
noncomputable def thermalPower (m : ℝ) : ℝ := limGrowth m 0.60275 0.972917 3.5990506789130166

/-- `chp_gas_power`, 5637-5670. -/
noncomputable def gasPower (m : ℝ) : ℝ := limGrowth m (-1.17) 0.995828402366862 1.9507547298681704

/-- `chp_shutdown_th`, 5673-5701. -/
noncomputable def shutdownTh (t : ℝ) : ℝ := -1.2532286835042036e-09 * (t - 927.5198588530006) ^ 3

/-- User parameters: nominal electrical power, power-to-heat ratio, electrical efficiency. -/
structure Par where
  pel : ℝ
  p2h : ℝ
  etaEl : ℝ

/-- What the constructor asserts, `chp_plant.py:127-190` (without an own `eta_sum`). -/
structure Par.Valid (p : Par) : Prop where
  pel_pos : 0 < p.pel
  p2h_pos : 0 < p.p2h
  p2h_lt : p.p2h < 1
  eta_pos : 0 < p.etaEl
  eta_lt : p.etaEl < 1
  eta_sum : p.etaEl + p.etaEl / p.p2h ≤ 0.961

/-- `_p2h_ratio`, `chp_plant.py:146-149`. -/
noncomputable def Par.p2hRatio (p : Par) : ℝ := 1 / thermalPower 1 / p.p2h

/-- `_eta_el_fac`, `chp_plant.py:163-164`. -/
noncomputable def Par.etaElFac (p : Par) : ℝ := 1 / gasPower 1 / p.etaEl

/-- State of the start-up and shut-down procedure. -/
structure St where
  startupInProgress : Bool
  shutdownInProgress : Bool
  facTh : ℝ
  facEl : ℝ
  facGas : ℝ
  shutFac : ℝ
  lastDQ : ℝ

/-- Initial state, `chp_plant.py:288-312`. -/
def St.init (onAtStart : Bool) : St :=
  if onAtStart then ⟨false, false, 1, 1, 1, 0, 0⟩ else ⟨true, false, 0, 0, 0, 0, 0⟩

/-- Inputs of one step from the on/off logic. -/
structure In where
  /-- `_bin_pow_fac` is 1 -/
  on : Bool
  /-- `_power_modulation[0]` -/
  mod : ℝ
  /-- the plant has been started in this step (727-728) -/
  started : Bool
  /-- the plant has been stopped in this step (707-708, 761-762) -/
  stopped : Bool
  /-- `_startup_at_time > _shutdown_at_time` -/
  startupRecent : Bool
  /-- time since start-up plus heat bonus (796-798); the bonus is any number here -/
  startupDuration : ℝ
  /-- time since shut-down (846-848) -/
  shutdownDuration : ℝ

/-- Limit to [0, 1], `chp_plant.py:812-832`. -/
noncomputable def clip01 (x : ℝ) : ℝ := if x < 0 then 0 else if 1 < x then 1 else x

/-- Start-up and shut-down factors, `chp_plant.py:776-855`. -/
noncomputable def factors (s : St) (i : In) : St :=
  let s1 : St := { s with startupInProgress := s.startupInProgress || i.started,
                          shutdownInProgress := s.shutdownInProgress || i.stopped }
  if i.startupRecent then
    let s2 : St := if 0.01 < s1.shutFac then { s1 with shutFac := 0, shutdownInProgress := false }
      else s1                                                                    -- 782-795
    if s2.startupInProgress then                                                 -- 801-842
      if 0.999 < clip01 (startupTh i.startupDuration) then
        { s2 with startupInProgress := false, facTh := 1, facEl := 1, facGas := 1 }
      else
        { s2 with facTh := clip01 (startupTh i.startupDuration),
                  facEl := clip01 (startupEl i.startupDuration),
                  facGas := clip01 (startupGas i.startupDuration) }
    else s2
  else if s1.shutdownInProgress then                                             -- 844-855
    if shutdownTh i.shutdownDuration < 0.01 then
      { s1 with shutdownInProgress := false, shutFac := 0 }
    else { s1 with shutFac := shutdownTh i.shutdownDuration }
  else s1

/-- Electrical power, heat and gas power of a step. -/
structure Out where
  pel : ℝ
  heat : ℝ
  gas : ℝ

/-- On/off factor as number. -/
def bin (i : In) : ℝ := if i.on then 1 else 0

/-- `chp_plant.py:857-880`. -/
noncomputable def output (p : Par) (s : St) (i : In) : Out :=
  { heat := if s.shutdownInProgress then s.lastDQ * s.shutFac
      else bin i * thermalPower i.mod * p.pel * s.facTh * p.p2hRatio
    pel := i.mod * p.pel * s.facEl * bin i
    gas := s.facGas * bin i * p.etaElFac * gasPower i.mod * p.pel }

/-- One step: factors, output and the remembered heat flow (896-899). -/
noncomputable def step (p : Par) (s : St) (i : In) : St × Out :=
  let s' := factors s i
  let o := output p s' i
  (if s'.shutdownInProgress then s' else { s' with lastDQ := o.heat }, o)

/-- State after a list of steps and the last output. -/
noncomputable def run (p : Par) (s : St) : List In → St
  | [] => s
  | i :: is => run p (step p s i).1 is

end Verif.ChpPower
