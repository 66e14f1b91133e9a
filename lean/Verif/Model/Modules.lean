import Verif.Model.Registry
import Verif.Model.HexNum
import Mathlib.Data.Rat.Floor

/-!
# Ready-made modules

Model of the functions in `/repo/multisim/parts/part_modules/consumers.py` and `suppliers.py`, which add groups of parts
to a simulation environment: the calls of `add_part`, `add_open_port`, `connect_ports` and `add_control` in the order
of the code, with the ports of each kind of part; the numbers of plates of heat exchangers; the use of the dictionary
with the arguments of a CHP plant.  Lengths, set points and other values are left out.  The older variant
`chp_with_fluegas_hex.py` is modelled only as far as this dictionary is concerned.
-/

namespace Verif.Modules

open Verif.Registry

/-! ## Calls -/

/-- One end of a connection: a port of a part of the module, an open port of the module, or the connection number
`i` which the caller passes (`ff_connector` and so on, in the order of their first use). -/
inductive End where
  | own (part port : String)
  | bc (name : String)
  | out (i : ℕ)
  deriving DecidableEq

/-- A call in a module.  Names are given without `segment_name`, which is appended to each of them
(`'...{0}'.format(segment_name)`). -/
inductive SCall where
  | part (name : String) (ports : List String)
  | opn (name : String)
  | conn (first second : End)
  | ctrl (name : String)

/-- `chp_mode`, `suppliers.py:77` -/
inductive Mode where
  | heat | el | elMod
  deriving DecidableEq

/-- `number_rf_ports`: 3, 2, 1 or 0.5 (no flue gas heat exchanger), `suppliers.py:211-648` -/
inductive Ports where
  | three | two | one | half
  deriving DecidableEq

/-- `lowex_phwrc`, `consumers.py:124-566`; connections: forward flow, return of the circulation, return. -/
def lowexCalls : List SCall :=
  [.part "p3v_phwrc_ff_mix_" ["A", "B", "AB"], .conn (.out 0) (.own "p3v_phwrc_ff_mix_" "A"),
   .part "pb_phwrc_ff_" ["in", "out", "out_rc"], .conn (.own "p3v_phwrc_ff_mix_" "AB") (.own "pb_phwrc_ff_" "in"),
   .part "pwp_phw_ff_" ["in", "out"], .conn (.own "pb_phwrc_ff_" "out") (.own "pwp_phw_ff_" "in"),
   .part "pwp_rc_ff_" ["in", "out"], .conn (.own "pb_phwrc_ff_" "out_rc") (.own "pwp_rc_ff_" "in"),
   .part "hex_phw_" ["sup_in", "sup_out", "dmd_out", "dmd_in"],
   .conn (.own "pwp_phw_ff_" "out") (.own "hex_phw_" "sup_in"),
   .part "hex_rc_" ["sup_in", "sup_out", "dmd_in", "dmd_out"],
   .conn (.own "pwp_rc_ff_" "out") (.own "hex_rc_" "sup_in"), .part "pb_rc_rf_" ["in", "out", "rc_to_mix"],
   .conn (.own "hex_rc_" "sup_out") (.own "pb_rc_rf_" "in"), .conn (.own "pb_rc_rf_" "out") (.out 1),
   .part "p_rc_to_mix" ["in", "out"], .conn (.own "pb_rc_rf_" "rc_to_mix") (.own "p_rc_to_mix" "in"),
   .conn (.own "p_rc_to_mix" "out") (.own "p3v_phwrc_ff_mix_" "B"), .part "p_phw_rf_" ["in", "out"],
   .conn (.own "hex_phw_" "sup_out") (.own "p_phw_rf_" "in"), .conn (.own "p_phw_rf_" "out") (.out 2),
   .part "p_rc_dmd_" ["in", "out"], .conn (.own "hex_rc_" "dmd_out") (.own "p_rc_dmd_" "in"),
   .part "pb_phwrc_dmd_" ["in", "out", "in_rc_flow"], .conn (.own "hex_phw_" "dmd_out") (.own "pb_phwrc_dmd_" "in"),
   .conn (.own "p_rc_dmd_" "out") (.own "pb_phwrc_dmd_" "in_rc_flow"), .opn "BC_phwrc_theta_ff_",
   .conn (.own "pb_phwrc_dmd_" "out") (.bc "BC_phwrc_theta_ff_"), .part "pwp_rc_" ["in", "out"],
   .conn (.own "pwp_rc_" "out") (.own "hex_rc_" "dmd_in"), .opn "BC_rc_theta_rf_",
   .conn (.bc "BC_rc_theta_rf_") (.own "pwp_rc_" "in"), .part "pwp_cw_" ["in", "out"], .opn "BC_phw_theta_cw_",
   .conn (.bc "BC_phw_theta_cw_") (.own "pwp_cw_" "in"), .conn (.own "pwp_cw_" "out") (.own "hex_phw_" "dmd_in"),
   .ctrl "c_3v_mix", .ctrl "c_pump_phw_", .ctrl "c_pump_rc"]

/-- `speicherladesys` with the default `store_ports`, `consumers.py:736-1140`; connections: forward flow, return. -/
def storeLoadCalls : List SCall :=
  [.part "sps_store_phw_" ["in", "out", "ff_tes", "rc", "cw"], .part "sps_p3v_ff_hex_" ["A", "B", "AB"],
   .conn (.out 0) (.own "sps_p3v_ff_hex_" "A"), .part "sps_pwp_ff_hex_" ["in", "out"],
   .conn (.own "sps_p3v_ff_hex_" "AB") (.own "sps_pwp_ff_hex_" "in"),
   .part "sps_pb_rf_hex_" ["in", "out", "out_mix_sps_ff"], .conn (.own "sps_pb_rf_hex_" "out") (.out 1),
   .part "sps_p_rf_hex_to_mix_" ["in", "out"],
   .conn (.own "sps_pb_rf_hex_" "out_mix_sps_ff") (.own "sps_p_rf_hex_to_mix_" "in"),
   .conn (.own "sps_p_rf_hex_to_mix_" "out") (.own "sps_p3v_ff_hex_" "B"),
   .part "sps_hex_phw_store_" ["sup_in", "sup_out", "dmd_out", "dmd_in"],
   .conn (.own "sps_pwp_ff_hex_" "out") (.own "sps_hex_phw_store_" "sup_in"),
   .conn (.own "sps_hex_phw_store_" "sup_out") (.own "sps_pb_rf_hex_" "in"), .part "sps_p_ff_store_" ["in", "out"],
   .conn (.own "sps_hex_phw_store_" "dmd_out") (.own "sps_p_ff_store_" "in"),
   .conn (.own "sps_p_ff_store_" "out") (.own "sps_store_phw_" "ff_tes"), .part "sps_pwp_rf_store_" ["in", "out"],
   .conn (.own "sps_store_phw_" "out") (.own "sps_pwp_rf_store_" "in"),
   .conn (.own "sps_pwp_rf_store_" "out") (.own "sps_hex_phw_store_" "dmd_in"),
   .part "sps_p_phwrc_dmd_" ["in", "out"], .conn (.own "sps_store_phw_" "in") (.own "sps_p_phwrc_dmd_" "in"),
   .opn "BC_phwrc_theta_ff_", .conn (.own "sps_p_phwrc_dmd_" "out") (.bc "BC_phwrc_theta_ff_"),
   .part "sps_pwp_rc_" ["in", "out"], .conn (.own "sps_pwp_rc_" "out") (.own "sps_store_phw_" "rc"),
   .opn "BC_rc_theta_rf_", .conn (.bc "BC_rc_theta_rf_") (.own "sps_pwp_rc_" "in"),
   .part "sps_pwp_cw_" ["in", "out"], .opn "BC_phw_theta_cw_",
   .conn (.bc "BC_phw_theta_cw_") (.own "sps_pwp_cw_" "in"),
   .conn (.own "sps_pwp_cw_" "out") (.own "sps_store_phw_" "cw"), .ctrl "sps_c_3v_hex_ff_", .ctrl "sps_c_pump_hex_",
   .ctrl "sps_c_pump_store_"]

/-- `space_heating`, `consumers.py:1285-1561`; connections: return to the storage, forward flow. -/
def spaceHeatingCalls : List SCall :=
  [.part "pwp_sh_ff_" ["in", "out"], .opn "BC_sh_theta_ff_", .conn (.own "pwp_sh_ff_" "out") (.bc "BC_sh_theta_ff_"),
   .part "pb_sh_rf_" ["in", "out", "rf_to_valve", "rf_to_gb"], .opn "BC_sh_theta_rf_",
   .conn (.bc "BC_sh_theta_rf_") (.own "pb_sh_rf_" "in"), .conn (.own "pb_sh_rf_" "out") (.out 0),
   .part "p3v_sh_tes_gb_" ["A", "B", "AB"], .conn (.own "p3v_sh_tes_gb_" "AB") (.own "pwp_sh_ff_" "in"),
   .part "p3v_sh_tes_rf_" ["A", "B", "AB"], .conn (.own "p3v_sh_tes_rf_" "AB") (.own "p3v_sh_tes_gb_" "B"),
   .conn (.out 1) (.own "p3v_sh_tes_rf_" "A"), .conn (.own "p3v_sh_tes_rf_" "B") (.own "pb_sh_rf_" "rf_to_valve"),
   .part "p_sh_gasb_ff_" ["in", "out"], .conn (.own "p3v_sh_tes_gb_" "A") (.own "p_sh_gasb_ff_" "out"),
   .part "ph_sh_gasb_" ["in", "out"], .conn (.own "p_sh_gasb_ff_" "in") (.own "ph_sh_gasb_" "out"),
   .conn (.own "ph_sh_gasb_" "in") (.own "pb_sh_rf_" "rf_to_gb"), .ctrl "c_sh_3v_tesrf_", .ctrl "c_sh_3v_tesgb_",
   .ctrl "c_sh_gasb_pth_"]

/-- `gasboiler` with one return port, `suppliers.py:996-1137`; connections: forward flow, return. -/
def gasboilerCalls : List SCall :=
  [.part "pwp_gasb_ff_" ["in", "out"], .conn (.out 0) (.own "pwp_gasb_ff_" "out"), .part "ph_gasb_" ["in", "out"],
   .conn (.own "pwp_gasb_ff_" "in") (.own "ph_gasb_" "out"), .part "p_gasb_rf_" ["in", "out"],
   .conn (.own "ph_gasb_" "in") (.own "p_gasb_rf_" "out"), .conn (.own "p_gasb_rf_" "in") (.out 1),
   .ctrl "c_gasb_pth_", .ctrl "c_gasb_pump_"]

/-- The controller of the CHP plant, `suppliers.py:651-727`; none is made for `'el'`. -/
def Mode.calls : Mode → List SCall
  | .heat => [.ctrl "c_chp_pel_"]
  | .el => []
  | .elMod => [.ctrl "chp_modelpred_"]

/-- Parts and connections of `chp_with_fghex`, `suppliers.py:140-648`; connections: forward flow, low temperature
return, high temperature returns. -/
def Ports.calls : Ports → List SCall
  | .three =>
    [.part "CHP" ["in", "out"], .part "pwp_chp_ff_" ["in", "out"], .conn (.own "CHP" "out") (.own "pwp_chp_ff_" "in"),
     .part "p3v_chp_rf_" ["A", "B", "AB"], .conn (.own "p3v_chp_rf_" "AB") (.own "CHP" "in"),
     .part "p_chp_rf_lt_" ["in", "out"], .part "p3v_chp_rf_htA_" ["A", "B", "AB"],
     .conn (.own "p3v_chp_rf_htA_" "AB") (.own "p3v_chp_rf_" "B"), .part "p_chp_rf_htB_" ["in", "out"],
     .conn (.own "p_chp_rf_htB_" "out") (.own "p3v_chp_rf_htA_" "B"),
     .part "hex_chp_fg_" ["water_in", "water_out", "fluegas_in", "fluegas_out"],
     .conn (.own "p_chp_rf_lt_" "out") (.own "hex_chp_fg_" "water_in"),
     .conn (.own "hex_chp_fg_" "water_out") (.own "p3v_chp_rf_" "A"), .opn "BC_fg_in_", .opn "BC_fg_out_",
     .conn (.bc "BC_fg_in_") (.own "hex_chp_fg_" "fluegas_in"),
     .conn (.bc "BC_fg_out_") (.own "hex_chp_fg_" "fluegas_out"), .conn (.own "pwp_chp_ff_" "out") (.out 0),
     .conn (.own "p_chp_rf_lt_" "in") (.out 1), .conn (.own "p3v_chp_rf_htA_" "A") (.out 2),
     .conn (.own "p_chp_rf_htB_" "in") (.out 3)]
  | .two =>
    [.part "CHP" ["in", "out"], .part "pwp_chp_ff_" ["in", "out"], .conn (.own "CHP" "out") (.own "pwp_chp_ff_" "in"),
     .part "p3v_chp_rf_" ["A", "B", "AB"], .conn (.own "p3v_chp_rf_" "AB") (.own "CHP" "in"),
     .part "p_chp_rf_lt_" ["in", "out"], .part "p_chp_rf_ht_" ["in", "out"],
     .conn (.own "p_chp_rf_ht_" "out") (.own "p3v_chp_rf_" "B"),
     .part "hex_chp_fg_" ["water_in", "water_out", "fluegas_in", "fluegas_out"],
     .conn (.own "p_chp_rf_lt_" "out") (.own "hex_chp_fg_" "water_in"),
     .conn (.own "hex_chp_fg_" "water_out") (.own "p3v_chp_rf_" "A"), .opn "BC_fg_in_", .opn "BC_fg_out_",
     .conn (.bc "BC_fg_in_") (.own "hex_chp_fg_" "fluegas_in"),
     .conn (.bc "BC_fg_out_") (.own "hex_chp_fg_" "fluegas_out"), .conn (.own "pwp_chp_ff_" "out") (.out 0),
     .conn (.own "p_chp_rf_lt_" "in") (.out 1), .conn (.own "p_chp_rf_ht_" "in") (.out 2)]
  | .one =>
    [.part "CHP" ["in", "out"], .part "pwp_chp_ff_" ["in", "out"], .conn (.own "CHP" "out") (.own "pwp_chp_ff_" "in"),
     .part "p_chp_rf_" ["in", "out"], .conn (.own "p_chp_rf_" "out") (.own "CHP" "in"),
     .part "p_chp_rf_lt_" ["in", "out"], .part "hex_chp_fg_" ["water_in", "water_out", "fluegas_in", "fluegas_out"],
     .conn (.own "p_chp_rf_lt_" "out") (.own "hex_chp_fg_" "water_in"),
     .conn (.own "hex_chp_fg_" "water_out") (.own "p_chp_rf_" "in"), .opn "BC_fg_in_", .opn "BC_fg_out_",
     .conn (.bc "BC_fg_in_") (.own "hex_chp_fg_" "fluegas_in"),
     .conn (.bc "BC_fg_out_") (.own "hex_chp_fg_" "fluegas_out"), .conn (.own "pwp_chp_ff_" "out") (.out 0),
     .conn (.own "p_chp_rf_lt_" "in") (.out 1)]
  | .half =>
    [.part "CHP" ["in", "out"], .part "pwp_chp_ff_" ["in", "out"], .conn (.own "CHP" "out") (.own "pwp_chp_ff_" "in"),
     .part "p_chp_rf_" ["in", "out"], .conn (.own "p_chp_rf_" "out") (.own "CHP" "in"),
     .conn (.own "pwp_chp_ff_" "out") (.out 0), .conn (.own "p_chp_rf_" "in") (.out 1)]

/-- Controllers of pump and valves, `suppliers.py:729-926`. -/
def Ports.ctrls : Ports → List SCall
  | .three => [.ctrl "c_chp_pump_", .ctrl "c_chp_3v_hex_fg_", .ctrl "c_chp_3v_htrf_"]
  | .two => [.ctrl "c_chp_pump_", .ctrl "c_chp_3v_hex_fg_"]
  | .one => [.ctrl "c_chp_pump_"]
  | .half => [.ctrl "c_chp_pump_"]

/-- The modules. -/
inductive Mod where
  | lowex | storeLoad | spaceHeating | gasboiler
  | chp (n : Ports) (m : Mode)
  deriving DecidableEq

def Mod.calls : Mod → List SCall
  | .lowex => lowexCalls
  | .storeLoad => storeLoadCalls
  | .spaceHeating => spaceHeatingCalls
  | .gasboiler => gasboilerCalls
  | .chp n m => n.calls ++ m.calls ++ n.ctrls

/-- A call of a module: `segment_name` and the connections that are passed. -/
structure Inst where
  mod : Mod
  seg : String
  out : ℕ → Key

def Inst.fill (x : Inst) : End → Key
  | .own p q => (p ++ x.seg, q)
  | .bc b => ("BoundaryCondition", b ++ x.seg)
  | .out i => x.out i

/-- The calls with all names filled in. -/
def Inst.call (x : Inst) : SCall → Call
  | .part p qs => .addPart (p ++ x.seg) qs 1
  | .opn b => .addOpenPort (b ++ x.seg)
  | .conn a b => .connect (x.fill a) (x.fill b)
  | .ctrl c => .addControl (c ++ x.seg)

/-- What calling the module does to the simulation environment. -/
def Inst.script (x : Inst) : List Call := x.mod.calls.map x.call

/-- Does the script run through without an exception? -/
def runs (p : Post) : List Call → Bool
  | [] => true
  | c :: cs => (declare p c).2 = none && runs (declare p c).1 cs

/-! ## Numbers of plates -/

/-- `x % 2` for floats. -/
def mod2 (x : ℚ) : ℚ := x - 2 * ⌊x / 2⌋

/-- `is_even` for more than one pass, `consumers.py:52`, `56`. -/
def isEven (passes n : ℤ) : Prop := mod2 (((n : ℚ) - 1) / passes) = 0

/-- `while not is_even: plates += 1`, `consumers.py:53-56`: the loop started with `n` ends with `m`. -/
inductive Loop (passes : ℤ) : ℤ → ℤ → Prop where
  | stop {n : ℤ} (h : isEven passes n) : Loop passes n n
  | go {n m : ℤ} (h : ¬ isEven passes n) (hl : Loop passes (n + 1) m) : Loop passes n m

/-- The number of plates chosen from the rounded number `n`, `consumers.py:51-72`, `648-660`. -/
def Chosen (passes n m : ℤ) : Prop :=
  if 1 < passes then Loop passes n m else m = if n % 2 = 0 then n else n + 1

/-! ## The dictionary of arguments -/

/-- `chp_with_fghex`, `suppliers.py:121-125`: the pipe of the CHP plant, and what is left in the dictionary passed by
the caller.  `std` stands for `DN80`. -/
def takeSpecs {α : Type} (std : α) : Option α → α × Option α
  | some p => (p, none)
  | none => (std, none)

/-- Building `n` plants with one dictionary. -/
def plants {α : Type} (std : α) : ℕ → Option α → List α
  | 0, _ => []
  | n + 1, d => (takeSpecs std d).1 :: plants std n (takeSpecs std d).2

/-- `add_chp_with_fghex`, `chp_with_fluegas_hex.py:95-97`: `none` is a KeyError. -/
def takeSpecsOld {α : Type} : Option α → Option (α × Option α)
  | some p => some (p, none)
  | none => none

/-- Building `n` plants with one dictionary. -/
def plantsOld {α : Type} : ℕ → Option α → Option (List α)
  | 0, _ => some []
  | n + 1, d => (takeSpecsOld d).bind fun r => (plantsOld n r.2).map (r.1 :: ·)

end Verif.Modules
