import Verif.Model.CtrlNet
import Verif.Model.Modules

/-!
# Controllers of the ready-made modules

The parts of the modules with their numbers of cells and the arguments of their controllers that refer to parts and
controllers: `/repo/multisim/parts/part_modules/consumers.py:124-566, 736-1140, 1285-1561`,
`suppliers.py:140-926, 996-1137`, and the controllers of the older `chp_with_fluegas_hex.py:541-768`.  Names are given
without `segment_name` as in `Model/Modules.lean`.  Controllers are added when the environment is built, when all parts
are there.  Gains, limits and setpoints are left out (they are any values), and the second sensors of controllers with
two sensors.
-/

namespace Verif.ModuleCtrl

open Verif.Controls Verif.CtrlNet Verif.Modules

/-- Number of cells of a part: given, or `store_gp`. -/
inductive Cells where
  | num (n : ℕ)
  | storeGp

/-- A part of a module: name, cells, whether it is an actuator, and whether its values are given (`ctrl_required=False`
in the call). -/
structure PSpec where
  name : String
  cells : Cells
  actuator : Bool := false
  given : Bool := false

/-- `controlled_part`: one of the module or one named by the caller. -/
inductive PartArg where
  | own (name : String)
  | caller

/-- `controlled_port` -/
inductive PortArg where
  | idx (i : ℤ)
  /-- `int(0.35 * store_gp)`, `consumers.py:672` -/
  | store
  | caller

/-- `master_controller` or `master_part` -/
inductive MArg where
  | controller (name : String)
  | part (name : String)

/-- Arguments of `add_control` in a module. -/
structure CSpec where
  name : String
  actuator : String
  mode : CtrlNet.Mode
  part : PartArg
  port : PortArg
  /-- a master, always with `dependency_kind='concurrent'` -/
  master : Option MArg := none

/-! ## Parts -/

def lowexParts : List PSpec :=
  [⟨"p3v_phwrc_ff_mix_", .num 8, true, false⟩, ⟨"pb_phwrc_ff_", .num 3, false, false⟩,
   ⟨"pwp_phw_ff_", .num 2, true, false⟩, ⟨"pwp_rc_ff_", .num 2, true, false⟩, ⟨"hex_phw_", .num 20, false, false⟩,
   ⟨"hex_rc_", .num 4, false, false⟩, ⟨"pb_rc_rf_", .num 20, false, false⟩, ⟨"p_rc_to_mix", .num 6, false, false⟩,
   ⟨"p_phw_rf_", .num 10, false, false⟩, ⟨"p_rc_dmd_", .num 2, false, false⟩, ⟨"pb_phwrc_dmd_", .num 6, false, false⟩,
   ⟨"pwp_rc_", .num 2, true, true⟩, ⟨"pwp_cw_", .num 5, true, true⟩]

def storeLoadParts : List PSpec :=
  [⟨"sps_store_phw_", .storeGp, false, false⟩, ⟨"sps_p3v_ff_hex_", .num 5, true, false⟩,
   ⟨"sps_pwp_ff_hex_", .num 2, true, false⟩, ⟨"sps_pb_rf_hex_", .num 8, false, false⟩,
   ⟨"sps_p_rf_hex_to_mix_", .num 2, false, false⟩, ⟨"sps_hex_phw_store_", .num 20, false, false⟩,
   ⟨"sps_p_ff_store_", .num 8, false, false⟩, ⟨"sps_pwp_rf_store_", .num 8, true, false⟩,
   ⟨"sps_p_phwrc_dmd_", .num 6, false, false⟩, ⟨"sps_pwp_rc_", .num 2, true, true⟩, ⟨"sps_pwp_cw_", .num 5, true, true⟩]

def spaceHeatingParts : List PSpec :=
  [⟨"pwp_sh_ff_", .num 2, true, true⟩, ⟨"pb_sh_rf_", .num 10, false, false⟩, ⟨"p3v_sh_tes_gb_", .num 3, true, false⟩,
   ⟨"p3v_sh_tes_rf_", .num 6, true, false⟩, ⟨"p_sh_gasb_ff_", .num 8, false, false⟩, ⟨"ph_sh_gasb_", .num 6, true, false⟩]

def gasboilerParts : List PSpec :=
  [⟨"pwp_gasb_ff_", .num 8, true, false⟩, ⟨"ph_gasb_", .num 6, true, false⟩, ⟨"p_gasb_rf_", .num 8, false, false⟩]

def chpParts : Ports → List PSpec
  | .three =>
    [⟨"CHP", .num 6, true, false⟩, ⟨"pwp_chp_ff_", .num 15, true, false⟩, ⟨"p3v_chp_rf_", .num 7, true, false⟩,
     ⟨"p_chp_rf_lt_", .num 30, false, false⟩, ⟨"p3v_chp_rf_htA_", .num 20, true, false⟩,
     ⟨"p_chp_rf_htB_", .num 8, false, false⟩, ⟨"hex_chp_fg_", .num 2, false, false⟩]
  | .two =>
    [⟨"CHP", .num 6, true, false⟩, ⟨"pwp_chp_ff_", .num 15, true, false⟩, ⟨"p3v_chp_rf_", .num 7, true, false⟩,
     ⟨"p_chp_rf_lt_", .num 30, false, false⟩, ⟨"p_chp_rf_ht_", .num 30, false, false⟩,
     ⟨"hex_chp_fg_", .num 2, false, false⟩]
  | .one =>
    [⟨"CHP", .num 6, true, false⟩, ⟨"pwp_chp_ff_", .num 15, true, false⟩, ⟨"p_chp_rf_", .num 6, false, false⟩,
     ⟨"p_chp_rf_lt_", .num 21, false, false⟩, ⟨"hex_chp_fg_", .num 2, false, false⟩]
  | .half =>
    [⟨"CHP", .num 6, true, false⟩, ⟨"pwp_chp_ff_", .num 15, true, false⟩, ⟨"p_chp_rf_", .num 27, false, false⟩]

def parts : Mod → List PSpec
  | .lowex => lowexParts
  | .storeLoad => storeLoadParts
  | .spaceHeating => spaceHeatingParts
  | .gasboiler => gasboilerParts
  | .chp n _ => chpParts n

/-! ## Controllers -/

/-- `consumers.py:484-566` -/
def lowexCtrls : List CSpec :=
  [⟨"c_3v_mix", "p3v_phwrc_ff_mix_", .partSpecific, .own "p3v_phwrc_ff_mix_", .idx 7, none⟩,
   ⟨"c_pump_phw_", "pwp_phw_ff_", .partSpecific, .own "pb_phwrc_dmd_", .idx 1, some (.part "pwp_cw_")⟩,
   ⟨"c_pump_rc", "pwp_rc_ff_", .partSpecific, .own "p_rc_dmd_", .idx 1, none⟩]

/-- `consumers.py:1048-1139` -/
def storeLoadCtrls : List CSpec :=
  [⟨"sps_c_3v_hex_ff_", "sps_p3v_ff_hex_", .partSpecific, .own "sps_p3v_ff_hex_", .idx 4, none⟩,
   ⟨"sps_c_pump_hex_", "sps_pwp_ff_hex_", .partSpecific, .own "sps_p_ff_store_", .idx 1,
    some (.part "sps_pwp_rf_store_")⟩,
   ⟨"sps_c_pump_store_", "sps_pwp_rf_store_", .partSpecific, .own "sps_store_phw_", .store, none⟩]

/-- `consumers.py:1446-1448, 1481-1561` -/
def spaceHeatingCtrls : List CSpec :=
  [⟨"c_sh_3v_tesrf_", "p3v_sh_tes_rf_", .partSpecific, .own "p3v_sh_tes_rf_", .idx 5, none⟩,
   ⟨"c_sh_3v_tesgb_", "p3v_sh_tes_gb_", .partSpecific, .own "p3v_sh_tes_gb_", .idx 2, none⟩,
   ⟨"c_sh_gasb_pth_", "ph_sh_gasb_", .direct, .own "ph_sh_gasb_", .idx 4, some (.controller "c_sh_3v_tesgb_")⟩]

/-- `suppliers.py:1082-1135` -/
def gasboilerCtrls : List CSpec :=
  [⟨"c_gasb_pth_", "ph_gasb_", .direct, .caller, .caller, none⟩,
   ⟨"c_gasb_pump_", "pwp_gasb_ff_", .partSpecific, .own "ph_gasb_", .idx 4, some (.part "ph_gasb_")⟩]

/-- `c_pel_chp_ctrld_part`, `suppliers.py:652-654, 680-682` -/
def returnPipe : Ports → String
  | .three | .two => "p3v_chp_rf_"
  | .one | .half => "p_chp_rf_"

/-- `suppliers.py:650-727` -/
def chpModeCtrls (n : Ports) : Modules.Mode → List CSpec
  | .heat => [⟨"c_chp_pel_", "CHP", .direct, .own (returnPipe n), .idx (-1), none⟩]
  | .el => []
  | .elMod => [⟨"chp_modelpred_", "CHP", .direct, .own (returnPipe n), .idx (-1), none⟩]

/-- `suppliers.py:729-926` -/
def chpCtrls : Ports → List CSpec
  | .three =>
    [⟨"c_chp_pump_", "pwp_chp_ff_", .partSpecific, .own "CHP", .idx 4, some (.part "CHP")⟩,
     ⟨"c_chp_3v_hex_fg_", "p3v_chp_rf_", .partSpecific, .own "p3v_chp_rf_", .idx 1, none⟩,
     ⟨"c_chp_3v_htrf_", "p3v_chp_rf_htA_", .partSpecific, .own "p3v_chp_rf_htA_", .idx 7, none⟩]
  | .two =>
    [⟨"c_chp_pump_", "pwp_chp_ff_", .partSpecific, .own "CHP", .idx 4, some (.part "CHP")⟩,
     ⟨"c_chp_3v_hex_fg_", "p3v_chp_rf_", .partSpecific, .own "p3v_chp_rf_", .idx 1, none⟩]
  | _ => [⟨"c_chp_pump_", "pwp_chp_ff_", .partSpecific, .own "CHP", .idx 4, some (.part "CHP")⟩]

def ctrls : Mod → List CSpec
  | .lowex => lowexCtrls
  | .storeLoad => storeLoadCtrls
  | .spaceHeating => spaceHeatingCtrls
  | .gasboiler => gasboilerCtrls
  | .chp n m => chpModeCtrls n m ++ chpCtrls n

/-! ## Adding them -/

/-- What the caller of a module passes: the segment, the storage, a sensor, and the values of
controllers (by their name in the module). -/
structure Opts (K : Type) where
  seg : String
  storeGp : ℕ
  part : String
  port : Sensor.Arg
  setpoint : String → K
  cfg : String → Cfg K
  law : String → Law K

variable {K : Type}

def PartArg.fill (o : Opts K) : PartArg → String
  | .own p => p ++ o.seg
  | .caller => o.part

def PortArg.fill (o : Opts K) : PortArg → Sensor.Arg
  | .idx i => .index i
  | .store => .index (35 * o.storeGp / 100 : ℕ)
  | .caller => o.port

def MArg.fill (o : Opts K) : MArg → MasterArg
  | .controller n => .controller (n ++ o.seg)
  | .part n => .part (n ++ o.seg)

def Cells.fill (o : Opts K) : Cells → ℕ
  | .num n => n
  | .storeGp => o.storeGp

/-- The arguments of a call; all modules have `reference_part='none'`. -/
def CSpec.fill (o : Opts K) (c : CSpec) : Args K :=
  ⟨c.name ++ o.seg, c.actuator ++ o.seg, c.mode, c.part.fill o, c.port.fill o, none, none, some (o.setpoint c.name),
    none, none, c.master.map fun m => (true, m.fill o), o.cfg c.name, o.law c.name⟩

/-- Calls of `add_control` one after the other. -/
def addAll (P : String → Option Part) (cs : List (Ctl K)) : List (Args K) → Except Err (List (Ctl K))
  | [] => .ok cs
  | a :: l =>
    match add P cs a with
    | .error e => .error e
    | .ok c => addAll P (cs ++ [c]) l

/-! ## The older module -/

/-- Names in `chp_with_fluegas_hex.py` have the segment in the middle. -/
def mid (seg a b : String) : String := a ++ seg ++ b

/-- Names of the parts that `add_chp_with_fghex` adds for 1, 2 or 3 return ports, `chp_with_fluegas_hex.py:106-538`. -/
def olderParts (seg : String) : ℕ → List String
  | 3 => [mid seg "CHP" "", mid seg "pwp_chp" "_ff", mid seg "p3v_chp" "_rf", mid seg "p_chp" "_rf_lt",
      mid seg "p3v_chp" "_rf_htA", mid seg "p3v_chp" "_rf_htB", mid seg "hex_chp" "_fg"]
  | 2 => [mid seg "CHP" "", mid seg "pwp_chp" "_ff", mid seg "p3v_chp" "_rf", mid seg "p_chp" "_rf_lt",
      mid seg "p_chp" "_rf_ht", mid seg "hex_chp" "_fg"]
  | _ => [mid seg "CHP" "", mid seg "pwp_chp" "_ff", mid seg "p_chp" "_rf", mid seg "p_chp" "_rf_lt",
      mid seg "hex_chp" "_fg"]

/-- Its controllers, which do not depend on the number of ports but for the sensor of the first,
`chp_with_fluegas_hex.py:541-768`. -/
def olderCtrls (o : Opts K) (n : ℕ) : List (Args K) :=
  [⟨mid o.seg "c_pel_chp" "", mid o.seg "CHP" "", .direct, mid o.seg (if n = 1 then "p_chp" else "p3v_chp") "_rf",
      .index (-1), none, none, some (o.setpoint "c_pel_chp"), none, none, none, o.cfg "c_pel_chp", o.law "c_pel_chp"⟩,
   ⟨mid o.seg "c_p_chp" "", mid o.seg "pwp_chp" "_ff", .partSpecific, mid o.seg "CHP" "", .index 4, none, none,
      some (o.setpoint "c_p_chp"), none, none, some (true, .part (mid o.seg "CHP" "")), o.cfg "c_p_chp",
      o.law "c_p_chp"⟩,
   ⟨mid o.seg "c_3v_chp_hex_fg" "", mid o.seg "p3v_chp" "_rf", .partSpecific, mid o.seg "p3v_chp" "_rf", .index 2, none,
      none, some (o.setpoint "c_3v_chp_hex_fg"), none, none, none, o.cfg "c_3v_chp_hex_fg", o.law "c_3v_chp_hex_fg"⟩,
   ⟨mid o.seg "c_3v_chp_htrf" "", mid o.seg "p3v_chp" "_rf_htA", .partSpecific, mid o.seg "p3v_chp" "_rf_htA", .index 8,
      none, none, some (o.setpoint "c_3v_chp_htrf"), none, none, none, o.cfg "c_3v_chp_htrf", o.law "c_3v_chp_htrf"⟩]

end Verif.ModuleCtrl
