import Mathlib.Analysis.Real.Pi.Bounds

/-!
# Geometry of plate heat exchangers

Transcription of `HeatExchanger.get_plate_hex_geometry` (`/repo/multisim/parts/heatexchanger.py:504-941`); that of the
numeric heat exchanger (`/repo/multisim/parts/hex_num.py:649-1104`) differs only in the masses.  Types of arguments are
not modelled, only their presence and values.  `none` is an exception.
-/

namespace Verif.HexGeo

/-- Arguments; those that may be left out are options. -/
structure Args where
  plates : ℕ
  length : ℝ
  width : ℝ
  dPort : ℝ
  rCorner : ℝ
  sIns : ℝ
  rho : ℝ
  aPlate : Option ℝ := none
  depth : Option ℝ := none
  depthBase : Option ℝ := none
  depthPerPlate : Option ℝ := none
  channelWidth : Option ℝ := none
  channelArea : Option ℝ := none
  plateThickness : Option ℝ := none
  vChannel : Option ℝ := none
  massPerPlate : Option ℝ := none
  massBase : Option ℝ := none
  massTotal : Option ℝ := none

/-- `__plate_area`, lines 510-520. -/
noncomputable def plateArea (length width portDiameter cornerRadius : ℝ) : ℝ :=
  length * width - portDiameter ^ 2 * Real.pi - ((2 * cornerRadius) ^ 2 - cornerRadius ^ 2 * Real.pi)

/-- Circumference, lines 537-543, 916-922. -/
noncomputable def circumference (length width cornerRadius : ℝ) : ℝ :=
  2 * length + 2 * width - 8 * cornerRadius + 2 * cornerRadius * Real.pi

/-- `__plate_thickness`, lines 522-549. -/
noncomputable def thickness (diffM rho aPlate diffDepth length width cornerRadius : ℝ) : ℝ :=
  diffM / ((aPlate + diffDepth * circumference length width cornerRadius) * rho)

/-- An argument that must be given and positive. -/
noncomputable def req (o : Option ℝ) : Option ℝ := open Classical in o.bind fun x => if 0 < x then some x else none

/-- An argument that must be positive if it is given, otherwise the given expression. -/
noncomputable def opt (o : Option ℝ) (dflt : Option ℝ) : Option ℝ := if o = none then dflt else req o

/-- What the three ways of description give. -/
structure Core where
  sChannel : ℝ
  sPlate : ℝ
  aChannel : ℝ
  vChannel : ℝ
  diffM : Option ℝ

/-- The area of a plate, lines 706-711. -/
noncomputable def Args.plate (a : Args) : ℝ := a.aPlate.getD (plateArea a.length a.width a.dPort a.rCorner)

/-- By channel width, lines 739-778. -/
noncomputable def Args.byWidth (a : Args) : Option Core :=
  (req a.channelWidth).bind fun s =>
    (opt a.plateThickness ((req a.depthPerPlate).map (· - s))).bind fun t =>
      (opt a.vChannel (some (s * a.plate))).map fun v => ⟨s, t, a.channelArea.getD (s * a.width), v, none⟩

/-- By mass of a plate, lines 779-833; a given channel volume is not checked here. -/
noncomputable def Args.byMass (a : Args) : Option Core :=
  (req a.depthPerPlate).bind fun dd => (req a.massPerPlate).bind fun m =>
    (opt a.plateThickness (some (thickness m a.rho a.plate dd a.length a.width a.rCorner))).map fun t =>
      ⟨dd - t, t, a.channelArea.getD ((dd - t) * a.width), a.vChannel.getD
        ((plateArea a.length a.width 0 a.rCorner - 2 * a.dPort ^ 2 * Real.pi / 4) * (dd - t)), some m⟩

/-- By volume of a channel, lines 834-873. -/
noncomputable def Args.byVolume (a : Args) : Option Core :=
  (req a.vChannel).bind fun v =>
    let s := v / plateArea a.length a.width 0 a.rCorner
    (opt a.plateThickness ((req a.depthPerPlate).map (· - s))).map fun t =>
      ⟨s, t, a.channelArea.getD (s * a.width), v, none⟩

/-- Choice of the way, lines 738-905. -/
noncomputable def Args.core (a : Args) : Option Core :=
  if a.channelWidth ≠ none then a.byWidth
  else if a.massPerPlate ≠ none then a.byMass
  else if a.vChannel ≠ none then a.byVolume
  else none

/-- Depth, lines 714-736: without the depth per plate a base depth ends in a KeyError. -/
noncomputable def Args.depthOf (a : Args) : Option ℝ :=
  if req a.depth ≠ none ∨ (req a.depthBase ≠ none ∧ req a.depthPerPlate ≠ none) then
    if a.depthBase ≠ none then a.depthBase.bind fun b => a.depthPerPlate.map fun d => b + d * a.plates
    else a.depth
  else none

/-- Dry mass, lines 907-915: `_diff_m` exists only if the description was by mass (AttributeError otherwise). -/
noncomputable def Args.mass (a : Args) (c : Core) : Option ℝ :=
  if a.massBase ≠ none then
    if a.massPerPlate ≠ none then a.massBase.bind fun b => c.diffM.map fun d => b + d * a.plates else none
  else a.massTotal

/-- The same in the numeric heat exchanger, `hex_num.py:1043-1056`: the mass of a plate is read there, and it is also
required beside the total mass. -/
noncomputable def Args.massNum (a : Args) : Option ℝ :=
  if a.massPerPlate ≠ none then
    if a.massBase ≠ none then a.massBase.bind fun b => a.massPerPlate.map fun d => b + d * a.plates
    else a.massTotal
  else none

/-- Result. -/
structure Geo where
  aPlate : ℝ
  depth : ℝ
  core : Core
  mass : ℝ
  aO : ℝ
  aOIns : ℝ

/-- General checks, lines 664-703. -/
def Args.Checked (a : Args) : Prop :=
  0 < a.length ∧ 0 < a.width ∧ 0 < a.dPort ∧ 0 ≤ a.rCorner ∧ ∀ x, a.channelArea = some x → 0 < x

/-- Outer surface, lines 921-944. -/
noncomputable def outer (length width depth cornerRadius : ℝ) : ℝ :=
  plateArea length width 0 cornerRadius * 2 + circumference length width cornerRadius * depth

/-- `get_plate_hex_geometry`. -/
noncomputable def Args.geometry (a : Args) : Option Geo :=
  open Classical in
  if a.Checked then
    a.depthOf.bind fun depth => a.core.bind fun c => (a.mass c).map fun m =>
      { aPlate := a.plate, depth := depth, core := c, mass := m, aO := outer a.length a.width depth a.rCorner,
        aOIns := outer (a.length + 2 * a.sIns) (a.width + 2 * a.sIns) (depth + 2 * a.sIns) a.rCorner }
  else none

end Verif.HexGeo
