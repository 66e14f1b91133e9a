import Verif.Model.Conductance
import Verif.Model.Geometry

/-!
# Length of the flow around a part

`calc_flow_length` (`/repo/multisim/precomp_funs.py:4270-4329`) and the lengths which pipes and storages pass to it.
The checks of the types of the arguments are left out; a missing argument is `none` (AssertionError).
-/

namespace Verif.FlowLength

open Verif.Conductance Verif.Geometry

/-- `part_shape`. -/
inductive PartShape where
  | plane
  | cylinder
  | sphere
  deriving DecidableEq

/-- The keyword arguments. -/
structure Lengths where
  height : Option ℝ := none
  width : Option ℝ := none
  depth : Option ℝ := none
  diameter : Option ℝ := none

/-- `calc_flow_length`, `precomp_funs.py:4302-4329`. -/
noncomputable def calcFlowLength (shape : PartShape) (vertical : Bool) (k : Lengths) : Option ℝ :=
  match shape, vertical with
  | .plane, true => k.height
  | .cylinder, true => k.height
  | .plane, false => k.width.bind fun w => k.depth.map fun d => w * d / (2 * (w + d))
  | .cylinder, false => k.diameter.map fun d => d * Real.pi / 2
  | .sphere, _ => k.diameter

/-- A cell of a pipe, `pipe.py:378-430`: a horizontal cylinder. -/
noncomputable def pipeShell (p : PipeArgs) : Option Shell :=
  (calcFlowLength .cylinder false { diameter := some ((p.dO / 2 + p.sIns) * 2) }).map fun L =>
    { rI := p.dI / 2
      rO := p.dO / 2
      rTotal := p.dO / 2 + p.sIns
      gs := p.length / p.n
      lamWll := p.lamWll
      lamIns := p.lamIns
      flowLength := L
      vertical := false }

/-- A cell of a storage, `tes.py:164-187`, `450-473`, `495-503`: a vertical cylinder; the height passed is
`grid_spacing`. -/
noncomputable def tesShell (p : TesArgs) : Option Shell :=
  (calcFlowLength .cylinder true
    { height := some (p.height / p.n), diameter := some ((p.dO / 2 + p.sIns) * 2) }).map fun L =>
    { rI := p.dI / 2
      rO := p.dO / 2
      rTotal := p.dO / 2 + p.sIns
      gs := p.height / p.n
      lamWll := p.lamWll
      lamIns := p.lamIns
      flowLength := L
      vertical := true }

/-- `_flow_length_lid`, `tes.py:505-511`. -/
noncomputable def tesLidLength (p : TesArgs) : Option ℝ :=
  calcFlowLength .plane false
    { height := some ((p.dO / 2 + p.sIns) * 2)
      width := some ((p.dO / 2 + p.sIns) * 2)
      depth := some ((p.dO / 2 + p.sIns) * 2) }

end Verif.FlowLength
