import Verif.Model.FlowAlpha
import Verif.Model.HexNum

/-!
# Numbers of plates, passes and channels of a plate heat exchanger

Transcription of `HeatExchanger.__init__` (`/repo/multisim/parts/heatexchanger.py:84-148`), whose numbers of channels are computed as in the
numeric heat exchanger (`HexNum.channels`), and of the area which `solve_platehex` works with (`heatexchanger.py:712-713`,
`/repo/multisim/_precompiled/precomp_funs.py:3465-3478`).
-/

namespace Verif.PlateCount

open Verif.FlowAlpha Verif.HexNum

/-- `_num_A = int((num_plates - 2) / passes)`, `heatexchanger.py:148`; `int` cuts towards zero. -/
def numA (plates passes : ℤ) : ℤ := (plates - 2).tdiv passes

/-- What the constructor and `get_plate_hex_geometry` pass to `solve_platehex`; `none` for an `AssertionError`.  `g` has the lengths, the
area `A_plate` of one plate and the correction. -/
noncomputable def build (g : Plates) (plates passes : ℤ) (side : Side) : Option Plates :=
  (channels plates passes side).map fun ch =>
    { g with chSup := ch.1, chDmd := ch.2, aPlate := g.aPlate * passes, numA := numA plates passes }

end Verif.PlateCount
