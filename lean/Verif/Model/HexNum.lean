import Verif.Model.Cells
import Verif.Model.Stability
import Mathlib.Algebra.BigOperators.Group.Finset.Basic
import Mathlib.Data.Finset.Range

/-!
# Numeric plate heat exchanger

Transcription of `hexnum_diff` (`/repo/multisim/precomp_funs.py:2593-2816`) and of the flow processing
`_process_flow_multi_flow` (`209-246`), of the port processing `_process_ports_collapsed` (`250-297`) with the
arrays of this part, and of the choice of the number of channels (`/repo/multisim/parts/hex_num.py:92-158`).

The temperature grid has `n` rows (along the flow) and three columns: 0 supply side, 1 wall, 2 demand side.
`T_ext` has a border of one cell which is never written.  The heat transfer coefficients `alpha_i` are an
input here, their formula is in `Model/Conductance.lean`.  Arrays over cells are functions of row and column.
-/

namespace Verif.HexNum

open Verif.Cells (Mat lamMean)

variable {K : Type*} [Field K] [LinearOrder K]

/-! ## Channels -/

/-- Side with more channels (`max_channels`). -/
inductive Side
  | supply | demand
  deriving DecidableEq

/-- Numbers of channels on the supply and the demand side for accepted arguments `plates` and `passes`, `none`
for an `AssertionError`, `hex_num.py:92-158`.  The numbers are Python integers; `int(x)` cuts towards zero, but
only exact quotients occur.  For more than one pass `((plates - 1) / passes) % 2 == 0` means that
`2 * passes` divides `plates - 1` (for numbers which floats represent). -/
def channels (plates passes : ℤ) (side : Side) : Option (ℤ × ℤ) :=
  if passes ≤ 0 then none
  else if passes = 1 then
    if plates % 2 = 0 then
      match side with
      | .supply => some (plates / 2, plates / 2 - 1)
      | .demand => some (plates / 2 - 1, plates / 2)
    else none
  else if (plates - 1) % (2 * passes) = 0 then some ((plates - 1) / (2 * passes), (plates - 1) / (2 * passes))
  else none

/-! ## Differential -/

/-- Constant geometry and material. -/
structure Geo (K : Type*) where
  /-- `num_gp` -/
  n : ℕ
  /-- `_channel_divisor` -/
  chSup : K
  chDmd : K
  /-- `V_cell_fld`: volume of one channel divided by `num_gp` -/
  vCell : K
  /-- `A_channel` -/
  aChannel : K
  /-- `grid_spacing` -/
  gs : K
  /-- `A_plate_eff`: area of one plate times the number of passes, `hex_num.py:858` -/
  aPlate : K
  /-- `_s_plate` -/
  sPlate : K
  /-- `_lam_wll` -/
  lamWll : K
  /-- `_cp_wll` -/
  cpWll : K
  /-- `_mcp_wll_cell` -/
  mcpWll : K
  /-- `_UA_dim1_wll` -/
  uaWll : K

/-- A connected port: its temperature, `A_p_fld_mean`, `port_gsp`, `UA_port_wll`. -/
structure Port (K : Type*) where
  T : K
  area : K
  gsp : K
  uaWll : K

/-- What else enters the differential. -/
structure Inp (K : Type*) where
  /-- `T_ext`, `n + 2` rows and 5 columns -/
  ext : ℕ → ℕ → K
  /-- `dm_io`: flow of side 0 (supply) and 1 (demand), positive from the first row to the last -/
  dm : ℕ → K
  /-- `alpha_i` of row and side -/
  alpha : ℕ → ℕ → K
  /-- the ports 0 to 3 -/
  port : ℕ → Port K
  /-- contents of the memory behind the array of conductivities, see `lamFlat` -/
  junk : ℕ → K

variable (mat : Mat K) (g : Geo K) (s : Inp K)

/-- `T` -/
def T (k j : ℕ) : K := s.ext (k + 1) (j + 1)

/-- Side of a fluid column: column 0 is side 0, column 2 is side 1. -/
def side (j : ℕ) : ℕ := j / 2

/-- `channel_divisor` -/
def divisor (c : ℕ) : K := if c = 0 then g.chSup else g.chDmd

/-- `dm_top`, `precomp_funs.py:225-241`; row 0 keeps the zero of the allocation. -/
def dmTop (c k : ℕ) : K := if k = 0 then 0 else if 0 ≤ s.dm c then s.dm c else 0

/-- `dm_bot`, `precomp_funs.py:225-241`; the last row keeps the zero of the allocation. -/
def dmBot (c k : ℕ) : K := if k + 1 = g.n then 0 else if 0 ≤ s.dm c then 0 else -s.dm c

/-- `dm_port`, `precomp_funs.py:231-241`. -/
def dmPort (i : ℕ) : K :=
  if i % 2 = 0 then (if 0 ≤ s.dm (i / 2) then s.dm (i / 2) else 0)
  else (if 0 ≤ s.dm (i / 2) then 0 else -s.dm (i / 2))

/-- `UA_dim1`, `precomp_funs.py:2674-2685`: face `k` is above row `k`; the outer faces keep their zero. -/
def ua1 (k j : ℕ) : K :=
  if k = 0 ∨ k = g.n then 0
  else if j = 1 then g.uaWll
  else g.aChannel / g.gs * lamMean (mat.lam (T s (k - 1) j)) (mat.lam (T s k j))

/-- `UA_dim2`, `precomp_funs.py:2712-2714` with `UA_fld_wll_plate` (`5137-5160`): face `f` is left of column `f`;
the outer faces keep their zero. -/
def ua2 (k f : ℕ) : K :=
  if f = 1 ∨ f = 2 then g.aPlate / (1 / s.alpha k (f - 1) + g.sPlate / 2 / g.lamWll) else 0

/-- `mcp`, `precomp_funs.py:432-434`, `hex_num.py:1104`. -/
def mcp (k j : ℕ) : K := if j = 1 then g.mcpWll else g.vCell * (mat.rho (T s k j) * mat.cp (T s k j))

/-- `ui`, `precomp_funs.py:436`, `450`. -/
def ui (k j : ℕ) : K := if j = 1 then g.cpWll * T s k j else mat.cp (T s k j) * T s k j

/-- `_port_own_idx`: index of the cell of a port in the flattened array `T`, `hex_num.py:277-286`. -/
def portIdx (i : ℕ) : ℕ := if i = 0 then 0 else if i = 1 then (g.n - 1) * 3 else if i = 2 then 2 else g.n * 3 - 1

/-- `lam_T.flat[idx]`, `precomp_funs.py:287`: the array is `_lam_fld` (`hex_num.py:214`) with two columns, the index
is made for three columns.  Compiled code does not check the index; behind the end of the array it reads whatever
is there. -/
def lamFlat (idx : ℕ) : K := if idx < 2 * g.n then mat.lam (T s (idx / 2) (2 * (idx % 2))) else s.junk idx

/-- `UA_port`, `precomp_funs.py:283-290`. -/
def uaPort (i : ℕ) : K :=
  (s.port i).area / ((s.port i).gsp / (2 * mat.lam (s.port i).T) + g.gs / (2 * lamFlat mat g s (portIdx g i)))
    + (s.port i).uaWll

/-- `dT_cond`, `precomp_funs.py:2773-2788, 2801-2805`; the loss to the ambient is set to zero. -/
def dTcond (k j : ℕ) : K :=
  (ua1 mat g s k j * (s.ext k (j + 1) - s.ext (k + 1) (j + 1))
    + ua1 mat g s (k + 1) j * (s.ext (k + 2) (j + 1) - s.ext (k + 1) (j + 1))
    + ua2 g s k j * (s.ext (k + 1) j - s.ext (k + 1) (j + 1))
    + ua2 g s k (j + 1) * (s.ext (k + 1) (j + 2) - s.ext (k + 1) (j + 1))) / mcp mat g s k j
  + ∑ i ∈ Finset.range 4, if portIdx g i = k * 3 + j then
      uaPort mat g s i * ((s.port i).T - T s k j) / mcp mat g s k j else 0

/-- `dT_adv`, `precomp_funs.py:2789-2812`; the column of the wall keeps its zero, no port has a cell there. -/
def dTadv (k j : ℕ) : K :=
  if j = 1 then 0
  else
    ((dmTop s (side j) k * (mat.cp (s.ext k (j + 1)) * s.ext k (j + 1) - ui mat g s k j)
      + dmBot g s (side j) k * (mat.cp (s.ext (k + 2) (j + 1)) * s.ext (k + 2) (j + 1) - ui mat g s k j))
        / mcp mat g s k j
      + ∑ i ∈ Finset.range 4, if portIdx g i = k * 3 + j then
          dmPort s i * (mat.cp (s.port i).T * (s.port i).T - ui mat g s k j) / mcp mat g s k j else 0)
      / divisor g (side j)

/-- `dT_total`, `precomp_funs.py:2814`. -/
def dT (k j : ℕ) : K := dTcond mat g s k j + dTadv mat g s k j

/-! ## Stability check -/

/-- What the check of this part gets, `precomp_funs.py:2747-2767`: the flows of one channel, and `rhocp` with the
zeros of the allocation in the column of the wall (`hex_num.py:226`, `precomp_funs.py:2721`).  `subs` is
`port_subs_gsp`. -/
def stabilityData (subs : List K) : Stability.DataHex K where
  uaDim1 := (List.range (g.n + 1)).flatMap fun k => (List.range 3).map fun j => ua1 mat g s k j
  uaDim2 := (List.range g.n).flatMap fun k => (List.range 4).map fun f => ua2 g s k f
  uaPort := (List.range 4).map (uaPort mat g s)
  flows := (List.range 2).map fun c => s.dm c / divisor g c
  rho := (List.range g.n).flatMap fun k => (List.range 2).map fun c => mat.rho (T s k (2 * c))
  rhocp := (List.range g.n).flatMap fun k => (List.range 3).map fun j =>
    if j = 1 then 0 else mat.rho (T s k j) * mat.cp (T s k j)
  aPort := (List.range 4).map fun i => (s.port i).area
  subsGsp := subs
  gs := g.gs
  aChannel := g.aChannel
  aPlate := g.aPlate
  vCell := g.vCell

/-- One explicit Euler step of length `h` (the solvers' predictors). -/
def eulerStep (h : K) (k j : ℕ) : K := T s k j + h * dT mat g s k j

end Verif.HexNum
