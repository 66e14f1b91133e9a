import Mathlib.Analysis.SpecialFunctions.Log.Basic
import Mathlib.Analysis.Real.Pi.Bounds
import Mathlib.Algebra.Order.Floor.Defs

/-!
# Sizes of pipes and storages, and specifications of ports

Transcription of the geometry in `Pipe.__init__` and `Pipe.init_part` (`/repo/multisim/parts/pipe.py:45-100`,
`300-400`), `Tes.__init__` and `Tes.init_part` (`/repo/multisim/parts/tes.py:63-190`, `374-475`), of the choice of the
heated cells in `HeatedPipe.__init__` (`/repo/multisim/parts/heated_pipe.py:73-160`) and of `_get_specs_n_props`
(`/repo/multisim/simenv.py:3394-3674`).  Types of arguments are not modelled, only their values.
-/

namespace Verif.Geometry

/-! ## Pipes -/

/-- Arguments of a pipe: length, number of grid points, the row of the table of pipes, insulation and wall. -/
structure PipeArgs where
  length : ℝ
  n : ℤ
  aI : ℝ
  dI : ℝ
  dO : ℝ
  sIns : ℝ
  lamIns : ℝ
  lamWll : ℝ
  cpWll : ℝ
  rhoWll : ℝ

/-- The checks, `pipe.py:70-90`, `335-352`. -/
def PipeArgs.Accepted (p : PipeArgs) : Prop := 0 < p.length ∧ 0 < p.n ∧ 0 ≤ p.sIns ∧ 0 ≤ p.lamIns

/-- What the differentials get. -/
structure Sizes where
  gs : ℝ
  aCell : ℝ
  vCell : ℝ
  aShellI : ℝ
  aShellIns : ℝ
  rLnWll : ℝ
  rLnIns : ℝ
  rRins : ℝ
  uaTbWll : ℝ
  mcpWll : ℝ
  lamWll : ℝ
  lamIns : ℝ

/-- `Pipe.init_part`, `pipe.py:100`, `378-415`. -/
noncomputable def PipeArgs.sizes (p : PipeArgs) : Sizes :=
  let gs := p.length / p.n
  let rI := p.dI / 2
  let rO := p.dO / 2
  let rTotal := p.dO / 2 + p.sIns
  let aShellCs := Real.pi / 4 * (p.dO ^ 2 - p.dI ^ 2)
  { gs := gs
    aCell := p.aI
    vCell := p.aI * gs
    aShellI := Real.pi * p.dI * gs
    aShellIns := Real.pi * rTotal * 2 * gs
    rLnWll := rI * Real.log (rO / rI)
    rLnIns := rI * Real.log (rTotal / rO)
    rRins := rI / rTotal
    uaTbWll := aShellCs / gs * p.lamWll
    mcpWll := p.cpWll * p.rhoWll * (aShellCs * p.length) / p.n
    lamWll := p.lamWll
    lamIns := p.lamIns }

/-- `_cell_dist`, `pipe.py:102-104`: `np.arange(gs / 2, length, gs)` has `ceil((length - gs / 2) / gs)` entries. -/
noncomputable def PipeArgs.positions (p : PipeArgs) : List ℝ :=
  (List.range ⌈(p.length - p.length / p.n / 2) / (p.length / p.n)⌉.toNat).map fun k : ℕ =>
    p.length / p.n / 2 + k * (p.length / p.n)

/-! ## Storages -/

/-- Arguments of a storage. -/
structure TesArgs where
  volume : ℝ
  n : ℤ
  dO : ℝ
  shell : ℝ
  sIns : ℝ
  lamIns : ℝ
  lamWll : ℝ
  cpWll : ℝ
  rhoWll : ℝ

/-- The checks, `tes.py:124-155`, `408-424`: `volume` is only converted to a float. -/
def TesArgs.Accepted (p : TesArgs) : Prop := 0 < p.dO ∧ 0 < p.shell ∧ p.shell < 1 ∧ 0 ≤ p.sIns ∧ 0 ≤ p.lamIns

/-- `_d_i`, `tes.py:164`. -/
def TesArgs.dI (p : TesArgs) : ℝ := p.dO - 2 * p.shell

/-- `length`, the height, `tes.py:170`. -/
noncomputable def TesArgs.height (p : TesArgs) : ℝ := p.volume / (Real.pi * p.dI ^ 2 / 4)

/-- `Tes.__init__` and `Tes.init_part`, `tes.py:164-187`, `450-473`. -/
noncomputable def TesArgs.sizes (p : TesArgs) : Sizes :=
  let gs := p.height / p.n
  let rI := p.dI / 2
  let rO := p.dO / 2
  let rTotal := p.dO / 2 + p.sIns
  let aShellCs := Real.pi / 4 * (p.dO ^ 2 - p.dI ^ 2)
  { gs := gs
    aCell := Real.pi * p.dI ^ 2 / 4
    vCell := p.volume / p.n
    aShellI := Real.pi * p.dI * gs
    aShellIns := Real.pi * rTotal * 2 * gs
    rLnWll := rI * Real.log (rO / rI)
    rLnIns := rI * Real.log (rTotal / rO)
    rRins := rI / rTotal
    uaTbWll := aShellCs / gs * p.lamWll
    mcpWll := p.cpWll * p.rhoWll * (aShellCs * p.height) / p.n
    lamWll := p.lamWll
    lamIns := p.lamIns }

/-- Conductance from the water of a cell to the ambient, `UA_fld_wll_ins_amb_cyl`, `precomp_funs.py:4960-4965`;
`none` is a ZeroDivisionError (conductivities are scalars). -/
noncomputable def Sizes.ua (s : Sizes) (alphaI alphaInf : ℝ) : Option ℝ :=
  open Classical in
  if s.lamWll = 0 ∨ s.lamIns = 0 then none
  else some (s.aShellI / (1 / alphaI + s.rLnWll / s.lamWll + s.rLnIns / s.lamIns + s.rRins / alphaInf))

/-! ## Heated cells -/

/-- `heat_spread` with `heated_cells`. -/
inductive Spread where
  | all
  | single (cell : ℤ)
  | range (start stop : ℤ)

/-- First heated cell and the first one after the heated cells, `heated_pipe.py:96-155`; `none` is an
AssertionError. -/
def Spread.cells (n : ℤ) : Spread → Option (ℤ × ℤ)
  | .all => some (0, n)
  | .single k => if 0 ≤ k ∧ k ≤ n - 1 then some (k, k + 1) else none
  | .range a b => if a < b ∧ 0 ≤ a ∧ b < n then some (a, b) else none

/-- `_heat_mult`, `heated_pipe.py:98, 122, 153`. -/
noncomputable def Spread.mult (n : ℤ) : Spread → ℝ
  | .all => 1 / n
  | .single _ => 1
  | .range a b => 1 / ((b - a : ℤ) : ℝ)

/-- `dT_heat` of a cell with heat capacity `mcp`, `precomp_funs.py:2065`; cells that are not heated keep their
zero. -/
noncomputable def heatRate (n : ℤ) (s : Spread) (q : ℝ) (mcp : ℤ → ℝ) (k : ℤ) : ℝ :=
  match s.cells n with
  | none => 0
  | some (a, b) => if a ≤ k ∧ k < b then q * s.mult n / mcp k else 0

/-! ## Specifications of ports -/

/-- Areas of wall and fluid. -/
abbrev Areas := ℝ × ℝ

/-- One entry of `pipe_specs`: type of pipe, nominal diameter, `A_wall` and `A_i`. -/
structure Entry where
  type : String
  dn : Option String
  areas : Option Areas

/-- The table of pipes: types and diameters are columns, quantities like `A_i` are rows. -/
structure Table where
  types : List String
  dns : String → List String
  areas : String → String → Areas
  rows : List String

/-- The check of the form, `simenv.py:3501-3508`. -/
def Entry.WellFormed (e : Entry) : Prop := e.dn ≠ none ∨ e.areas ≠ none

instance (e : Entry) : Decidable e.WellFormed := inferInstanceAs (Decidable (_ ∨ _))

/-- Areas of an entry for all ports, `simenv.py:3511-3606`; `none` is an AssertionError. -/
def Table.lookupAll (t : Table) (e : Entry) : Option Areas :=
  if e.type ∈ t.types then
    match e.dn with
    | some dn => if dn ∈ t.dns e.type then some (t.areas e.type dn) else none
    | none => e.areas
  else none

/-- Areas of an entry for one port, `simenv.py:3511-3556`, `3640-3652`: here the table is read with
`.loc[pipe_type, DN]`, which takes the type for the name of a row; `none` is an AssertionError or KeyError. -/
def Table.lookupOne (t : Table) (e : Entry) : Option Areas :=
  if e.type ∈ t.types then
    match e.dn with
    | some dn => if dn ∈ t.dns e.type ∧ e.type ∈ t.rows then some (t.areas e.type dn) else none
    | none => e.areas
  else none

/-- One entry of the dictionary is written into the arrays, `simenv.py:3618-3652`: the port must exist
(`_get_arr_idx`, `simenv.py:2955-2966`). -/
def Table.store (t : Table) (ports : List String) (acc : String → Areas) (ke : String × Entry) :
    Option (String → Areas) :=
  if ke.1 ∈ ports then (t.lookupOne ke.2).map fun a p => if p = ke.1 then a else acc p else none

/-- `_get_specs_n_props` for a dictionary without repeated keys: areas of each port. -/
def Table.specs (t : Table) (ports : List String) (d : List (String × Entry)) : Option (String → Areas) :=
  if ∀ ke ∈ d, ke.2.WellFormed then
    match d with
    | [("all", e)] => (t.lookupAll e).map fun a _ => a
    | d => (d.foldlM (t.store ports) fun _ => (0, 0)).bind fun acc =>
        if "all" ∈ d.map Prod.fst ∨ d.length = ports.length then some acc else none
  else none

end Verif.Geometry
