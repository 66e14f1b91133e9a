import Verif.Model.Flows
import Mathlib.Algebra.Order.Field.Basic

/-!
# Temperature differentials of one-dimensional parts

Transcription of the common core of `pipe1D_diff` (`/repo/multisim/precomp_funs.py:1031-1234`),
`pipe1D_branched_diff` (`1662-1868`), `heatedpipe1D_diff` (`1872-2091`), `chp_core_diff` (`2375-2589`) and
`tes_diff` (`2095-2371`).

The material functions `cp_water`, `rho_water`, `lambda_water` are parameters, so everything proved here
holds for any material.  The conductance to the ambient (`UA_amb_shell`, `UA_amb_lid`) and the factor by
which `buoyancy_byNusselt` (`542-589`) multiplies the conductivity between two cells of a storage are inputs;
their formulas are in `Model/Conductance.lean` and `Model/Buoyancy.lean`.

Arrays over cells are functions of the cell number, meaningful below `n`.  `T_ext` has one more element at
both ends whose values are never set by the part; they are inputs here (`edge`).
-/

namespace Verif.Cells

open Verif.Flows

variable {K : Type*} [Field K] [LinearOrder K]

/-- Material functions of temperature. -/
structure Mat (K : Type*) where
  cp : K → K
  rho : K → K
  lam : K → K

/-- Constant geometry of the part. -/
structure Geo (K : Type*) where
  n : ℕ
  vCell : K
  aCell : K
  gs : K
  mcpWll : K
  uaTbWll : K

/-- A port: its cell, the temperature of the connected port, `A_p_fld_mean`, `port_gsp`, `UA_port_wll` and
the flow into the part (`dm_io`). -/
structure Port (K : Type*) where
  idx : ℕ
  T : K
  area : K
  gsp : K
  uaWll : K
  io : K

/-- What else enters the differential. -/
structure Inp (K : Type*) where
  T : ℕ → K
  edgeTop : K
  edgeBot : K
  Tamb : K
  uaAmb : ℕ → K
  lidTop : K
  lidBot : K
  /-- factor on the mean conductivity between cells `k` and `k + 1` -/
  buoy : ℕ → K

variable (mat : Mat K) (g : Geo K) (s : Inp K)

/-- `T_ext`: index 0 and `n + 1` are the edges. -/
def tExt (j : ℕ) : K := if j = 0 then s.edgeTop else if j = g.n + 1 then s.edgeBot else s.T (j - 1)

/-- `cp_T * T_ext`, `precomp_funs.py:350-363`, `1212-1216`; for inner cells this is `ui`. -/
def enth (j : ℕ) : K := mat.cp (tExt g s j) * tExt g s j

/-- `_lambda_mean_view`, `precomp_funs.py:471-484`. -/
def lamMean (a b : K) : K := 2 * a * b / (a + b)

/-- `UA_plate_tb`, `precomp_funs.py:506-515`: face `j` is between cells `j - 1` and `j`; the outer faces keep
the zero of the allocation. -/
def uaTb (j : ℕ) : K :=
  if j = 0 ∨ j = g.n then 0
  else g.aCell / g.gs * (s.buoy (j - 1) * lamMean (mat.lam (s.T (j - 1))) (mat.lam (s.T j))) + g.uaTbWll

/-- `cell_temp_props_ext`, `precomp_funs.py:403-417`. -/
def mcp (k : ℕ) : K := g.vCell * (mat.rho (s.T k) * mat.cp (s.T k)) + g.mcpWll

/-- `UA_port` in `_process_ports_collapsed`, `precomp_funs.py:283-291`. -/
def uaPort (p : Port K) : K :=
  p.area / (p.gsp / (2 * mat.lam p.T) + g.gs / (2 * mat.lam (s.T p.idx))) + p.uaWll

/-- `array[idx] += value` for a list of ports. -/
def addAt (f : ℕ → K) : List (ℕ × K) → ℕ → K
  | [] => f
  | (i, v) :: l => addAt (fun k => if k = i then f k + v else f k) l

/-- `dT_cond`, `precomp_funs.py:1205-1224`, lids `2320-2323`.  For pipes the lids are zero. -/
def dTcond (ports : List (Port K)) : ℕ → K :=
  addAt (fun k =>
      (uaTb mat g s k * (tExt g s k - tExt g s (k + 1))
        + uaTb mat g s (k + 1) * (tExt g s (k + 2) - tExt g s (k + 1))
        + s.uaAmb k * (s.Tamb - tExt g s (k + 1))) / mcp mat g s k
      + (if k = 0 then s.lidTop * (s.Tamb - tExt g s 1) / mcp mat g s 0 else 0)
      + (if k + 1 = g.n then s.lidBot * (s.Tamb - tExt g s g.n) / mcp mat g s (g.n - 1) else 0))
    (ports.map fun p => (p.idx, uaPort mat g s p * (p.T - s.T p.idx) / mcp mat g s p.idx))

/-- `dT_adv`, `precomp_funs.py:1211-1228`: `inflow` is `dm_port`. -/
def dTadv (top bot : ℕ → K) (ports : List (Port K)) (inflow : List K) : ℕ → K :=
  addAt (fun k =>
      (top k * (enth mat g s k - enth mat g s (k + 1))
        + bot k * (enth mat g s (k + 2) - enth mat g s (k + 1))) / mcp mat g s k)
    ((ports.zip inflow).map fun q =>
      (q.1.idx, q.2 * (mat.cp q.1.T * q.1.T - enth mat g s (q.1.idx + 1)) / mcp mat g s q.1.idx))

/-- Range of heated cells and heat flow per cell, `heated_pipe.py:93-155`, `chp_plant.py:356-414`. -/
structure Heat (K : Type*) where
  start : ℕ
  stop : ℕ
  dQ : K
  mult : K

/-- `heat_spread='all'`. -/
def Heat.all (n : ℕ) (dQ : K) : Heat K := ⟨0, n, dQ, 1 / n⟩
/-- `heat_spread='single'`. -/
def Heat.single (i : ℕ) (dQ : K) : Heat K := ⟨i, i + 1, dQ, 1⟩
/-- `heat_spread='range'`; accepted if `start < stop` and `stop < num_gp`. -/
def Heat.range (a b : ℕ) (dQ : K) : Heat K := ⟨a, b, dQ, 1 / ((b - a : ℕ) : K)⟩

/-- `dT_heat`: the view `dT_heated` is written, the rest keeps its zero, `precomp_funs.py:2064-2065`. -/
def dTheat (q : Heat K) (k : ℕ) : K :=
  if q.start ≤ k ∧ k < q.stop then q.dQ * q.mult / mcp mat g s k else 0

/-- A storage (`tes_diff`) or a branched pipe (`pipe1D_branched_diff`, lids zero): flows from
`_process_flow_var`. -/
def storageDT (ports : List (Port K)) : ℕ → K :=
  let f := processVar g.n (ports.map (·.idx)) (ports.map (·.io))
  fun k => dTcond mat g s ports k + dTadv mat g s f.top f.bot ports f.port k

/-- A pipe (`pipe1D_diff`): the flow `io` goes from the port at cell 0 to the port at the last cell. -/
def pipeDT (io : K) (pin pout : Port K) : ℕ → K :=
  let f := processInvar g.n io
  fun k => dTcond mat g s [pin, pout] k + dTadv mat g s f.top f.bot [pin, pout] [f.portIn, f.portOut] k

/-- The heat flow after the check for overheating, `precomp_funs.py:1939-1942`; the array is overwritten, so
the zero stays for all later evaluations until the controller sets it again. -/
def shutdown (limit : K) (dQ : K) : K :=
  if ∃ j < g.n + 2, limit ≤ tExt g s j then 0 else dQ

/-- A heated pipe (`heatedpipe1D_diff`): differential and the heat flow stored afterwards. -/
def heatedDT (limit : K) (q : Heat K) (io : K) (pin pout : Port K) : (ℕ → K) × K :=
  let dQ := shutdown g s limit q.dQ
  (fun k => pipeDT mat g s io pin pout k + dTheat mat g s { q with dQ := dQ } k, dQ)

end Verif.Cells
