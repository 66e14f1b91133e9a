import Mathlib.Algebra.BigOperators.Group.Finset.Basic
import Mathlib.Algebra.Field.Basic
import Mathlib.Data.Finset.Range

/-!
# Conductance of the connections between parts

Transcription of the second half of `SimEnv._get_port_connections` (`/repo/multisim/simenv.py:1713-1895`) and of
`SimEnv._calc_UAwll_port` (`2565-2618`), which `_initialize_arrays` calls (`4628-4630`) whenever the environment is
initialised.

Parts are numbered in the order in which they were added, the ports of a part in the order of its port names.  The
arrays of a part with one entry per port and the single values which some parts keep for all ports are both
functions of the port number.
-/

namespace Verif.PortCond

variable {K : Type*}

/-- What a part knows about one of its ports (`_A_wll_own_p`, `_A_fld_own_p`, `grid_spacing`, `_lam_wll`), and what
it learns about the connected port (`_A_wll_conn_p`, `_A_fld_conn_p`, `_port_gsp`, `_lam_wll_conn_p`). -/
structure Spec (K : Type*) where
  aWll : K
  aFld : K
  gsp : K
  lam : K

/-- A plant: `solve_numeric`, `_port_heatcond` and the number of ports of each part, and the connections;
`none` is a boundary condition. -/
structure Plant where
  count : ℕ
  numeric : ℕ → Bool
  heatcond : ℕ → Bool
  ports : ℕ → ℕ
  link : ℕ → ℕ → Option (ℕ × ℕ)

/-- The values of all parts. -/
structure State (K : Type*) where
  own : ℕ → ℕ → Spec K
  conn : ℕ → ℕ → Spec K

/-- `loop_order`, `simenv.py:1736-1744`: parts without differential equation are inserted at the beginning, so they
come in reversed order. -/
def loopOrder (G : Plant) : List ℕ :=
  ((List.range G.count).filter fun p => !G.numeric p).reverse ++ (List.range G.count).filter G.numeric

/-- `src_part`, `src_port`, `simenv.py:1798-1804`: a port at a boundary condition is its own partner. -/
def source (G : Plant) (p i : ℕ) : ℕ × ℕ := (G.link p i).getD (p, i)

variable [Field K]

/-- `A_wcp = A_fcp = gsp_p = lam_wcp = 0`, `simenv.py:1837-1841`. -/
def Spec.zero : Spec K := ⟨0, 0, 0, 0⟩

/-- The values read from the connected port, `simenv.py:1810-1841`. -/
def read (G : Plant) (own : ℕ → ℕ → Spec K) (p i : ℕ) : Spec K :=
  let q := source G p i
  if G.heatcond q.1 then own q.1 q.2 else Spec.zero

/-- Mean of the values of the other ports, `simenv.py:1873-1895`; `n` is the number of ports. -/
def meanOthers (n : ℕ) (f : ℕ → K) (i : ℕ) : K := (∑ j ∈ (Finset.range n).erase i, f j) / ((n - 1 : ℕ) : K)

def Spec.meanOthers (n : ℕ) (f : ℕ → Spec K) (i : ℕ) : Spec K :=
  ⟨PortCond.meanOthers n (fun j => (f j).aWll) i, PortCond.meanOthers n (fun j => (f j).aFld) i,
    PortCond.meanOthers n (fun j => (f j).gsp) i, PortCond.meanOthers n (fun j => (f j).lam) i⟩

/-- One pass of the loop over the parts, `simenv.py:1746-1895`. -/
def visit (G : Plant) (s : State K) (p : ℕ) : State K :=
  let c : ℕ → Spec K := fun i => if i < G.ports p then read G s.own p i else s.conn p i
  { own := fun q i =>
      if q = p ∧ G.numeric p = false ∧ i < G.ports p then Spec.meanOthers (G.ports p) c i else s.own q i
    conn := fun q i => if q = p then c i else s.conn q i }

/-- `_get_port_connections`. -/
def connect (G : Plant) (s : State K) : State K := (loopOrder G).foldl (visit G) s

variable [DecidableEq K]

/-- `_A_p_fld_mean`, `simenv.py:2584-2596`. -/
def areaFld (own conn : Spec K) : K := if conn.aFld = 0 then 0 else (own.aFld + conn.aFld) / 2

/-- `_A_p_wll_mean`, `simenv.py:2581-2595`. -/
def areaWll (own conn : Spec K) : K := if conn.aWll = 0 then 0 else (own.aWll + conn.aWll) / 2

/-- `_UA_port_wll`, `simenv.py:2598-2618`; where no wall is connected the zero of the allocation stays. -/
def uaWll (own conn : Spec K) : K :=
  if conn.aWll = 0 then 0 else areaWll own conn / (conn.gsp / (2 * conn.lam) + own.gsp / (2 * own.lam))

end Verif.PortCond
