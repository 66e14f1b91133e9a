import Mathlib.Algebra.Order.Field.Basic

/-!
# Mass flows inside a part

Transcription of `_process_flow_var`, `_process_flow_invar` and `_process_flow_multi_flow`
(`/repo/multisim/precomp_funs.py:86-245`).  A part has `n` cells `0 … n-1`; arrays over cells are functions
of the cell number, meaningful below `n`.

Simplification: the guard `process_flows[0]` and the result array row are left out; the functions are
evaluated once per step with the flows of that step.
-/

namespace Verif.Flows

variable {K : Type*} [Field K] [LinearOrder K]

/-- `np.cumsum` continued from `acc`. -/
def cumsumFrom (acc : K) : List K → List K
  | [] => []
  | x :: xs => (acc + x) :: cumsumFrom (acc + x) xs

/-- `np.cumsum`, `precomp_funs.py:184`. -/
def cumsum (l : List K) : List K := cumsumFrom 0 l

/-- The loop `dm[idx[i]:idx[i+1]] += cs[i]` for `i < idx.size - 1`, `precomp_funs.py:183-186`; the value of
`dm[k]` afterwards. -/
def slices : List ℕ → List K → ℕ → K
  | i :: j :: idx, c :: cs, k => (if i ≤ k ∧ k < j then c else 0) + slices (j :: idx) cs k
  | _, _, _ => 0

/-- `x[x < 0] = 0`. -/
def pos (x : K) : K := if x < 0 then 0 else x

/-- The flows of a part with several ports and a flow that differs from cell to cell. -/
structure Var (K : Type*) where
  /-- `dm_top` -/
  top : ℕ → K
  /-- `dm_bot` -/
  bot : ℕ → K
  /-- `dm_port` -/
  port : List K
  /-- `dm` as stored in the results -/
  dm : ℕ → K

/-- `_process_flow_var`, `precomp_funs.py:159-205`: `idx` is `port_own_idx`, `io` is `dm_io`.  The elements
`dm_top[0]` and `dm_bot[n-1]` are never written and keep the zero of their allocation. -/
def processVar (n : ℕ) (idx : List ℕ) (io : List K) : Var K :=
  let dm := slices idx (cumsum io)
  { top := fun k => if k = 0 then 0 else pos (dm (k - 1))
    bot := fun k => if k + 1 = n then 0 else pos (-dm k)
    port := io.map pos
    dm := fun k => if k + 1 = n then dm (k - 1) else dm k }

/-- The flows of a part with the same flow in every cell. -/
structure Invar (K : Type*) where
  top : ℕ → K
  bot : ℕ → K
  /-- `dm_port[0]`, the port at cell 0 -/
  portIn : K
  /-- `dm_port[-1]`, the port at the last cell -/
  portOut : K

/-- `_process_flow_invar`, `precomp_funs.py:88-118`; also each channel of `_process_flow_multi_flow`,
`precomp_funs.py:209-245`. -/
def processInvar (n : ℕ) (io : K) : Invar K :=
  { top := fun k => if k = 0 then 0 else if 0 ≤ io then io else 0
    bot := fun k => if k + 1 = n then 0 else if 0 ≤ io then 0 else -io
    portIn := if 0 ≤ io then io else 0
    portOut := if 0 ≤ io then 0 else -io }

end Verif.Flows
