import Mathlib.Algebra.Field.Basic
import Mathlib.Algebra.BigOperators.Group.List.Basic

/-!
# Mass flow calculation

Model of `SimEnv._update_FlowNet` (`multisim/simenv.py:2620-2708`) and of the routines that connectors,
storages, branched pipes and three-way valves hand out (`_get_flow_routine`).

The mass flow arrays `_dm_io` of all parts and the arrays `pf_arr` of the valve openings are one memory,
a function from addresses to values; a memory view of one cell is an address.  Dividing by a zero opening
gives `inf` in the code and `0` here; the theorems that need it exclude the case.
-/

namespace Verif.FlowNet

variable {K : Type*} [Field K]

/-- Operation and source cells, `simenv.py:2628-2650`.  `idle` stands for every other operation number. -/
inductive Op where
  /-- 0: pass on the value -/
  | pass (a : ℕ)
  /-- -1: negative of the sum -/
  | negSum (a : ℕ) (rest : List ℕ)
  /-- 1: sum -/
  | sum (l : List ℕ)
  /-- -3: negative product -/
  | negMul (a b : ℕ)
  /-- -4: negative quotient -/
  | negDiv (a b : ℕ)
  /-- 3: product -/
  | mul (a b : ℕ)
  /-- 4: quotient -/
  | div (a b : ℕ)
  /-- 2: difference -/
  | sub (a b : ℕ)
  /-- 5: product of two cells divided by a third -/
  | mulDiv (a b c : ℕ)
  | idle
  deriving DecidableEq

/-- One entry of `flow_net`. -/
structure Routine where
  tgt : ℕ
  op : Op
  deriving DecidableEq

/-- Writing one cell. -/
def write (s : ℕ → K) (t : ℕ) (v : K) : ℕ → K := fun i => if i = t then v else s i

/-- The body of the loop, `simenv.py:2651-2704`.  Operation -1 works in place: it first writes the negative
of the first source and then subtracts the others one by one, `simenv.py:2664-2679`. -/
def exec (s : ℕ → K) (r : Routine) : ℕ → K :=
  match r.op with
  | .pass a => write s r.tgt (s a)
  | .negSum a rest => rest.foldl (fun s b => write s r.tgt (s r.tgt - s b)) (write s r.tgt (-s a))
  | .sum l => write s r.tgt (l.map s).sum
  | .negMul a b => write s r.tgt (-(s a * s b))
  | .negDiv a b => write s r.tgt (-(s a / s b))
  | .mul a b => write s r.tgt (s a * s b)
  | .div a b => write s r.tgt (s a / s b)
  | .sub a b => write s r.tgt (s a - s b)
  | .mulDiv a b c => write s r.tgt (s a * s b / s c)
  | .idle => s

/-- `SimEnv._update_FlowNet`, `simenv.py:2651-2704`. -/
def evalNet (net : List Routine) (s : ℕ → K) : ℕ → K := net.foldl exec s

/-! ## Routines of the parts -/

/-- Passing on the value of the connected parent port: same sign if the positive directions of the two
ports are opposite (`same = false`), negative otherwise, `simenv.py:3794-3819`. -/
def passOn (tgt parent : ℕ) (same : Bool) : Routine :=
  if same then ⟨tgt, .negSum parent []⟩ else ⟨tgt, .pass parent⟩

/-- Connector with ports 0, 1, 2 at the addresses `cell`: `connector_3w.py:262-343`.  `solved` is the list
of ports solved so far, `parent` the cell of the connected port. -/
def connectorRoutine (cell : Fin 3 → ℕ) (solved : List (Fin 3)) (port : Fin 3) (parent : ℕ)
    (same : Bool) : Routine :=
  if solved.length = 2 then
    match ((List.finRange 3).filter fun q => q ≠ port).map cell with
    | a :: rest => ⟨cell port, .negSum a rest⟩
    | [] => ⟨cell port, .idle⟩
  else passOn (cell port) parent same

/-- Storage or branched pipe: `tes.py:814-934`, `pipe_branched.py:120-238`.  `parent` is the cell of the
connected port if the port is reached from outside.  With one port left and no parent the port gets the
negative sum of all ports solved before. -/
def storageRoutine (cell : ℕ → ℕ) (solved : List ℕ) (port : ℕ) : Option (ℕ × Bool) → Routine
  | some (parent, same) => passOn (cell port) parent same
  | none => match solved.map cell with
    | a :: rest => ⟨cell port, .negSum a rest⟩
    | [] => ⟨cell port, .idle⟩

/-- The ports of a three-way valve. -/
inductive VPort where
  | A
  | B
  | AB
  deriving DecidableEq

/-- Mixing or splitting valve: `mixingvalve.py:446-556`.  Port AB is solved first (asserted in
`mixingvalve.py:488-497`) by passing on the value, the others by multiplying with the opening.  `pf` are the
addresses of the openings. -/
def valveRoutine (cell pf : VPort → ℕ) (solved : List VPort) (port : VPort) (parent : ℕ) (same : Bool) :
    Routine :=
  if solved = [] then passOn (cell port) parent same else ⟨cell port, .mul (cell .AB) (pf port)⟩

/-- Pipe with valve: `pipe_with_valve.py:220-300`.  All ports face inwards; any port may come first. -/
def pipeValveRoutine (cell pf : VPort → ℕ) (solved : List VPort) (port : VPort) (parent : ℕ)
    (same : Bool) : Routine :=
  if solved = [] then passOn (cell port) parent same
  else if (port = .A ∨ port = .B) ∧ .AB ∈ solved then ⟨cell port, .negMul (cell .AB) (pf port)⟩
  else if port = .AB ∧ (.A ∈ solved ∨ .B ∈ solved) then
    let q : VPort := if .A ∈ solved then .A else .B
    ⟨cell .AB, .negDiv (cell q) (pf q)⟩
  else if (port = .A ∨ port = .B) ∧ .AB ∉ solved then
    let q : VPort := if .A ∈ solved then .A else .B
    ⟨cell port, .mulDiv (cell q) (pf port) (pf q)⟩
  else ⟨cell port, .idle⟩

/-- The routines of all ports of a part, in the order in which the topology analysis reaches them. -/
def inOrder {P : Type} (f : List P → P → Routine) : List P → List P → List Routine
  | _, [] => []
  | solved, p :: ps => f solved p :: inOrder f (solved ++ [p]) ps

end Verif.FlowNet
