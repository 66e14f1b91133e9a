import Mathlib.Data.List.Basic
import Mathlib.Data.List.Nodup
import Mathlib.Data.List.Range

/-!
# Declaring and building a simulation environment

Model of the registration methods of `SimEnv` (`multisim/simenv.py`): `add_part`, `add_open_port`,
`connect_ports` and `add_control` only fill dictionaries; `_call_postponed` builds the environment from
them.  What the part constructors do besides announcing their ports is not modelled.

Simplifications
* A dictionary key `part + ';' + port` is the pair `(part, port)`.  The two agree because
  `_check_unconnected_ports` splits every key at `';'` into exactly two pieces, so that a name containing
  `';'` never gets past the check.
* `_ports_connected`, a list stored in every part, is one list of pairs `(part, port)`.
* Solver and time frame are taken as set (`simenv.py:789-794`), the values of boundary conditions are not
  recorded and `breakpoint()` in `simenv.py:1997-1998` is left out.
-/

namespace Verif.Registry

/-- A port: name of the part and name of the port. -/
abbrev Key := String × String

/-- The name that stands for the boundary conditions, `simenv.py:1907-1910`. -/
def bcPart : String := "BoundaryCondition"

/-- Assigning to a Python dictionary, kept as list of pairs in insertion order: an existing key keeps its
place and gets the new value. -/
def dictSet {α β : Type} [DecidableEq α] (k : α) (v : β) : List (α × β) → List (α × β)
  | [] => [(k, v)]
  | (k', v') :: t => if k' = k then (k, v) :: t else (k', v') :: dictSet k v t

/-- Looking up a Python dictionary. -/
def dictGet {α β : Type} [DecidableEq α] (k : α) : List (α × β) → Option β
  | [] => none
  | (k', v') :: t => if k' = k then some v' else dictGet k t

/-- The keys of a dictionary whose values do not matter: adding a key. -/
def keyAdd {α : Type} [DecidableEq α] (k : α) (l : List α) : List α := if k ∈ l then l else l ++ [k]

/-! ## Declarations -/

/-- The exceptions. -/
inductive Err where
  /-- `simenv.py:5706-5717` -/
  | alreadyAdded (name : String)
  /-- `simenv.py:4397-4404` -/
  | noParts
  /-- `simenv.py:796-804` -/
  | badPartName (name : String)
  /-- `simenv.py:1259-1265` -/
  | badPortName (name : String)
  /-- `simenv.py:1963-1973` -/
  | unknownPart (name : String)
  /-- `simenv.py:1982-2014` -/
  | alreadyConnected (k : Key)
  /-- `simenv.py:2018-2097` -/
  | unknownPort (k : Key)
  /-- `simenv.py:2145-2165` -/
  | unconnected (ports : List Key)
  /-- `simenv.py:1647-1654` -/
  | controlBeforeConnect
  deriving DecidableEq

/-- A call of one of the declaration methods.  `store` stands for the value of `store_results`. -/
inductive Call where
  | addPart (name : String) (ports : List String) (store : ℕ)
  | addOpenPort (name : String)
  | connect (first second : Key)
  | addControl (name : String)

/-- The dictionary `__postpone` (`simenv.py:231`) by kind and `_disk_store_parts`. -/
structure Post where
  parts : List (String × List String)
  store : List (String × ℕ)
  opens : List String
  conns : List (Key × Key)
  ctrls : List String
  deriving DecidableEq

def Post.empty : Post := ⟨[], [], [], [], []⟩

/-- One declaration: the new dictionaries, and the exception if there is one.  A raised exception does not
undo what was written before, which matters for `add_part`.
`add_part` `simenv.py:711-772`, `add_open_port` `simenv.py:1102-1128`, `connect_ports`
`simenv.py:1926-1942`, `add_control` `simenv.py:1619-1643`. -/
def declare (p : Post) : Call → Post × Option Err
  | .addPart name ports store =>
    let p := { p with store := dictSet name store p.store }
    if name ∈ p.parts.map Prod.fst then (p, some (.alreadyAdded name))
    else ({ p with parts := p.parts ++ [(name, ports)] }, none)
  | .addOpenPort name =>
    if name ∈ p.opens then (p, some (.alreadyAdded name))
    else ({ p with opens := p.opens ++ [name] }, none)
  | .connect k₁ k₂ => ({ p with conns := dictSet k₁ k₂ p.conns }, none)
  | .addControl name =>
    if name ∈ p.ctrls then (p, some (.alreadyAdded name))
    else ({ p with ctrls := p.ctrls ++ [name] }, none)

/-- A user script.  It may catch the exceptions and go on. -/
def declareAll (p : Post) : List Call → Post
  | [] => p
  | c :: cs => declareAll (declare p c).1 cs

/-! ## Building -/

/-- What is kept of a part: `name`, `port_names`, `port_ids`. -/
structure PartRec where
  name : String
  ports : List String
  ids : List ℕ
  deriving DecidableEq

/-- The attributes of `SimEnv`: `parts`, `boundary_conditions` (name and `port_id`), the keys of `ports`,
`num_ports`, the number of entries of `ports_all`, `plinks_arr`, `port_links`, `_ports_connected`,
`_num_conn_ports`, `ctrls`. -/
structure Env where
  parts : List PartRec
  bcs : List (String × ℕ)
  keys : List Key
  numPorts : ℕ
  numAll : ℕ
  plinks : List ℕ
  links : List (Key × Key)
  connected : List Key
  numConn : ℕ
  ctrls : List String
  deriving DecidableEq

/-- `simenv.py:160-260`.  `plinks_arr` starts with one arbitrary entry. -/
def Env.empty (junk : ℕ) : Env := ⟨[], [], [], 0, 0, [junk], [], [], 0, []⟩

/-- The loop over the ports of a new part, `simenv.py:823-860`, with the port numbers given out. -/
def addPartPorts (name : String) : List String → Env → Env × List ℕ
  | [], e => (e, [])
  | q :: qs, e =>
    let r := addPartPorts name qs { e with
      keys := keyAdd (name, q) e.keys, numPorts := e.numPorts + 1, numAll := e.numAll + 1,
      plinks := e.plinks ++ [0] }
    (r.1, e.numPorts :: r.2)

/-- `SimEnv._add_part`, `simenv.py:774-866`. -/
def addPart (e : Env) (p : String × List String) : Except Err Env :=
  if p.1 = "BC" ∨ '/' ∈ p.1.toList then .error (.badPartName p.1) else
  let r := addPartPorts p.1 p.2 e
  let e' : Env := { r.1 with parts := e.parts ++ [⟨p.1, p.2, r.2⟩] }
  .ok (if e'.parts.length = 1 then { e' with plinks := e'.plinks.tail } else e')

/-- `SimEnv._add_open_port`, `simenv.py:1234-1327`. -/
def addOpenPort (e : Env) (name : String) : Except Err Env :=
  if name.toList.take 3 ≠ ['B', 'C', '_'] then .error (.badPortName name) else
  .ok { e with
    keys := keyAdd (bcPart, name) e.keys, numPorts := e.numPorts + 1, numAll := e.numAll + 1,
    plinks := e.plinks ++ [0], bcs := e.bcs ++ [(name, e.numPorts)] }

/-- `port_ids[port_names.index(port)]`, `simenv.py:2018-2023`. -/
def idAt : List String → List ℕ → String → Option ℕ
  | q :: qs, i :: is, p => if q = p then some i else idAt qs is p
  | _, _, _ => none

/-- The part a name refers to. -/
def findPart (n : String) : List PartRec → Option PartRec
  | [] => none
  | r :: rs => if r.name = n then some r else findPart n rs

/-- The port number of one end of a connection, `simenv.py:2016-2057` and `2059-2097`. -/
def portId (e : Env) (k : Key) : Option ℕ :=
  if k.1 = bcPart then dictGet k.2 e.bcs
  else (findPart k.1 e.parts).bind fun r => idAt r.ports r.ids k.2

/-- `SimEnv._connect_ports`, `simenv.py:1944-2143`. -/
def connect (e : Env) (c : Key × Key) : Except Err Env :=
  if c.1.1 ≠ bcPart ∧ findPart c.1.1 e.parts = none then .error (.unknownPart c.1.1)
  else if c.2.1 ≠ bcPart ∧ findPart c.2.1 e.parts = none then .error (.unknownPart c.2.1)
  else if c.1.1 ≠ bcPart ∧ c.1 ∈ e.connected then .error (.alreadyConnected c.1)
  else if c.2.1 ≠ bcPart ∧ c.2 ∈ e.connected then .error (.alreadyConnected c.2)
  else match portId e c.1 with
    | none => .error (.unknownPort c.1)
    | some i => match portId e c.2 with
      | none => .error (.unknownPort c.2)
      | some j => .ok { e with
          plinks := (e.plinks.set i j).set j i
          links := dictSet c.2 c.1 (dictSet c.1 c.2 e.links)
          numConn := e.numConn + 2
          connected := e.connected ++ [c.1, c.2].filter fun k => k.1 ≠ bcPart }

/-- `SimEnv._check_unconnected_ports`, `simenv.py:2145-2165`. -/
def checkUnconnected (e : Env) : Except Err Env :=
  let missing := e.keys.filter fun k => (dictGet k e.links).isNone
  if missing = [] then .ok e else .error (.unconnected missing)

/-- `SimEnv._add_control`, `simenv.py:1645-1665`. -/
def addControl (e : Env) (name : String) : Except Err Env :=
  if e.numPorts ≠ e.numConn then .error .controlBeforeConnect
  else if name ∈ e.ctrls then .error (.alreadyAdded name)
  else .ok { e with ctrls := e.ctrls ++ [name] }

/-- A loop that stops at the first exception. -/
def runAll {α β : Type} (f : β → α → Except Err β) : List α → β → Except Err β
  | [], e => .ok e
  | a :: as, e => match f e a with
    | .ok e' => runAll f as e'
    | .error x => .error x

/-- `SimEnv._call_postponed`, `simenv.py:4374-4430`: parts, open ports, connections, the check, controls.
`junk` is the arbitrary first entry of `plinks_arr`. -/
def build (junk : ℕ) (p : Post) : Except Err Env :=
  if p.parts = [] then .error .noParts else
  match runAll addPart p.parts (Env.empty junk) with
  | .error x => .error x
  | .ok e₁ => match runAll addOpenPort p.opens e₁ with
    | .error x => .error x
    | .ok e₂ => match runAll connect p.conns e₂ with
      | .error x => .error x
      | .ok e₃ => match checkUnconnected e₃ with
        | .error x => .error x
        | .ok e₄ => runAll addControl p.ctrls e₄

end Verif.Registry
