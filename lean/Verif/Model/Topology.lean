import Verif.Model.FlowNet
import Mathlib.Data.Nat.Pairing
import Mathlib.Data.List.Infix

/-!
# Topology analysis: how the flow net is found

Model of `SimEnv._get_topology` and `_recursive_topology` (`multisim/simenv.py:2186-2563`) and of the
`_get_flow_routine` methods of all parts.  The recursion of the code is a machine with an explicit stack: a frame
is one running call of `_recursive_topology` with the ports its loop has not visited yet.

Simplified:
* parts and ports are numbered; a port is the pair of the number of its part and its position in `port_names`;
* the flue gas side of a condensing heat exchanger fed by a CHP plant (`chp_plant.py:529-532`) has no ports;
* `_hydr_comps` is a set of strings, whose order changes from one Python process to the next; the loops over it
  (`simenv.py:2218-2282`) may take the parts in any order;
* routines with operation -99 and empty tuples, which are removed later (`simenv.py:2289-2301`), are not collected.
-/

namespace Verif.Topology

open Verif.FlowNet

/-- Part and position in `port_names`. -/
abbrev Port := ℕ × ℕ

inductive Kind where
  /-- `Pump`, `PipeWithPump`; ports in, out -/
  | pump
  /-- `Pipe`, `HeatedPipe`, `CHPPlant`; ports in, out -/
  | pipe
  /-- `Tes` -/
  | storage
  /-- `PipeBranched` -/
  | branched
  /-- `Connector3w` -/
  | connector
  /-- `MixingValve` with `kind == 'mix'`; ports A, B, AB -/
  | mixing
  /-- `MixingValve` with `kind == 'split'`; ports A, B, AB -/
  | splitting
  /-- `PipeWith3wValve`; ports A, B, AB -/
  | pipeValve
  /-- `HeatExchanger`, `HEXCondPoly` -/
  | hex
  /-- `HexNum` -/
  | hexNum
  deriving DecidableEq

structure Part where
  kind : Kind
  /-- `name` -/
  name : List Char
  /-- `port_names` -/
  ports : List (List Char)
  /-- `dm_char`: `true` stands for `'in'` -/
  inward : List Bool
  /-- `_flow_channels`; empty stands for `multiple_flows == False` -/
  channels : List (List Char) := []
  /-- `solve_numeric` -/
  numeric : Bool := true
  /-- one of the limits `_llim`, `_ulim` exists and is zero -/
  limitZero : Bool := false
  deriving DecidableEq

structure Net where
  /-- number of parts, in the order in which they were added -/
  n : ℕ
  part : ℕ → Part
  /-- `port_links`; `none` stands for a boundary condition -/
  link : Port → Option Port

namespace Net

variable (G : Net)

def kind (i : ℕ) : Kind := (G.part i).kind
def nports (i : ℕ) : ℕ := (G.part i).ports.length
def portName (p : Port) : List Char := (G.part p.1).ports.getD p.2 []
def inward (p : Port) : Bool := (G.part p.1).inward.getD p.2 true

end Net

/-- `for fc in _flow_channels: if fc in s: channel = fc`: the last one found, `simenv.py:2548-2554`. -/
def lastChannel (channels : List (List Char)) (s : List Char) : Option (List Char) :=
  (channels.filter fun c => decide (c <:+: s)).getLast?

/-! ## Memory

The cells of all `_dm_io` and `pf_arr` are numbered as in `Model/FlowNet.lean`. -/

/-- Cell of `_dm_io` of a part. -/
def dmCell (i slot : ℕ) : ℕ := 2 * Nat.pair i slot

/-- Cell of `pf_arr` of a part. -/
def pfCell (i slot : ℕ) : ℕ := 2 * Nat.pair i slot + 1

/-- Position of the cell of a port in `_dm_io` of its part, `simenv.py:3003-3057`: 0 if the flow is the same in the
whole part, the number of the flow channel for heat exchangers, the number of the port otherwise. -/
def slot (G : Net) (p : Port) : ℕ :=
  match G.kind p.1 with
  | .pump => 0
  | .pipe => 0
  | .hex => ((G.part p.1).channels.idxOf? ((lastChannel (G.part p.1).channels (G.portName p)).getD [])).getD 0
  | .hexNum => ((G.part p.1).channels.idxOf? ((lastChannel (G.part p.1).channels (G.portName p)).getD [])).getD 0
  | _ => p.2

/-- The cell which belongs to a port before the analysis. -/
def own (G : Net) (p : Port) : ℕ := dmCell p.1 (slot G p)

/-! ## State -/

inductive Err where
  /-- two pumps in the same net, `simenv.py:2519-2526` -/
  | twoPumps
  /-- an assertion of a valve, `mixingvalve.py:487-506` -/
  | valve
  /-- a limit of zero with a division, `simenv.py:2466-2497` -/
  | limit
  /-- other exceptions, e.g. a missing parent port -/
  | other
  deriving DecidableEq

inductive Side where
  | pressure
  | suction
  | undefined
  deriving DecidableEq

structure State where
  /-- `_solved_ports` of every part -/
  solved : ℕ → List ℕ
  /-- the memory cell to which a port refers -/
  addr : Port → ℕ
  /-- the routines of all nets in the order in which they were added -/
  net : List Routine
  /-- Not in the code, for the specification: connections over which a flow was handed from the first to the
  second port. -/
  via : List (Port × Port)

/-- Before the analysis. -/
def init (G : Net) : State := ⟨fun _ => [], own G, [], []⟩

/-- `_cnt_open_prts` -/
def cnt (G : Net) (s : State) (i : ℕ) : ℕ := G.nports i - (s.solved i).length

def isSolved (s : State) (p : Port) : Prop := p.2 ∈ s.solved p.1

instance (s : State) (p : Port) : Decidable (isSolved s p) := by unfold isSolved; infer_instance

/-- `break_topology` after at least one port of the part was solved: `connector_3w.py:356`, `tes.py:943`,
`pipe_branched.py:237`, always `False` for the other parts. -/
def breaks (G : Net) (s : State) (i : ℕ) : Prop :=
  match G.kind i with
  | .connector => 1 < cnt G s i
  | .storage => 0 < cnt G s i
  | .branched => 0 < cnt G s i
  | _ => False

instance (G : Net) (s : State) (i : ℕ) : Decidable (breaks G s i) := by
  unfold breaks; split <;> infer_instance

/-- `name in _hydr_comps`: parts are taken out when completely solved, storages never, `tes.py:945-946`. -/
def inHydr (G : Net) (s : State) (i : ℕ) : Prop := G.kind i = .storage ∨ 0 < cnt G s i

instance (G : Net) (s : State) (i : ℕ) : Decidable (inHydr G s i) := by unfold inHydr; infer_instance

/-- A running call of `_recursive_topology`. -/
structure Frame where
  part : ℕ
  /-- ports not yet visited by the loop -/
  todo : List ℕ
  /-- `parent_port` -/
  parent : Option Port
  /-- `pump_side` -/
  side : Side
  /-- `flow_channel` -/
  channel : List Char

/-! ## Flow routines of the parts -/

/-- What `_get_flow_routine` does. -/
structure Answer where
  /-- the routine, unless it is empty or removed later -/
  routine : Option Routine
  /-- the ports of the part become views of this cell -/
  view : Option ℕ
  /-- the port is appended to `_solved_ports` -/
  solves : Bool
  /-- the flow was handed over from the parent port -/
  handed : Bool

/-- Passing on the flow of the parent port; `_get_topo_cond` without parent port returns one value in place of
five, `simenv.py:3821-3824`, so unpacking fails. -/
def pass (G : Net) (s : State) (p : Port) : Option Port → Except Err Answer
  | none => .error .other
  | some q => .ok ⟨some (passOn (s.addr p) (s.addr q) (G.inward p == G.inward q)), none, true, true⟩

/-- `pump.py:347-411`, `pipe_with_pump.py:127-185`. -/
def pumpRoutine (root : ℕ) (p : Port) : Option Port → Except Err Answer
  | none => .ok ⟨none, none, true, false⟩
  | some _ => if p.1 = root then .ok ⟨none, none, false, false⟩ else .error .twoPumps

/-- `pipe.py:503-597`. -/
def pipeRoutine (G : Net) (s : State) (p : Port) : Option Port → Except Err Answer
  | none => .error .other
  | some q =>
    if cnt G s p.1 = 2 then
      if G.inward p ≠ G.inward q then .ok ⟨none, some (s.addr q), true, true⟩
      else .ok ⟨some ⟨s.addr p, .negSum (s.addr q) []⟩, none, true, true⟩
    else .ok ⟨none, none, true, false⟩

/-- Negative sum of the given ports of a part. -/
def balance (s : State) (p : Port) (ports : List ℕ) : Except Err Answer :=
  match ports.map fun k => s.addr (p.1, k) with
  | a :: rest => .ok ⟨some ⟨s.addr p, .negSum a rest⟩, none, true, false⟩
  | [] => .error .other

/-- `connector_3w.py:262-359`. -/
def connectorAnswer (G : Net) (s : State) (p : Port) (parent : Option Port) : Except Err Answer :=
  if cnt G s p.1 = 1 then balance s p ((List.range (G.nports p.1)).filter fun k => k ≠ p.2)
  else pass G s p parent

/-- `tes.py:814-943`, `pipe_branched.py:120-240`. -/
def storageAnswer (G : Net) (s : State) (p : Port) (parent : Option Port) : Except Err Answer :=
  if cnt G s p.1 = 1 ∧ parent = none then balance s p (s.solved p.1) else pass G s p parent

/-- `mixingvalve.py:416-565`; `bad` is the side of the pump on which the valve must not be. -/
def valveAnswer (G : Net) (s : State) (p : Port) (side bad : Side) : Option Port → Except Err Answer
  | none => .error .other
  | some q =>
    if cnt G s p.1 = 3 then
      if side ≠ bad ∧ p.2 = 2 ∧ (G.part q.1).numeric = true then pass G s p (some q) else .error .valve
    else .ok ⟨some ⟨s.addr p, .mul (s.addr (p.1, 2)) (pfCell p.1 p.2)⟩, none, true, false⟩

/-- `pipe_with_valve.py:194-326`. -/
def pipeValveAnswer (G : Net) (s : State) (p : Port) : Option Port → Except Err Answer
  | none => .error .other
  | some q =>
    if cnt G s p.1 = 3 then pass G s p (some q)
    else if p.2 ≠ 2 ∧ 2 ∈ s.solved p.1 then
      .ok ⟨some ⟨s.addr p, .negMul (s.addr (p.1, 2)) (pfCell p.1 p.2)⟩, none, true, false⟩
    else
      let k := if 0 ∈ s.solved p.1 then 0 else 1
      if p.2 = 2 then .ok ⟨some ⟨s.addr p, .negDiv (s.addr (p.1, k)) (pfCell p.1 k)⟩, none, true, false⟩
      else .ok ⟨some ⟨s.addr p, .mulDiv (s.addr (p.1, k)) (pfCell p.1 p.2) (pfCell p.1 k)⟩, none, true, false⟩

/-- The last solved port of the same flow channel. -/
def sameChannel (G : Net) (s : State) (i : ℕ) (channel : List Char) : Option ℕ :=
  ((s.solved i).filter fun k => decide (channel <:+: G.portName (i, k))).getLast?

/-- `heatexchanger.py:1023-1097`, `hex_condensing_polynome.py:444-520`: the second port of a channel copies the
first, that is, the cell to itself. -/
def hexAnswer (G : Net) (s : State) (p : Port) (channel : List Char) : Option Port → Except Err Answer
  | none => .error .other
  | some q =>
    match sameChannel G s p.1 channel with
    | some k => .ok ⟨some ⟨s.addr p, .pass (s.addr (p.1, k))⟩, none, true, false⟩
    | none => pass G s p (some q)

/-- `hex_num.py:1191-1267`. -/
def hexNumAnswer (G : Net) (s : State) (p : Port) (channel : List Char) : Option Port → Except Err Answer
  | none => .error .other
  | some q =>
    match sameChannel G s p.1 channel with
    | some _ => .ok ⟨none, none, true, false⟩
    | none => pass G s p (some q)

def flowRoutine (G : Net) (root : ℕ) (s : State) (f : Frame) (side : Side) (k : ℕ) : Except Err Answer :=
  match G.kind f.part with
  | .pump => pumpRoutine root (f.part, k) f.parent
  | .pipe => pipeRoutine G s (f.part, k) f.parent
  | .storage => storageAnswer G s (f.part, k) f.parent
  | .branched => storageAnswer G s (f.part, k) f.parent
  | .connector => connectorAnswer G s (f.part, k) f.parent
  | .mixing => valveAnswer G s (f.part, k) side .pressure f.parent
  | .splitting => valveAnswer G s (f.part, k) side .suction f.parent
  | .pipeValve => pipeValveAnswer G s (f.part, k) f.parent
  | .hex => hexAnswer G s (f.part, k) f.channel f.parent
  | .hexNum => hexNumAnswer G s (f.part, k) f.channel f.parent

/-- The state after the call of `_get_flow_routine`. -/
def apply (s : State) (p : Port) (parent : Option Port) (a : Answer) : State where
  solved := if a.solves then fun i => if i = p.1 then s.solved i ++ [p.2] else s.solved i else s.solved
  addr := match a.view with
    | some c => fun q => if q.1 = p.1 then c else s.addr q
    | none => s.addr
  net := s.net ++ a.routine.toList
  via := match parent with
    | some q => if a.handed then s.via ++ [(q, p)] else s.via
    | none => s.via

/-- `topo_routine[1] in (-4, 4, 5)` -/
def divides : Option Routine → Bool
  | some ⟨_, .negDiv _ _⟩ => true
  | some ⟨_, .div _ _⟩ => true
  | some ⟨_, .mulDiv _ _ _⟩ => true
  | _ => false

/-! ## The recursion -/

structure Config where
  stack : List Frame
  state : State

/-- The ports of a part in the order in which a call visits them, `simenv.py:2354-2367`. -/
def order (G : Net) (i next : ℕ) : List ℕ := next :: (List.range (G.nports i)).filter fun k => k ≠ next

/-- The second half of the loop body, `simenv.py:2499-2563`: going on to the connected part.  `f` is the running
call with the remaining ports. -/
def descend (G : Net) (root : ℕ) (s : State) (f : Frame) (fs : List Frame) (side : Side) (k : ℕ) :
    Except Err Config :=
  match G.link (f.part, k) with
  | none => .ok ⟨f :: fs, s⟩
  | some q =>
    if isSolved s q then .ok ⟨f :: fs, s⟩
    else if G.kind q.1 = .pump ∧ q.1 ≠ root then .error .twoPumps
    else if inHydr G s q.1 then
      if (G.part q.1).channels = [] then
        .ok ⟨⟨q.1, order G q.1 q.2, some (f.part, k), side, []⟩ :: f :: fs, s⟩
      else match lastChannel (G.part q.1).channels ((G.part q.1).name ++ ';' :: G.portName q) with
        | some c => .ok ⟨⟨q.1, order G q.1 q.2, some (f.part, k), side, c⟩ :: f :: fs, s⟩
        | none => .error .other
    else .ok ⟨f :: fs, s⟩

/-- `pump_side` for the visited port, `simenv.py:2402-2404, 2424`. -/
def sideOf (sub : Bool) (f : Frame) (k : ℕ) : Side :=
  if f.parent = none then (if sub then .undefined else if k = 1 then .pressure else .suction) else f.side

/-- One pass of the loop in the innermost call, `simenv.py:2370-2563`.  `root` is `parent_pump`. -/
def step (G : Net) (root : ℕ) (sub : Bool) (c : Config) : Except Err Config :=
  match c.stack with
  | [] => .ok c
  | f :: fs =>
    match f.todo with
    | [] => .ok ⟨fs, c.state⟩
    | k :: ks =>
      let f' := { f with todo := ks }
      if isSolved c.state (f.part, k) then .ok ⟨f' :: fs, c.state⟩
      else if (G.part f.part).channels ≠ [] ∧ ¬ f.channel <:+: G.portName (f.part, k) then .ok ⟨f' :: fs, c.state⟩
      else match flowRoutine G root c.state f (sideOf sub f k) k with
        | .error e => .error e
        | .ok a =>
          let s := apply c.state (f.part, k) f.parent a
          if f.parent ≠ none ∧ breaks G s f.part then .ok ⟨fs, s⟩
          else if divides a.routine = true ∧ (G.part f.part).limitZero = true then .error .limit
          else descend G root s f' fs (sideOf sub f k) k

/-- `m` passes; nothing happens any more after the end of the outermost call. -/
def steps (G : Net) (root : ℕ) (sub : Bool) : ℕ → Config → Except Err Config
  | 0, c => .ok c
  | m + 1, c => match step G root sub c with
    | .error e => .error e
    | .ok c => steps G root sub m c

/-- The outermost call, `simenv.py:2199-2203, 2231-2236`. -/
def start (G : Net) (root : ℕ) (s : State) : Config :=
  ⟨[⟨root, List.range (G.nports root), none, .undefined, []⟩], s⟩

/-- The outermost call for `root` turns `s` into `s'`. -/
def Run (G : Net) (root : ℕ) (sub : Bool) (s s' : State) : Prop :=
  ∃ m, steps G root sub m (start G root s) = .ok ⟨[], s'⟩

/-- The outermost call for `root` raises. -/
def Raises (G : Net) (root : ℕ) (sub : Bool) (s : State) (e : Err) : Prop :=
  ∃ m, steps G root sub m (start G root s) = .error e

/-! ## The whole analysis, `simenv.py:2186-2323` -/

/-- The loop over the pumps, `simenv.py:2198-2203`. -/
inductive Pumps (G : Net) : List ℕ → State → Except Err State → Prop
  | done (s) : Pumps G [] s (.ok s)
  | more {i is s s' r} : Run G i false s s' → Pumps G is s' r → Pumps G (i :: is) s r
  | fail {i is s e} : Raises G i false s e → Pumps G (i :: is) s (.error e)

/-- A loop over `_hydr_comps`, `simenv.py:2218-2282`, with the parts that may be solved in any order; it ends when
there is none left. -/
inductive Subs (G : Net) (eligible : State → ℕ → Prop) : State → Except Err State → Prop
  | done {s} : (∀ i < G.n, ¬ eligible s i) → Subs G eligible s (.ok s)
  | more {i s s' r} : i < G.n → eligible s i → Run G i true s s' → Subs G eligible s' r → Subs G eligible s r
  | fail {i s e} : i < G.n → eligible s i → Raises G i true s e → Subs G eligible s (.error e)

/-- `simenv.py:2226-2230` -/
def eligible1 (G : Net) (s : State) (i : ℕ) : Prop := breaks G s i ∧ G.kind i ≠ .storage ∧ cnt G s i = 1

/-- `simenv.py:2262-2265` -/
def eligible2 (G : Net) (s : State) (i : ℕ) : Prop := breaks G s i ∧ cnt G s i = 1

def pumps (G : Net) : List ℕ := (List.range G.n).filter fun i => G.kind i = .pump

/-- Result of `_get_topology` before the final check. -/
inductive Analysed (G : Net) : Except Err State → Prop
  | pumps {e} : Pumps G (pumps G) (init G) (.error e) → Analysed G (.error e)
  | first {s e} : Pumps G (pumps G) (init G) (.ok s) → Subs G (eligible1 G) s (.error e) → Analysed G (.error e)
  | second {s s' r} : Pumps G (pumps G) (init G) (.ok s) → Subs G (eligible1 G) s (.ok s') →
      Subs G (eligible2 G) s' r → Analysed G r

/-- The analysis ends without exception: the final check, `simenv.py:2303-2323`, finds no part with open ports other
than storages. -/
def Accepted (G : Net) (s : State) : Prop :=
  Analysed G (.ok s) ∧ ∀ i < G.n, inHydr G s i → G.kind i = .storage

end Verif.Topology
