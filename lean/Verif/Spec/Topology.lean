import Verif.Model.Topology
import Verif.Spec.FlowNet
import Mathlib.Algebra.BigOperators.Group.Finset.Basic

/-!
# What the topology analysis is for
-/

namespace Verif.Topology.Spec

open Verif.Topology Verif.FlowNet

/-- A port of the net. -/
def Valid (G : Net) (p : Port) : Prop := p.1 < G.n ∧ p.2 < G.nports p.1

/-- What the set-up of parts and connections guarantees. -/
structure WellFormed (G : Net) : Prop where
  /-- connections go both ways -/
  symm : ∀ p q, G.link p = some q → G.link q = some p
  /-- and lead to existing ports -/
  valid : ∀ p q, G.link p = some q → Valid G q
  two : ∀ i < G.n, G.kind i = .pump ∨ G.kind i = .pipe → G.nports i = 2
  three : ∀ i < G.n, G.kind i = .connector ∨ G.kind i = .mixing ∨ G.kind i = .splitting ∨ G.kind i = .pipeValve →
    G.nports i = 3
  many : ∀ i < G.n, G.kind i = .storage ∨ G.kind i = .branched → 2 ≤ G.nports i
  /-- exactly the heat exchangers have several flow channels, -/
  channels : ∀ i < G.n, (G.part i).channels ≠ [] ↔ G.kind i = .hex ∨ G.kind i = .hexNum
  /-- and each of their ports has the name of one channel in its name. -/
  channel : ∀ p, Valid G p → (G.part p.1).channels ≠ [] →
    ∃ c ∈ (G.part p.1).channels, ∀ d ∈ (G.part p.1).channels, d <:+: G.portName p ↔ d = c

/-- No name of a part contains the name of one of its flow channels. -/
def PlainNames (G : Net) : Prop := ∀ i < G.n, ∀ c ∈ (G.part i).channels, ';' ∉ c ∧ ¬ c <:+: (G.part i).name

/-- Where the two ends of a part with a single flow are, flow is counted in at one end and out at the other; valves
count as their names say, all other parts inwards, `dm_char` of the parts. -/
structure Directed (G : Net) : Prop where
  two : ∀ i < G.n, G.kind i = .pump ∨ G.kind i = .pipe → G.inward (i, 0) ≠ G.inward (i, 1)
  mixing : ∀ i < G.n, G.kind i = .mixing →
    G.inward (i, 0) = true ∧ G.inward (i, 1) = true ∧ G.inward (i, 2) = false
  splitting : ∀ i < G.n, G.kind i = .splitting →
    G.inward (i, 0) = false ∧ G.inward (i, 1) = false ∧ G.inward (i, 2) = true
  others : ∀ i < G.n, G.kind i = .connector ∨ G.kind i = .pipeValve → ∀ k < 3, G.inward (i, k) = true
  /-- heat exchangers have two flow channels with the ports in, out each -/
  hex : ∀ i < G.n, (G.kind i = .hex ∨ G.kind i = .hexNum) → G.nports i = 4 ∧
    G.inward (i, 0) = true ∧ G.inward (i, 1) = false ∧ G.inward (i, 2) = true ∧ G.inward (i, 3) = false ∧
    ∀ c ∈ (G.part i).channels, (c <:+: G.portName (i, 0) ↔ c <:+: G.portName (i, 1)) ∧
      (c <:+: G.portName (i, 2) ↔ c <:+: G.portName (i, 3))

/-- A closed circuit: a set of ports that is left neither over connections nor inside of parts, except that the two
flow channels of a heat exchanger may belong to different circuits. -/
structure Circuit (G : Net) (S : Finset Port) : Prop where
  valid : ∀ p ∈ S, Valid G p
  closed : ∀ p ∈ S, ∃ q ∈ S, G.link p = some q ∧ q ≠ p
  whole : ∀ p ∈ S, G.kind p.1 ≠ .hex → G.kind p.1 ≠ .hexNum → ∀ k < G.nports p.1, (p.1, k) ∈ S
  channel : ∀ p ∈ S, G.kind p.1 = .hex ∨ G.kind p.1 = .hexNum →
    ((p.1, 0) ∈ S ↔ (p.1, 1) ∈ S) ∧ ((p.1, 2) ∈ S ↔ (p.1, 3) ∈ S)

/-- A routine that copies a cell to itself. -/
def SelfCopy (r : Routine) : Prop := r.op = .pass r.tgt

instance (r : Routine) : Decidable (SelfCopy r) := by unfold SelfCopy; infer_instance

/-- The same plant with other names of the parts. -/
def rename (G : Net) (ν : ℕ → List Char) : Net := { G with part := fun i => { G.part i with name := ν i } }

/-- There is at most one part at which an analysis can be resumed: a storage or a branched pipe. -/
def OneJunction (G : Net) : Prop :=
  ∀ i j, i < G.n → j < G.n → (G.kind i = .storage ∨ G.kind i = .branched) →
    (G.kind j = .storage ∨ G.kind j = .branched) → i = j

end Verif.Topology.Spec
