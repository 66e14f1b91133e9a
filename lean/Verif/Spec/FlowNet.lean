import Verif.Model.FlowNet

/-!
# What a flow routine means
-/

namespace Verif.FlowNet.Spec

open Verif.FlowNet

variable {K : Type*} [Field K]

/-- The cells an operation reads. -/
def sources : Op → List ℕ
  | .pass a => [a]
  | .negSum a rest => a :: rest
  | .sum l => l
  | .negMul a b => [a, b]
  | .negDiv a b => [a, b]
  | .mul a b => [a, b]
  | .div a b => [a, b]
  | .sub a b => [a, b]
  | .mulDiv a b c => [a, b, c]
  | .idle => []

/-- The equation a routine states about the flows. -/
def Holds (s : ℕ → K) (r : Routine) : Prop :=
  match r.op with
  | .pass a => s r.tgt = s a
  | .negSum a rest => s r.tgt + s a + (rest.map s).sum = 0
  | .sum l => s r.tgt = (l.map s).sum
  | .negMul a b => s r.tgt = -(s a * s b)
  | .negDiv a b => s r.tgt = -(s a / s b)
  | .mul a b => s r.tgt = s a * s b
  | .div a b => s r.tgt = s a / s b
  | .sub a b => s r.tgt = s a - s b
  | .mulDiv a b c => s r.tgt = s a * s b / s c
  | .idle => True

/-- A net is causal: no routine reads its own target, and what a routine writes is neither written nor was
read before.  In other words, every cell is written at most once, and every source is either never written
or written earlier. -/
def Causal : List Routine → Prop
  | [] => True
  | r :: rs => r.tgt ∉ sources r.op ∧ (∀ r' ∈ rs, r'.tgt ≠ r.tgt ∧ r'.tgt ∉ sources r.op) ∧ Causal rs

end Verif.FlowNet.Spec
