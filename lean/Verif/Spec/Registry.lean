import Mathlib.Data.List.Nodup

/-!
# What a declared network is, independently of how `SimEnv` stores it
-/

namespace Verif.Registry.Spec

/-- All ports of a network in the order of declaration: the ports of the parts, then the open ports. -/
def declared (parts : List (String × List String)) (opens : List String) : List (String × String) :=
  parts.flatMap (fun p => p.2.map fun q => (p.1, q)) ++ opens.map fun b => ("BoundaryCondition", b)

/-- Every end of every connection. -/
def ends (conns : List ((String × String) × (String × String))) : List (String × String) :=
  conns.flatMap fun c => [c.1, c.2]

/-- Names are chosen sensibly: no part is called `BoundaryCondition` and no part has two ports of the same
name. -/
structure WellNamed (parts : List (String × List String)) : Prop where
  notBC : ∀ p ∈ parts, p.1 ≠ "BoundaryCondition"
  ports : ∀ p ∈ parts, p.2.Nodup

/-- The different entries of a list in the order of their first occurrence. -/
def firsts (l : List String) : List String := l.foldl (fun acc x => if x ∈ acc then acc else acc ++ [x]) []

end Verif.Registry.Spec
