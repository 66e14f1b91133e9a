import Mathlib.Algebra.Order.Field.Basic

/-!
# Mixing of two streams

What the properties of connectors and valves are about, without reference to ports and arrays.
-/

namespace Verif.Mixing

variable {K : Type*} [Field K] [LinearOrder K]

/-- A stream of water: mass flow and temperature. -/
structure Stream (K : Type*) where
  dm : K
  T : K

/-- The enthalpy flow of a stream, as pipes and storages account for it. -/
def Stream.enthalpy (cp : K → K) (s : Stream K) : K := s.dm * (cp s.T * s.T)

/-- `x` lies between `a` and `b`. -/
def Between (x a b : K) : Prop := min a b ≤ x ∧ x ≤ max a b

end Verif.Mixing
