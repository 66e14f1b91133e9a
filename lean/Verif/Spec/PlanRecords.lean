import Verif.Model.PlanRecords

/-!
# What should be found in the tables of the predictive controller

A planning step is a pair of a call (its time and what happened) and the number of the planning interval, if it is the
first call in its interval.
-/

namespace Verif.Plan

variable {K : Type*} [Field K]

/-- Time stamp, number, status and cost of a planning step in which the optimiser was called; 99 is the documented status
of plans that were not accepted. -/
def statsRow (start : K) : (K × Event K) × Option ℕ → Option (K × ℕ × ℤ × K)
  | ((t, .optimise o), some k) =>
    some (if o.status ∈ [0, 3, 4, 8, 9] then (start + t, k, o.status, o.cost) else (start + t, k, 99, o.costNow))
  | _ => none

/-- A row for a list of values: they are followed by NaN up to the length `m`. -/
def padded (m : ℕ) (xs : List K) : List (Option K) := xs.map some ++ List.replicate (m - xs.length) none

/-- Time stamp and plan of a planning step with an accepted plan of at least two steps. -/
def planRow (start : K) (m : ℕ) : (K × Event K) × Option ℕ → Option (Option K × List (Option K))
  | ((t, .optimise o), some _) =>
    if o.status ∈ [0, 3, 4, 8, 9] ∧ 2 ≤ o.plan.length then some (some (start + t), padded m o.plan) else none
  | _ => none

/-- Time stamp and adjusted plan of a planning step with a plan of at least two steps.  The first value of a plan that was
not accepted is the one used instead. -/
def postRow (start : K) (m : ℕ) : (K × Event K) × Option ℕ → Option (Option K × List (Option K))
  | ((t, .optimise o), some _) =>
    if 2 ≤ o.post.length then
      some (some (start + t), padded m (if o.status ∈ [0, 3, 4, 8, 9] then o.post else o.now :: o.post.tail))
    else none
  | _ => none

/-- Time stamp and state of charge of a planning step in which the optimiser was called. -/
def socRow (start : K) : (K × Event K) × Option ℕ → Option (K × K × K × K)
  | ((t, .optimise o), some _) => some (start + t, o.soc)
  | _ => none

/-- The plans fit into the arrays. -/
def Fits (m : ℕ) : Event K → Prop
  | .emergency _ => True
  | .optimise o => o.plan.length ≤ m ∧ o.post.length ≤ m

end Verif.Plan
