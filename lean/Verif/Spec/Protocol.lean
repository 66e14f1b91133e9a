import Verif.Model.Protocol

/-!
# Scripts: sequences of calls to one simulation environment

A user calls the public methods in any order and any number of times, and may go on after an
exception.
-/

namespace Verif.Protocol

/-- `Script h e`: the calls and results `h`, made one after the other on a new environment, leave
the environment `e`. -/
inductive Script : List (Call × Result) → Env → Prop
  | nil : Script [] {}
  | snoc {h : List (Call × Result)} {e : Env} (c : Call) (hs : Script h e) :
      Script (h ++ [(c, (call e c).2)]) (call e c).1

/-- Some call of the kind `P` in `h` returned without an exception. -/
def Accepted (h : List (Call × Result)) (P : Call → Prop) : Prop :=
  ∃ x ∈ h, P x.1 ∧ x.2 = .returned

/-- Kinds of calls. -/
def IsTimeframe (c : Call) : Prop := ∃ a, c = .setTimeframe a

/-- A call of `set_solver`. -/
def IsSolver (c : Call) : Prop := ∃ n i, c = .setSolver n i

/-- A call of `set_disksaving`. -/
def IsDisk (c : Call) : Prop := ∃ s d f, c = .setDisk s d f

/-- A call of `add_part` for a part that is solved numerically. -/
def IsNumericPart (c : Call) : Prop := ∃ n, 0 < n ∧ c = .addPart n

end Verif.Protocol
