import Mathlib.Algebra.Order.Field.Basic
import Mathlib.Data.Fintype.Basic
import Mathlib.Tactic.NormNum

/-!
# Root finders

Transcription of `root_array_secant` (`/repo/multisim/precomp_funs.py:6104-6156`), of `root_array_newton` with a
derivative (`6160-6206`) and of `root_secant` (`6308-6366`) for arrays with one element.  The functions are part of the
library ("the preferred solver for solving implicit differential equations") and are called by users; no part calls them.

Arrays are functions on a finite index type.  `dx` is the constant `eps ** 0.33`.
-/

namespace Verif.RootFind

variable {K ι : Type*} [Field K] [LinearOrder K] [Fintype ι]

/-- Why a loop was left. -/
inductive Exit
  /-- no derivative to go on with -/
  | flat
  /-- the last step was shorter than the tolerance everywhere -/
  | small
  /-- `maxiter` reached -/
  | exhausted
deriving DecidableEq

/-- Second starting point, line 6133. -/
def second (dx : K) (p : ι → K) : ι → K := fun i => p i * (1 + dx) + if 0 ≤ p i then dx else -dx

/-- Variables of the secant loop.  `active` as in line 6137. -/
structure Sec (K ι : Type*) where
  p : ι → K
  p1 : ι → K
  q0 : ι → K
  q1 : ι → K
  active : ι → Bool

/-- `dp`, line 6145. -/
def Sec.dp (s : Sec K ι) (i : ι) : K := s.q1 i * (s.p1 i - s.p i) / (s.q1 i - s.q0 i)

/-- `p` after lines 6147-6149. -/
def Sec.new (s : Sec K ι) (i : ι) : K :=
  if s.q1 i ≠ s.q0 i then s.p1 i - s.dp i
  else if s.active i then (s.p1 i + s.p i) / 2 else s.p i

/-- Lines 6150, 6155-6157: the loop variables for the next pass. -/
def Sec.next (f : (ι → K) → ι → K) (s : Sec K ι) : Sec K ι :=
  ⟨s.p1, s.new, s.q1, f s.new, fun i => s.active i && decide (s.q1 i ≠ s.q0 i)⟩

/-- The loop, lines 6138-6157, with the returned array and the reason for leaving. -/
def secantLoop (f : (ι → K) → ι → K) (tol : K) : ℕ → Sec K ι → (ι → K) × Exit
  | 0, s => (s.p, .exhausted)
  | n + 1, s =>
    if ∀ i, s.q1 i = s.q0 i then (fun i => (s.p1 i + s.p i) / 2, .flat)
    else if ∀ i, s.q1 i ≠ s.q0 i → |s.dp i| < tol then (s.new, .small)
    else secantLoop f tol n (s.next f)

/-- Loop variables at the start, lines 6124-6137. -/
def secantStart (f : (ι → K) → ι → K) (dx : K) (x0 : ι → K) : Sec K ι :=
  ⟨x0, second dx x0, f x0, f (second dx x0), fun _ => true⟩

/-- `root_array_secant`. -/
def rootArraySecant (f : (ι → K) → ι → K) (dx : K) (x0 : ι → K) (tol : K) (maxiter : ℕ) : (ι → K) × Exit :=
  secantLoop f tol maxiter (secantStart f dx x0)

/-- `p` after a Newton step, lines 6196-6199. -/
def newtonNew (f f' : (ι → K) → ι → K) (p : ι → K) (i : ι) : K := if f' p i ≠ 0 then p i - f p i / f' p i else p i

/-- `root_array_newton` with a derivative, lines 6183-6203. -/
def rootArrayNewton (f f' : (ι → K) → ι → K) (tol : K) : ℕ → (ι → K) → ι → K
  | 0, p => p
  | n + 1, p =>
    if ∀ i, f p i = 0 then p
    else if ∀ i, f' p i = 0 then p
    else if ∀ i, f' p i ≠ 0 → |f p i / f' p i| < tol then newtonNew f f' p
    else rootArrayNewton f f' tol n (newtonNew f f' p)

/-- The loop of `root_secant`, lines 6354-6366, for one element.  `none`: the iterate is infinite or NaN. -/
def rootSecantLoop (f : K → K) (tol eps : K) : ℕ → K → K → K → K → Option K
  | 0, _, p1, _, _ => some p1
  | n + 1, p0, p1, fp0, fp1 =>
    if (fp1 - tol) ^ 2 < tol then some p1
    else if eps < |fp1| ∨ eps < |fp0| ∨ fp0 ≠ fp1 then
      if fp1 = fp0 then none
      else
        let p2 := (p0 * fp1 - p1 * fp0) / (fp1 - fp0)
        rootSecantLoop f tol eps n p1 p2 fp1 (f p2)
    else rootSecantLoop f tol eps n p0 p1 fp1 (f p1)

/-- `root_secant`, lines 6337-6366: the values at the two ends are computed before the ends are exchanged (line 6345)
and are not exchanged. -/
def rootSecant (f : K → K) (tol eps : K) (maxIter : ℕ) (x0 : K) : Option K :=
  let p0 := x0 * (1 + 1 / 10)
  let p1 := x0 * (1 - 1 / 10)
  if 0 ≤ f p0 * f p1 then rootSecantLoop f tol eps maxIter p1 p0 (f p0) (f p1)
  else rootSecantLoop f tol eps maxIter p0 p1 (f p0) (f p1)

end Verif.RootFind
