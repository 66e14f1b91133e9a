import Verif.Model.Controls
import Mathlib.Algebra.Order.Floor.Semiring

/-!
# Dead time of controllers

Transcription of `ctrl_deadtime` (`/repo/multisim/precomp_funs.py:3654-3729`) and of its arrays
(`/repo/multisim/controls.py:705-712, 771-774`).

The arrays of length `len` are functions; values from `len` on are never used.  `dt_idx = -1` is `none`.
Reading beyond the end of an array, which the compiled code does without noticing, is `none`.
-/

namespace Verif.Deadtime

variable {K : Type*} [Field K] [LinearOrder K]

/-- Attributes `dt_arr`, `pv_arr`, `len_dt_arr`, `dt_idx`, `last_dt_idx`, `delayed_pv`. -/
structure St (K : Type*) where
  dt : ℕ → K
  pv : ℕ → K
  len : ℕ
  idx : Option ℕ
  last : ℕ
  delayed : K

/-- Length of the arrays: `np.ceil(deadtime * 100)`, `controls.py:707`. -/
def arrLen [FloorSemiring K] (τ : K) : ℕ := ⌈τ * 100⌉₊

/-- State after construction with arrays of length `len`, `controls.py:707-712, 771-774`. -/
def init (len : ℕ) : St K := ⟨fun _ => 0, fun _ => 25, len, some 0, 0, 25⟩

/-- Index of the first entry that has reached the dead time, `precomp_funs.py:3678-3685`. -/
def first (τ : K) (dt : ℕ → K) (len : ℕ) : Option ℕ := (List.range len).find? fun i => decide (τ ≤ dt i)

/-- New delayed process value, `precomp_funs.py:3689-3716`. -/
def delayedPv (τ h : K) (dt pv : ℕ → K) (len : ℕ) (idx : Option ℕ) (last : ℕ) (delayed : K) : Option K :=
  match idx with
  | some 0 => some (delayed + (pv 0 - delayed) / τ * dt 0)
  | some (i + 1) => some (if dt (i + 1) = τ then pv (i + 1)
      else pv i + (pv (i + 1) - pv i) / (dt (i + 1) - dt i) * (τ - dt i))
  | none => if last < len then some (delayed + (pv last - delayed) / (τ - (dt last - h)) * h) else none

/-- Index of the next value to arrive, `precomp_funs.py:3669-3672`. -/
def nextLast (s : St K) : ℕ := match s.idx with | some j => j | none => s.last + 1

/-- `ctrl_deadtime`, `precomp_funs.py:3654-3729`, without the error, which is `sp - delayed`: dead time `τ`, step
length `h`, current process value `x`. -/
def call (τ : K) (s : St K) (hx : K × K) : Option (St K) :=
  let dt := fun i => s.dt i + hx.1
  let last := nextLast s
  let idx := first τ dt s.len
  match delayedPv τ hx.1 dt s.pv s.len idx last s.delayed with
  | none => none
  | some d =>
    -- `dt_arr[dt_idx:] = 0`, for -1 this is the last entry
    let z := idx.getD (s.len - 1)
    let dt0 := fun i => if z ≤ i then 0 else dt i
    some { s with
      dt := fun i => if i = 0 then 0 else dt0 (i - 1)
      pv := fun i => if i = 0 then hx.2 else s.pv (i - 1)
      idx := idx
      last := last
      delayed := d }

/-- A sequence of calls with step lengths and process values. -/
def calls (τ : K) (s : St K) (l : List (K × K)) : Option (St K) := l.foldlM (call τ) s

/-- A controller with dead time: its own attributes and the arrays. -/
structure Ctl (K : Type*) where
  st : Controls.St K
  dead : St K

/-- `Controls.ctrl` with dead time (`controls.py:866-886`): the error is formed with the delayed value. -/
def Ctl.ctrl (τ : K) (c : Controls.Cfg K) (l : Controls.Law K) (i : Controls.Inp K) (s : Ctl K) : Option (Ctl K) :=
  (call τ s.dead (i.dt, i.pv)).map fun d =>
    ⟨Controls.ctrl c (l.run c) { i with error := i.sp - d.delayed } s.st, d⟩

/-- The reset methods do not touch the arrays (`controllers.py:366-373, 527-534, 629-636`). -/
def Ctl.reset (s : Ctl K) : Ctl K := ⟨Controls.reset s.st, s.dead⟩

end Verif.Deadtime
