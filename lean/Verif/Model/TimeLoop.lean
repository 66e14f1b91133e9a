import Mathlib.Algebra.Order.Field.Basic

/-!
# Main loop of a simulation and its result buffers

Transcription of `SimEnv.start_sim` (`/repo/multisim/simenv.py:5057-5091`), `_free_memory`
(`5278-5422`), `_finalize_sim` (`4876-4945`), `_crop_results` (`5668-5687`) and the buffer part of
`_initialize_arrays` (`4650-4662`, `4715-4719`).

A row stands for everything stored under one step number: the entry of `time_vec`, the solver
vectors, and the result rows of all parts.  All these arrays have the same length and are flushed
and cropped with the same indices, so one list of rows models them together.
Simplification: contents of the HDF5 store are kept as a list.  The arrays which only some parts have (power of heaters
and CHP plants) are treated at the end.
-/

namespace Verif.TimeLoop

/-! ## Advance of simulated time -/

/-- `Runs tf t hs t'`: the loop `while time_sim < timeframe` (`simenv.py:5063`), entered at time `t`,
executes steps of the lengths `hs` and is left at time `t'`. -/
inductive Runs {K : Type*} [Field K] [LinearOrder K] (tf : K) : K → List K → K → Prop
  | stop {t} : ¬ t < tf → Runs tf t [] t
  | step {t h hs t'} : t < tf → Runs tf (t + h) hs t' → Runs tf t (h :: hs) t'

/-- Entries written to `time_vec` (`simenv.py:5079-5081`) by steps `hs` from time `t`. -/
def times {K : Type*} [Field K] (t : K) : List K → List K
  | [] => []
  | h :: hs => (t + h) :: times (t + h) hs

/-! ## Result buffers -/

/-- Error of an array access beyond the end. -/
inductive Err where
  | indexError
  deriving DecidableEq, Repr

/-- State of the result arrays. -/
structure Buf (R : Type*) where
  /-- the arrays in memory, `num_steps + 1` rows -/
  rows : List R
  /-- `stepnum[0]` -/
  stepnum : ℕ
  /-- `num_steps` -/
  numSteps : ℕ
  /-- rows already stored on disk (`_total_time_vec` and the HDF5 store) -/
  stored : List R
  /-- `_total_stepnum` -/
  totalStep : ℕ

variable {R : Type*}

/-- Fixed parameters: zero row, disk saving, `__base_num_steps`. -/
structure Par (R : Type*) where
  zero : R
  disk : Bool
  base : ℕ

/-- `_initialize_arrays` (`simenv.py:4677-4719`) followed by `stepnum[0] = 1` (`5061`).
`stored` and `totalStep` are empty in a fresh environment (`204`, `222`). -/
def Buf.init (p : Par R) (numSteps : ℕ) (row0 : R) : Buf R :=
  { rows := row0 :: List.replicate numSteps p.zero, stepnum := 1, numSteps := numSteps,
    stored := [], totalStep := 0 }

/-- `_free_memory`, `simenv.py:5278-5422`.  `len = none` is the default `array_length=-1`
(all rows but the last). -/
def freeMemory (p : Par R) (len : Option ℕ) (b : Buf R) : Except Err (Buf R) :=
  if p.disk then
    match b.rows[b.stepnum]? with                             -- 5354, 5392-5399
    | none => .error .indexError
    | some last =>
      .ok { rows := last :: List.replicate (b.rows.length - 1) p.zero,
            stepnum := 0, numSteps := b.numSteps,
            stored := b.stored ++ (match len with
              | none => b.rows.dropLast
              | some n => b.rows.take n),
            totalStep := b.totalStep + b.stepnum }
  else                                                        -- 5287-5322
    let rows := b.rows ++ List.replicate p.base p.zero
    .ok { b with rows := rows, numSteps := rows.length - 1 }

/-- One pass of the main loop storing row `r`; `more` is `time_sim < timeframe` after the step.
`simenv.py:5071-5091`. -/
def writeRow (p : Par R) (more : Bool) (b : Buf R) (r : R) : Except Err (Buf R) := do
  let b ← if b.stepnum < b.rows.length then .ok { b with rows := b.rows.set b.stepnum r }
          else .error .indexError
  let b ← if b.stepnum = b.numSteps ∧ more then freeMemory p none b else .ok b
  .ok { b with stepnum := b.stepnum + 1 }

/-- The main loop over the rows produced; only the last step reaches the time frame. -/
def loop (p : Par R) : Buf R → List R → Except Err (Buf R)
  | b, [] => .ok b
  | b, r :: rs => do
    let b ← writeRow p (!rs.isEmpty) b r
    loop p b rs

/-- `_finalize_sim` and `_crop_results`: the stored result rows. -/
def finalize (p : Par R) (b : Buf R) : Except Err (List R) := do
  let b ← if p.disk then freeMemory p (some b.stepnum) b else .ok b
  let stepnum := b.stepnum + b.totalStep
  let rows := if p.disk then b.stored ++ b.rows else b.rows
  .ok (rows.take stepnum)

/-- A whole run: buffers of `numSteps + 1` rows, initial row `row0`, executed steps `rs`. -/
def run (p : Par R) (numSteps : ℕ) (row0 : R) (rs : List R) : Except Err (List R) := do
  let b ← loop p (Buf.init p numSteps row0) rs
  finalize p b

/-! ## Arrays of single parts

`res_dQ` of heated pipes (`/repo/multisim/parts/heated_pipe.py:194-233`), `res_dQ`, `res_Pel`, `res_Pgas`, `_chp_state` of
CHP plants (`/repo/multisim/parts/chp_plant.py:561-565, 600-663`). -/

section Special

universe u

variable {R S : Type u}

/-- Rows in memory and on disk. -/
structure Special (S : Type*) where
  rows : List S
  stored : List S

/-- `_special_array_init`: zeros, row 0 included. -/
def Special.init (zero : S) (numSteps : ℕ) : Special S := ⟨List.replicate (numSteps + 1) zero, []⟩

/-- `_special_free_memory`, called when saving to disk only (`simenv.py:5411-5418`); the first branch of `_free_memory`
(`5287-5322`) does not touch these arrays. -/
def freeSpecial (disk : Bool) (zero : S) (len : Option ℕ) (stepnum : ℕ) (s : Special S) : Except Err (Special S) :=
  if disk then
    match s.rows[stepnum]? with
    | none => .error .indexError
    | some last =>
      .ok { rows := last :: List.replicate (s.rows.length - 1) zero,
            stored := s.stored ++ (match len with
              | none => s.rows.dropLast
              | some n => s.rows.take n) }
  else .ok s

/-- One pass of the main loop with the row `x` of the array of a part, written while the flows are processed
(`chp_plant.py:883-885`, `/repo/multisim/precomp_funs.py:1946`). -/
def writeBoth (p : Par R) (zero : S) (more : Bool) (b : Buf R) (s : Special S) (r : R) (x : S) :
    Except Err (Buf R × Special S) := do
  let s ← if b.stepnum < s.rows.length then .ok { s with rows := s.rows.set b.stepnum x } else .error .indexError
  let s ← if b.stepnum = b.numSteps ∧ more then freeSpecial p.disk zero none b.stepnum s else .ok s
  let b ← writeRow p more b r
  .ok (b, s)

/-- The main loop. -/
def loopBoth (p : Par R) (zero : S) : Buf R → Special S → List (R × S) → Except Err (Buf R × Special S)
  | b, s, [] => .ok (b, s)
  | b, s, x :: xs => do
    let (b, s) ← writeBoth p zero (!xs.isEmpty) b s x.1 x.2
    loopBoth p zero b s xs

/-- The array of the part after the run (`_final_datastore_backcalc`, `_special_crop_results`). -/
def runSpecial (p : Par R) (zero : S) (numSteps : ℕ) (row0 : R) (xs : List (R × S)) : Except Err (List S) := do
  let (b, s) ← loopBoth p zero (Buf.init p numSteps row0) (Special.init zero numSteps) xs
  let s ← if p.disk then freeSpecial p.disk zero (some b.stepnum) b.stepnum s else .ok s
  let b ← if p.disk then freeMemory p (some b.stepnum) b else .ok b
  let stepnum := b.stepnum + b.totalStep
  .ok ((if p.disk then s.stored ++ s.rows else s.rows).take stepnum)

end Special

end Verif.TimeLoop
