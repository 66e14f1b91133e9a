import Verif.Model.Meters

/-!
# Moving averages

Transcription of `moving_avg`, `fill_edges`, `moving_avg_fill_edges` and `weighted_moving_avg`
(`/repo/multisim/precomp_funs.py:5379-5434`).  Arrays are lists; raised errors and accesses outside of an array
are `none`.
-/

namespace Verif.MovingAvg

variable {K : Type*} [Field K]

open Meters (cumsum)

/-- `moving_avg` (`precomp_funs.py:5379-5383`).  With `N = 0` the slices `cumsum[N:]` and `cumsum[:-N]` have
different lengths and the subtraction raises. -/
def movingAvg (x : List K) (N : ℕ) : Option (List K) :=
  if N = 0 then none
  else some (List.zipWith (fun b a => (b - a) / (N : K)) ((cumsum (0 :: x)).drop N)
    ((cumsum (0 :: x)).take ((cumsum (0 :: x)).length - N)))

/-- `residual // 2 + residual % 2` (lines 5393, 5422) -/
def startOf (residual : ℕ) : ℕ := residual / 2 + residual % 2

/-- `fill_edges` (`precomp_funs.py:5389-5398`).  A new length below the old one is not modelled (`none`); an
empty array has no first element. -/
def fillEdges (x : List K) (newLength : ℕ) : Option (List K) :=
  if newLength < x.length then none
  else do
    let first ← x.head?
    let last ← x.getLast?
    some (List.replicate (startOf (newLength - x.length)) first ++ x ++
      List.replicate (newLength - x.length - startOf (newLength - x.length)) last)

/-- `moving_avg_fill_edges` (`precomp_funs.py:5404-5405`) -/
def movingAvgFillEdges (x : List K) (N : ℕ) : Option (List K) := do
  let m ← movingAvg x N
  fillEdges m x.length

/-- Line 5429: the weighted sum over the window starting at `i`. -/
def windowSum (x w : List K) (i : ℕ) : K := (List.zipWith (· * ·) ((x.drop i).take w.length) w).sum

/-- `weighted_moving_avg` with `fill_edges=False` (`precomp_funs.py:5411-5434`), for windows not longer than the
array (otherwise `np.zeros` gets a negative length). -/
def weightedMovingAvg (x w : List K) : Option (List K) :=
  if x.length + 1 < w.length then none
  else some ((List.range (x.length + 1 - w.length)).map (windowSum x w))

/-- `weighted_moving_avg` with `fill_edges=True`: the lines 5431-5433 fill with the first and the last value
computed; without any value line 5433 uses an undefined variable. -/
def weightedMovingAvgFilled (x w : List K) : Option (List K) := do
  let m ← weightedMovingAvg x w
  fillEdges m x.length

end Verif.MovingAvg
