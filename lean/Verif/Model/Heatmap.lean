import Mathlib.Data.List.Range
import Mathlib.Data.List.Basic

/-!
# Heat maps of tables

Transcription of `heatmap_from_df` (`/repo/multisim/_utility/plotting.py:20-184`): the part of the table that is drawn, and what the
dictionaries `plt_kwds` and `cbar_kwds` hold.  The function writes into them; the dictionaries in the header of the function (lines 35-36)
are made once and used by all calls that give none.  Dictionaries are numbered, `0` is the one of the header.  Of `plt_kwds` only the entry
`norm` is modelled, of `cbar_kwds` only the entry `extend`; `vmin` and `vmax` are `None`.  A norm that is made without limits takes them from
the first data it is drawn with (`Normalize.autoscale_None` of matplotlib) and keeps them, so it is given by these data.
-/

namespace Verif.Heatmap

/-- `cbar_kwds['extend']`. -/
inductive Ext
  | max | min | both
  deriving DecidableEq

/-- The arguments of a call; `D` are the data. -/
structure Call (D : Type*) where
  data : D
  /-- `log_cbar` -/
  log : Bool
  /-- `extend_over is not None` -/
  over : Bool
  /-- `extend_under is not None` -/
  under : Bool
  /-- the dictionary given as `plt_kwds` -/
  plt : ℕ
  /-- the dictionary given as `cbar_kwds` -/
  cbar : ℕ

/-- The contents of the dictionaries: a logarithmic norm with the limits of these data, the ends of the colour bar. -/
structure Store (D : Type*) where
  norm : ℕ → Option D
  ext : ℕ → Option Ext

/-- What is drawn: data, the data whose limits the logarithmic scale has (`none`: a linear scale with the limits of the data drawn), ends of
the colour bar. -/
structure Drawn (D : Type*) where
  data : D
  norm : Option D
  ext : Option Ext
  deriving DecidableEq

/-- An entry of a dictionary. -/
def put {V : Type*} (d : ℕ → V) (k : ℕ) (v : V) : ℕ → V := fun i => if i = k then v else d i

/-- `heatmap_from_df`, lines 123-172. -/
def draw {D : Type*} (s : Store D) (c : Call D) : Store D × Drawn D :=
  let n := if c.log then put s.norm c.plt (some c.data) else s.norm
  let e := if c.over then put s.ext c.cbar (some (if c.under then .both else .max)) else s.ext
  let e := if c.under then put e c.cbar (some (if c.over then .both else .min)) else e
  (⟨n, e⟩, ⟨c.data, n c.plt, e c.cbar⟩)

/-- The dictionaries after some calls. -/
def after {D : Type*} (s : Store D) (l : List (Call D)) : Store D := l.foldl (fun s c => (draw s c).1) s

/-! ## The part of the table that is drawn -/

/-- `first_valid_index`: the first of `n` lines with a value. -/
def firstValid (n : ℕ) (valid : ℕ → Bool) : Option ℕ := (List.range n).find? valid

/-- `last_valid_index`. -/
def lastValid (n : ℕ) (valid : ℕ → Bool) : Option ℕ := (List.range n).reverse.find? valid

/-- `.loc[a:b]` on `n` lines with different labels; `None` leaves an end open. -/
def slice (n : ℕ) (a b : Option ℕ) (i : ℕ) : Prop := i < n ∧ (∀ k, a = some k → k ≤ i) ∧ ∀ k, b = some k → i ≤ k

/-- The cells `df.copy().loc[fvyi:lvyi, fvxi:lvxi]`, lines 109-115; `val i j` is the value in row `i` and column `j`, NaN is `none`. -/
def cut {V : Type*} (rows cols : ℕ) (val : ℕ → ℕ → Option V) (i j : ℕ) : Prop :=
  let vr := fun i => (List.range cols).any fun j => (val i j).isSome
  let vc := fun j => (List.range rows).any fun i => (val i j).isSome
  slice rows (firstValid rows vr) (lastValid rows vr) i ∧ slice cols (firstValid cols vc) (lastValid cols vc) j

end Verif.Heatmap
