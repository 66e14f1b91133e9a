import Mathlib.Analysis.Real.Sqrt
import Mathlib.Analysis.Real.Pi.Bounds

/-!
# Scaling of pipes

`interp_pipe_specs` and `adjust_pipes`, `multisim/utility_functions.py:451-538`, with which the ready-made
modules scale the pipes of their parts to mean flows or powers (`consumers.py:118`, `729`, `1281`, `suppliers.py:128`,
`990`).

Of the columns of the table of pipes only the inner and the outer cross section are modelled; diameters, thickness and
cross section of the wall are calculated from them for the wanted pipes. The cubic spline of scipy is a parameter `I`:
it gets the rows that are left in the table and the wanted inner cross section. `none` stands for an exception. Inner
cross sections are taken to be different in all rows.
-/

namespace Verif.PipeSpecs

/-- Inner and outer cross section of a pipe of the table. -/
abbrev Row := ℝ × ℝ

/-- A table of pipes of one type, in the order of the nominal diameters. -/
abbrev Table := List Row

/-- An interpolation through rows of a table. -/
abbrev Interp := Table → ℝ → ℝ

/-- The lower end of the extended table, `utility_functions.py:466`. -/
noncomputable def lo : ℝ := 1 / 100000

/-- The upper end of the extended table, `utility_functions.py:465`. -/
noncomputable def hi : ℝ := 1 / 10

/-- One more row beyond row `a`, which follows row `b`, `utility_functions.py:463-474`. -/
noncomputable def beyond (new : ℝ) (a b : Row) : Row :=
  (new, a.2 * (new / a.1 * (a.2 / b.2) / (a.1 / b.1)))

/-- The two rows added at the ends, `utility_functions.py:463-474`. -/
noncomputable def ends (t : Table) : Table :=
  [beyond hi (t.getD (t.length - 1) 0) (t.getD (t.length - 2) 0), beyond lo (t.getD 0 0) (t.getD 1 0)]

/-- The rows that are left when the rows with the wanted cross sections have been overwritten by NaN,
`utility_functions.py:480-483`. -/
noncomputable def left (t : Table) (wanted : List ℝ) : Table :=
  open Classical in (t ++ ends t).filter fun r => r.1 = lo ∨ r.1 = hi ∨ r.1 ∉ wanted

/-- Outer cross section for one wanted inner cross section, `utility_functions.py:485`; nothing is extrapolated
(`limit_area='inside'`). -/
noncomputable def outer (I : Interp) (t : Table) (wanted : List ℝ) (a : ℝ) : Option ℝ :=
  open Classical in
  if a < lo ∨ hi < a then none
  else if a = hi then some (beyond hi (t.getD (t.length - 1) 0) (t.getD (t.length - 2) 0)).2
  else if a = lo then some (beyond lo (t.getD 0 0) (t.getD 1 0)).2
  else some (I (left t wanted) a)

/-- The specification of one pipe. -/
structure Spec where
  ai : ℝ
  ao : ℝ
  di : ℝ
  d_o : ℝ
  s : ℝ
  aWall : ℝ

/-- The columns that are calculated directly, `utility_functions.py:487-492`. -/
noncomputable def spec (ai ao : ℝ) : Spec where
  ai := ai
  ao := ao
  di := √(ai * 4 / Real.pi)
  d_o := √(ao * 4 / Real.pi)
  s := (√(ao * 4 / Real.pi) - √(ai * 4 / Real.pi)) / 2
  aWall := ao - ai

/-- `interp_pipe_specs`, `utility_functions.py:451-494`: one pipe for each wanted cross section, an AssertionError if
one value is missing. -/
noncomputable def interpSpecs (I : Interp) (t : Table) (wanted : List ℝ) : Option (List Spec) :=
  wanted.mapM fun a => (outer I t wanted a).map (spec a)

/-- One entry of the argument of `adjust_pipes`: part, type of pipe, nominal diameter and factor. -/
structure Ask where
  part : String
  type : String
  dn : String
  factor : ℝ

/-- The inner cross section of an entry, `utility_functions.py:524-527`; `db` is the table of pipes. -/
noncomputable def Ask.area (db : String → String → Option Row) (q : Ask) : Option ℝ :=
  (db q.type q.dn).map fun r => r.1 * q.factor

/-- `adjust_pipes`, `utility_functions.py:497-538`: the specifications are interpolated in the table of
`EN10255_medium` (default argument in line 451), the type of the entry is written into the result. -/
noncomputable def adjust (I : Interp) (medium : Table) (db : String → String → Option Row) (qs : List Ask) :
    Option (List (String × String × Spec)) :=
  (qs.mapM (Ask.area db)).bind fun areas =>
    (interpSpecs I medium areas).map fun specs =>
      List.zipWith (fun q s => (q.part, q.type, s)) qs specs

end Verif.PipeSpecs
