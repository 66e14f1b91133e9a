import Mathlib.Algebra.Field.Basic
import Mathlib.Algebra.BigOperators.Group.List.Basic
import Mathlib.Data.List.Range

/-!
# Regression of the condensing heat exchanger

Transcription of `make_poly_transf_combs_for_nb`, `transform_to_poly_nb`, `transform_pca_nb` and `poly_tranfs_pred`
(`/repo/multisim/precomp_funs.py:6030-6097`) and of the way the results of the fit are taken from the pipeline in
`HEXCondPoly.init_part` (`/repo/multisim/parts/hex_condensing_polynome.py:398-412`).

`PolynomialFeatures._combinations` belongs to scikit-learn; it chains `itertools.combinations_with_replacement` (or `combinations`) for
the degrees from 0 (or 1 without bias) to the degree, which is what `combos` does.  The fit itself (mean, components, intercept,
coefficients) is arbitrary.
-/

namespace Verif.PolyReg

variable {K : Type*} [Field K]

/-- `itertools.combinations_with_replacement(range(lo, n), r)`. -/
def withRepl (n : ℕ) : ℕ → ℕ → List (List ℕ)
  | _, 0 => [[]]
  | lo, r + 1 => (List.range' lo (n - lo)).flatMap fun a => (withRepl n a r).map (a :: ·)

/-- `itertools.combinations(range(lo, n), r)`. -/
def without (n : ℕ) : ℕ → ℕ → List (List ℕ)
  | _, 0 => [[]]
  | lo, r + 1 => (List.range' lo (n - lo)).flatMap fun a => (without n (a + 1) r).map (a :: ·)

/-- Settings of `PolynomialFeatures`. -/
structure Feats where
  n : ℕ
  degree : ℕ
  interaction : Bool
  bias : Bool

/-- `PolynomialFeatures._combinations`, called in `precomp_funs.py:6043-6050`. -/
def combos (f : Feats) : List (List ℕ) :=
  let start := if f.bias then 0 else 1
  (List.range' start (f.degree + 1 - start)).flatMap fun r => if f.interaction then without f.n 0 r else withRepl f.n 0 r

/-- The rows of `int_cmb_idx`, lines 6052-6061: indices followed by the dummy −99.  `none`: a combination does not fit into its row
(`ValueError`) or there is none (`IndexError`). -/
def table (cs : List (List ℕ)) : Option (List (List ℤ)) :=
  match cs.getLast? with
  | none => none
  | some l => if cs.all (fun c => decide (c.length ≤ l.length)) then
      some (cs.map fun c => c.map Int.ofNat ++ List.replicate (l.length - c.length) (-99)) else none

/-- `nvars_per_ftr`, line 6056. -/
def nvars (cs : List (List ℕ)) : List ℕ := cs.map List.length

/-- `X[n][i]` with Python's negative indices; `none` is an `IndexError`. -/
def lookup (X : List K) (i : ℤ) : Option K :=
  if 0 ≤ i then X[i.toNat]? else if 0 ≤ i + X.length then X[(i + X.length).toNat]? else none

/-- Product of the entries of `X` at the given places, line 6083. -/
def prodAt (X : List K) : List ℤ → Option K
  | [] => some 1
  | i :: is => (lookup X i).bind fun x => (prodAt X is).map fun p => x * p

/-- `transform_to_poly_nb` for one sample, lines 6076-6085. -/
def transform (X : List K) : List (List ℤ) → List ℕ → Option (List K)
  | [], _ => some []
  | _ :: _, [] => none
  | r :: rs, v :: vs => (prodAt X (r.take v)).bind fun p => (transform X rs vs).map fun ps => (1 * p) :: ps

/-- `np.dot` of two vectors. -/
def dot (a b : List K) : K := (List.zipWith (· * ·) a b).sum

/-- `transform_pca_nb` for one sample, lines 6088-6091. -/
def pca (mean : List K) (comps : List (List K)) (xp : List K) : List K := comps.map fun c => dot (List.zipWith (· - ·) xp mean) c

/-- Result of a fit. -/
structure Fit (K : Type*) where
  mean : List K
  comps : List (List K)
  intercept : List K
  coef : List (List K)

/-- `poly_tranfs_pred` for one sample, lines 6094-6097. -/
def predict (f : Fit K) (z : List K) : List K := List.zipWith (fun b c => b + dot z c) f.intercept f.coef

/-- The regression as used by `condensing_hex_solve`, lines 2944-2950, with the arrays which `init_part` has extracted. -/
def regression (s : Feats) (f : Fit K) (X : List K) : Option (List K) :=
  (table (combos s)).bind fun t => (transform X t (nvars (combos s))).map fun xp => predict f (pca f.mean f.comps xp)

end Verif.PolyReg
