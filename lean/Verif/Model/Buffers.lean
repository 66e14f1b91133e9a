import Mathlib.Data.List.Basic
import Mathlib.Algebra.Group.Basic

/-!
# Result buffers and the port updater

Model of the result arrays as objects in memory: `_init_sim` (`/repo/multisim/simenv.py:4676-4712`) creates
one array `res` per part, `_create_port_updater` (`4432-4475`) keeps a flat view of it for every port,
`_upddate_ports_result` (`/repo/multisim/precomp_funs.py:49-62`) reads the views, `_free_memory`
(`simenv.py:5278-5432`) either enlarges the arrays by `np.append`, which returns a new array, or clears them in
place.

Arrays are flat lists (row after row).  A read outside of an array is `none`: the updater is compiled without
bounds checks, it returns whatever is in memory there.  Only `res` is modelled; `res_dm` and the arrays passed to
the compiled differentials (`_input_args`, `simenv.py:4740-4764`) are kept in the same way.  `Mem.enlarge` is for parts
whose results have one row of cells per step; what happens to others is `enlargeShapes`.
-/

namespace Verif.Buffers

variable {K : Type*} [Zero K]

/-- Memory and the references into it.  Parts are numbered. -/
structure Mem (K : Type*) where
  /-- contents of the objects -/
  heap : ℕ → List K
  /-- first unused object -/
  next : ℕ
  /-- the attribute `res` of each part -/
  res : ℕ → ℕ
  /-- `T.size` of each part -/
  size : ℕ → ℕ

/-- Entry of the updater for one port: the view `part.res.reshape(-1)` and `(T.size, src_idx)`
(`simenv.py:4460-4464`). -/
structure Entry where
  loc : ℕ
  size : ℕ
  idx : ℕ

/-- A port: its part and its cell. -/
structure Port where
  part : ℕ
  cell : ℕ

/-- `_create_port_updater` (`simenv.py:4432-4475`) for one port. -/
def entry (m : Mem K) (p : Port) : Entry := ⟨m.res p.part, m.size p.part, p.cell⟩

/-- `_upddate_ports_result` (`precomp_funs.py:57-62`) for one port. -/
def read (m : Mem K) (e : Entry) (stepnum : ℕ) : Option K := (m.heap e.loc)[stepnum * e.size + e.idx]?

/-- Replacing elements from position `pos` on, as far as the list reaches. -/
def overwrite (xs : List K) (pos : ℕ) (vals : List K) : List K :=
  xs.take pos ++ vals.take (xs.length - pos) ++ xs.drop (pos + vals.length)

/-- `res[stepnum] = values` in a solver. -/
def Mem.write (m : Mem K) (part stepnum : ℕ) (vals : List K) : Mem K :=
  { m with heap := fun l => if l = m.res part then overwrite (m.heap l) (stepnum * m.size part) vals else m.heap l }

/-- `res = np.append(res, np.zeros(...))` for one part (`simenv.py:5313-5319`). -/
def Mem.enlarge (m : Mem K) (base : ℕ) (part : ℕ) : Mem K :=
  { m with
    heap := fun l => if l = m.next then m.heap (m.res part) ++ List.replicate (base * m.size part) 0 else m.heap l
    next := m.next + 1
    res := fun p => if p = part then m.next else m.res p }

/-- The branch of `_free_memory` with disk saving, for one part (`simenv.py:5405-5410`):
`res[0] = res[stepnum]; res[1:] = 0`, in place. -/
def Mem.flush (m : Mem K) (stepnum : ℕ) (part : ℕ) : Mem K :=
  { m with heap := fun l =>
      if l = m.res part then
        ((m.heap l).drop (stepnum * m.size part)).take (m.size part) ++
          List.replicate ((m.heap l).length - m.size part) 0
      else m.heap l }

/-- What happens to the buffers of a run. -/
inductive Op (K : Type*)
  /-- a solver writes the row of a part -/
  | write (part stepnum : ℕ) (vals : List K)
  /-- `_free_memory` without disk saving -/
  | enlarge (base : ℕ)
  /-- `_free_memory` with disk saving -/
  | flush (stepnum : ℕ)

/-- One operation in a system of `n` parts. -/
def step (n : ℕ) (m : Mem K) : Op K → Mem K
  | .write part stepnum vals => m.write part stepnum vals
  | .enlarge base => (List.range n).foldl (fun m part => m.enlarge base part) m
  | .flush stepnum => (List.range n).foldl (fun m part => m.flush stepnum part) m

/-- A run. -/
def run (n : ℕ) (m : Mem K) (ops : List (Op K)) : Mem K := ops.foldl (step n) m

/-- Buffers after `_init_sim`: every part has its own array of `rows` rows. -/
structure Fresh (n rows : ℕ) (m : Mem K) : Prop where
  /-- the arrays exist -/
  alloc : ∀ p < n, m.res p < m.next
  /-- and are different objects -/
  inj : ∀ p < n, ∀ q < n, m.res p = m.res q → p = q
  /-- of the right size -/
  len : ∀ p < n, (m.heap (m.res p)).length = rows * m.size p

/-- `np.append(a, b, axis=0)` on shapes: the arrays need the same number of dimensions and may only differ in the first.
`none`: `ValueError` of `np.concatenate`. -/
def appendShape (a b : List ℕ) : Option (List ℕ) :=
  match a, b with
  | n :: as, m :: bs => if as = bs then some ((n + m) :: as) else none
  | _, _ => none

/-- Shape of `res` after `_init_sim`, `(num_steps + 1,) + T.shape` (`simenv.py:4681-4683`, `4706-4708`); `T.shape` is
`(num_gp,)` for pipes and storages, two-dimensional for the numeric heat exchanger
(`/repo/multisim/parts/hex_num.py:194-256`), `(2, 2)` for the condensing one
(`hex_condensing_polynome.py:187-208`). -/
def initShape (numSteps : ℕ) (cells : List ℕ) : List ℕ := (numSteps + 1) :: cells

/-- `np.append(res, np.zeros((base, res.shape[1])), axis=0)` for one part (`simenv.py:5313-5319`). -/
def enlargeShape (base : ℕ) (shape : List ℕ) : Option (List ℕ) :=
  match shape with
  | _ :: c :: _ => appendShape shape [base, c]
  | _ => none

/-- The loop over the parts in `_free_memory` (`simenv.py:5301-5319`), as far as shapes go. -/
def enlargeShapes (base : ℕ) (shapes : List (List ℕ)) : Option (List (List ℕ)) := shapes.mapM (enlargeShape base)

end Verif.Buffers
