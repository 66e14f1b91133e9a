import Mathlib.Analysis.Calculus.Deriv.MeanValue
import Mathlib.Analysis.Calculus.Deriv.Mul
import Mathlib.Analysis.Calculus.Deriv.Add
import Mathlib.Data.Rat.Cast.Order
import Mathlib.Data.Real.Basic
import Mathlib.Tactic.Linarith
import Mathlib.Tactic.Ring

/-!
# Polynomials that are positive on an interval

A polynomial with rational coefficients is shifted to the left end of each piece of a division of the interval and
bounded from below there; the bounds are rational numbers and are compared in the kernel.
-/

namespace Verif.PolyPos

/-- Value at `x` of the polynomial with the coefficients `c`, the constant one first. -/
noncomputable def ev (c : List ℚ) (x : ℝ) : ℝ := c.foldr (fun a r => (a : ℝ) + x * r) 0

@[simp] theorem ev_nil (x : ℝ) : ev [] x = 0 := rfl
@[simp] theorem ev_cons (a : ℚ) (c : List ℚ) (x : ℝ) : ev (a :: c) x = a + x * ev c x := rfl

/-- Multiplication by `a + X`, then addition of `b`. -/
def mulAdd (a : ℚ) : ℚ → List ℚ → List ℚ
  | b, [] => [b]
  | b, c0 :: c => (b + a * c0) :: mulAdd a c0 c

theorem ev_mulAdd (a b : ℚ) (c : List ℚ) (x : ℝ) : ev (mulAdd a b c) x = b + ((a : ℝ) + x) * ev c x := by
  induction c generalizing b with
  | nil => simp [mulAdd]
  | cons c0 c ih =>
    rw [mulAdd, ev_cons, ih, ev_cons]
    push_cast
    ring

/-- Coefficients of `c (a + X)`. -/
def taylor (a : ℚ) : List ℚ → List ℚ
  | [] => []
  | c0 :: c => mulAdd a c0 (taylor a c)

theorem ev_taylor (a : ℚ) (c : List ℚ) (x : ℝ) : ev (taylor a c) x = ev c (a + x) := by
  induction c with
  | nil => rfl
  | cons c0 c ih => rw [taylor, ev_mulAdd, ih, ev_cons]

/-- Lower bound on `[0, w]`. -/
def low (w : ℚ) : List ℚ → ℚ
  | [] => 0
  | c0 :: c => c0 + min 0 (w * low w c)

theorem low_le {w : ℚ} {x : ℝ} (h0 : 0 ≤ x) (h1 : x ≤ w) (c : List ℚ) : (low w c : ℝ) ≤ ev c x := by
  induction c with
  | nil => simp [low]
  | cons c0 c ih =>
    rw [low, ev_cons]
    push_cast
    have : min (0 : ℝ) (w * low w c) ≤ x * ev c x := by
      rcases le_or_gt 0 (ev c x) with h | h
      · exact (min_le_left _ _).trans (mul_nonneg h0 h)
      · have hl : (low w c : ℝ) < 0 := ih.trans_lt h
        refine (min_le_right _ _).trans ?_
        nlinarith
    linarith

/-- All pieces of the division `a :: pts` have a positive lower bound. -/
def check (c : List ℚ) : ℚ → List ℚ → Bool
  | _, [] => true
  | a, b :: pts => decide (a ≤ b) && decide (0 < low (b - a) (taylor a c)) && check c b pts

theorem pos_of_check {c : List ℚ} {pts : List ℚ} {a : ℚ} (h : check c a pts = true) (hne : pts ≠ [])
    {x : ℝ} (h0 : (a : ℝ) ≤ x) (h1 : x ≤ (pts.getLast hne : ℚ)) : 0 < ev c x := by
  induction pts generalizing a with
  | nil => exact absurd rfl hne
  | cons b pts ih =>
    simp only [check, Bool.and_eq_true, decide_eq_true_eq] at h
    obtain ⟨⟨-, hlow⟩, hrest⟩ := h
    rcases le_or_gt x b with hx | hx
    · have h2 := low_le (w := b - a) (x := x - a) (by linarith) (by push_cast; linarith) (taylor a c)
      rw [ev_taylor] at h2
      have h3 : (0 : ℝ) < (low (b - a) (taylor a c) : ℝ) := by exact_mod_cast hlow
      have h4 : (a : ℝ) + (x - a) = x := by ring
      rw [h4] at h2
      linarith
    · by_cases hp : pts = []
      · subst hp
        simp only [List.getLast_singleton] at h1
        exact absurd hx (not_lt.2 h1)
      · exact ih hrest hp hx.le (by rwa [List.getLast_cons hp] at h1)

/-- Coefficients of the derivative; `n` is the degree of the first coefficient. -/
def diffFrom (n : ℚ) : List ℚ → List ℚ
  | [] => []
  | c0 :: c => (n * c0) :: diffFrom (n + 1) c

/-- Coefficients of the derivative. -/
def diff (c : List ℚ) : List ℚ := diffFrom 1 c.tail

theorem ev_diffFrom (n : ℚ) (c : List ℚ) (x : ℝ) : ev (diffFrom (n + 1) c) x = ev (diffFrom n c) x + ev c x := by
  induction c generalizing n with
  | nil => simp [diffFrom]
  | cons c0 c ih =>
    simp only [diffFrom, ev_cons]
    rw [ih]
    push_cast
    ring

theorem hasDerivAt_ev (c : List ℚ) (x : ℝ) : HasDerivAt (ev c) (ev (diff c) x) x := by
  induction c with
  | nil =>
    have : ev [] = fun _ => (0 : ℝ) := rfl
    rw [this]
    simpa [diff, diffFrom] using hasDerivAt_const x (0 : ℝ)
  | cons c0 c ih =>
    have e : ev (c0 :: c) = fun x => (c0 : ℝ) + x * ev c x := rfl
    rw [e]
    have h : HasDerivAt (fun x : ℝ => (c0 : ℝ) + x * ev c x) (1 * ev c x + x * ev (diff c) x) x :=
      ((hasDerivAt_id x).mul ih).const_add (c0 : ℝ)
    refine h.congr_deriv ?_
    cases c with
    | nil => simp [diff, diffFrom]
    | cons c1 c =>
      simp only [diff, List.tail_cons, diffFrom, ev_cons]
      rw [ev_diffFrom]
      push_cast
      ring

/-- A polynomial whose derivative passes the check increases. -/
theorem lt_of_check {c : List ℚ} {pts : List ℚ} {a : ℚ} (h : check (diff c) a pts = true) (hne : pts ≠ [])
    {x y : ℝ} (h0 : (a : ℝ) ≤ x) (hxy : x < y) (h1 : y ≤ (pts.getLast hne : ℚ)) : ev c x < ev c y := by
  have hmono : StrictMonoOn (ev c) (Set.Icc x y) := by
    apply strictMonoOn_of_deriv_pos (convex_Icc x y)
    · exact fun z _ => (hasDerivAt_ev c z).continuousAt.continuousWithinAt
    · intro z hz
      rw [interior_Icc] at hz
      rw [(hasDerivAt_ev c z).deriv]
      exact pos_of_check h hne (by linarith [hz.1]) (by linarith [hz.2])
  exact hmono ⟨le_rfl, hxy.le⟩ ⟨hxy.le, le_rfl⟩ hxy

/-- Sum. -/
def add : List ℚ → List ℚ → List ℚ
  | [], d => d
  | c, [] => c
  | a :: c, b :: d => (a + b) :: add c d

theorem ev_add (c d : List ℚ) (x : ℝ) : ev (add c d) x = ev c x + ev d x := by
  induction c generalizing d with
  | nil => simp [add]
  | cons a c ih =>
    cases d with
    | nil => simp [add]
    | cons b d =>
      rw [add, ev_cons, ih, ev_cons, ev_cons]
      push_cast
      ring

/-- Multiple. -/
def smul (q : ℚ) (c : List ℚ) : List ℚ := c.map (q * ·)

theorem ev_smul (q : ℚ) (c : List ℚ) (x : ℝ) : ev (smul q c) x = q * ev c x := by
  induction c with
  | nil => simp [smul]
  | cons a c ih =>
    have : smul q (a :: c) = (q * a) :: smul q c := rfl
    rw [this, ev_cons, ih, ev_cons]
    push_cast
    ring

/-- Product. -/
def mul : List ℚ → List ℚ → List ℚ
  | [], _ => []
  | a :: c, d => add (smul a d) (0 :: mul c d)

theorem ev_mul (c d : List ℚ) (x : ℝ) : ev (mul c d) x = ev c x * ev d x := by
  induction c with
  | nil => simp [mul]
  | cons a c ih =>
    rw [mul, ev_add, ev_smul, ev_cons, ih, ev_cons]
    push_cast
    ring

end Verif.PolyPos
