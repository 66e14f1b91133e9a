import Verif.Spec.HexSecondLaw
import Verif.Props.HexNumStep
import Verif.Lemmas.Jensen
import Mathlib.Analysis.SpecialFunctions.Log.Basic
import Mathlib.Analysis.Convex.SpecificFunctions.Basic
import Mathlib.Analysis.SpecialFunctions.Integrals.Basic

/-!
# C174: second law for the numeric plate heat exchanger
-/

set_option linter.unusedSectionVars false

namespace Verif.HexNum

open Finset Verif.Jensen
open Verif.Cells (Mat lamMean conduction_telescopes enthalpy EnthalpySlope)

section Balance

variable {K : Type*} [Field K] [LinearOrder K] [IsStrictOrderedRing K]
variable (mat : Mat K) (g : Geo K) (s : Inp K)

/-- The heat flow into row `k` of side `c` divided into what it consists of, for functions `f` (conduction) and `F`
(water) of the temperatures. -/
def fluidPull (f F : K → K) (k c : ℕ) : K :=
  ua1 mat g s k (2 * c) * (f (s.ext k (2 * c + 1)) - f (T s k (2 * c)))
    + ua1 mat g s (k + 1) (2 * c) * (f (s.ext (k + 2) (2 * c + 1)) - f (T s k (2 * c)))
    + ua2 g s k (c + 1) * (f (T s k 1) - f (T s k (2 * c)))
    + (if k = 0 then uaPort mat g s (2 * c) * (f (s.port (2 * c)).T - f (T s k (2 * c))) else 0)
    + (if k + 1 = g.n then uaPort mat g s (2 * c + 1) * (f (s.port (2 * c + 1)).T - f (T s k (2 * c))) else 0)
    + (dmTop s c k / divisor g c) * (F (s.ext k (2 * c + 1)) - F (T s k (2 * c)))
    + (dmBot g s c k / divisor g c) * (F (s.ext (k + 2) (2 * c + 1)) - F (T s k (2 * c)))
    + (if k = 0 then (dmPort s (2 * c) / divisor g c) * (F (s.port (2 * c)).T - F (T s k (2 * c))) else 0)
    + (if k + 1 = g.n then (dmPort s (2 * c + 1) / divisor g c)
        * (F (s.port (2 * c + 1)).T - F (T s k (2 * c))) else 0)

/-- The same for a row of the wall. -/
def wallPull (f : K → K) (k : ℕ) : K :=
  ua1 mat g s k 1 * (f (s.ext k 2) - f (T s k 1)) + ua1 mat g s (k + 1) 1 * (f (s.ext (k + 2) 2) - f (T s k 1))
    + ua2 g s k 1 * (f (T s k 0) - f (T s k 1)) + ua2 g s k 2 * (f (T s k 2) - f (T s k 1))

theorem fluid_rate {c : ℕ} (hc : c < 2) (hn : 1 ≤ g.n) {k : ℕ} (hk : k < g.n) (hm : mcp mat g s k (2 * c) ≠ 0) :
    mcp mat g s k (2 * c) * dT mat g s k (2 * c) = fluidPull mat g s id (enthalpy mat) k c := by
  rw [cell_balance mat g s hc k hm,
    ports_at g (fun i => uaPort mat g s i * ((s.port i).T - T s k (2 * c))) hc hn hk,
    ports_at g (fun i => dmPort s i * (mat.cp (s.port i).T * (s.port i).T
        - mat.cp (T s k (2 * c)) * T s k (2 * c))) hc hn hk]
  have eT : s.ext (k + 1) (2 * c + 1) = T s k (2 * c) := rfl
  simp only [eT, enthalpy, fluidPull, id]
  split_ifs <;> ring

theorem wall_rate (hn : 1 ≤ g.n) (k : ℕ) (hm : g.mcpWll ≠ 0) :
    g.mcpWll * dT mat g s k 1 = wallPull mat g s id k := by
  have np : ∑ i ∈ range 4, (if portIdx g i = k * 3 + 1 then
      uaPort mat g s i * ((s.port i).T - T s k 1) / g.mcpWll else 0) = 0 :=
    sum_eq_zero fun i _ => if_neg (no_port_wall g i k hn)
  simp only [dT, dTcond, dTadv, mcp, if_true, np, add_zero]
  rw [mul_div_cancel₀ _ hm]
  simp only [wallPull, id, T]

theorem sum_first (x : ℕ → K) (hn : 1 ≤ g.n) : (∑ k ∈ range g.n, if k = 0 then x k else 0) = x 0 := by
  rw [sum_ite_eq' (range g.n) 0 x, if_pos (mem_range.2 (by omega))]

theorem sum_last (x : ℕ → K) (hn : 1 ≤ g.n) : (∑ k ∈ range g.n, if k + 1 = g.n then x k else 0) = x (g.n - 1) := by
  have : ∀ k, (k + 1 = g.n) = (k = g.n - 1) := fun k => by apply propext; omega
  simp only [this]
  rw [sum_ite_eq' (range g.n) (g.n - 1) x, if_pos (mem_range.2 (by omega))]

/-- What passes through the ports is the sum over all cells. -/
theorem sum_pulls (f F : K → K) (hn : 1 ≤ g.n) :
    (∑ k ∈ range g.n, (fluidPull mat g s f F k 0 + wallPull mat g s f k + fluidPull mat g s f F k 1)) =
      left F g s 0 / divisor g 0 + left F g s 1 / divisor g 1 + conducted f mat g s 0 + conducted f mat g s 1 := by
  have side : ∀ c, (∑ k ∈ range g.n, fluidPull mat g s f F k c) =
      left F g s c / divisor g c + conducted f mat g s c
        + ∑ k ∈ range g.n, ua2 g s k (c + 1) * (f (T s k 1) - f (T s k (2 * c))) := by
    intro c
    have hT0 : T s 0 (2 * c) = s.ext 1 (2 * c + 1) := rfl
    have hTn : T s (g.n - 1) (2 * c) = s.ext g.n (2 * c + 1) := by
      unfold T; rw [Nat.sub_add_cancel hn]
    have t := conduction_telescopes (fun k => ua1 mat g s k (2 * c)) (fun k => f (s.ext k (2 * c + 1))) g.n
      (by simp [ua1]) (by simp [ua1])
    have ad := adv_side g s (fun k => F (s.ext k (2 * c + 1))) (fun i => F (s.port i).T) c hn
    have e : ∀ k, fluidPull mat g s f F k c =
        (ua1 mat g s k (2 * c) * (f (s.ext k (2 * c + 1)) - f (s.ext (k + 1) (2 * c + 1)))
          + ua1 mat g s (k + 1) (2 * c) * (f (s.ext (k + 2) (2 * c + 1)) - f (s.ext (k + 1) (2 * c + 1))))
        + ua2 g s k (c + 1) * (f (T s k 1) - f (T s k (2 * c)))
        + (if k = 0 then uaPort mat g s (2 * c) * (f (s.port (2 * c)).T - f (T s k (2 * c)))
            + (dmPort s (2 * c) / divisor g c) * (F (s.port (2 * c)).T - F (T s k (2 * c))) else 0)
        + (if k + 1 = g.n then uaPort mat g s (2 * c + 1) * (f (s.port (2 * c + 1)).T - f (T s k (2 * c)))
            + (dmPort s (2 * c + 1) / divisor g c) * (F (s.port (2 * c + 1)).T - F (T s k (2 * c))) else 0)
        + (dmTop s c k * (F (s.ext k (2 * c + 1)) - F (s.ext (k + 1) (2 * c + 1)))
          + dmBot g s c k * (F (s.ext (k + 2) (2 * c + 1)) - F (s.ext (k + 1) (2 * c + 1)))) / divisor g c := by
      intro k
      unfold fluidPull
      have eT : s.ext (k + 1) (2 * c + 1) = T s k (2 * c) := rfl
      rw [eT]
      split_ifs <;> ring
    rw [sum_congr rfl fun k _ => e k, sum_add_distrib, sum_add_distrib, sum_add_distrib, sum_add_distrib, t,
      sum_first g _ hn, sum_last g _ hn, ← sum_div]
    have hl : left F g s c = |s.dm c| * ((if 0 ≤ s.dm c then F (s.port (2 * c)).T else F (s.port (2 * c + 1)).T) -
        (if 0 ≤ s.dm c then F (s.ext g.n (2 * c + 1)) else F (s.ext 1 (2 * c + 1)))) := by
      unfold left inletT outletT
      split_ifs <;> rfl
    rw [hl, ← ad, conducted, hT0, hTn]
    ring
  have w := conduction_telescopes (fun k => ua1 mat g s k 1) (fun k => f (s.ext k 2)) g.n
    (by simp [ua1]) (by simp [ua1])
  have wall : (∑ k ∈ range g.n, wallPull mat g s f k) =
      (∑ k ∈ range g.n, ua2 g s k 1 * (f (T s k 0) - f (T s k 1)))
        + ∑ k ∈ range g.n, ua2 g s k 2 * (f (T s k 2) - f (T s k 1)) := by
    have e : ∀ k, wallPull mat g s f k = (ua1 mat g s k 1 * (f (s.ext k 2) - f (s.ext (k + 1) 2))
        + ua1 mat g s (k + 1) 1 * (f (s.ext (k + 2) 2) - f (s.ext (k + 1) 2)))
        + ua2 g s k 1 * (f (T s k 0) - f (T s k 1)) + ua2 g s k 2 * (f (T s k 2) - f (T s k 1)) := fun k => rfl
    rw [sum_congr rfl fun k _ => e k, sum_add_distrib, sum_add_distrib, w, zero_add]
  rw [sum_add_distrib, sum_add_distrib, side 0, side 1, wall]
  have z : (∑ k ∈ range g.n, ua2 g s k (0 + 1) * (f (T s k 1) - f (T s k (2 * 0)))) =
      -∑ k ∈ range g.n, ua2 g s k 1 * (f (T s k 0) - f (T s k 1)) := by
    rw [← sum_neg_distrib]
    exact sum_congr rfl fun k _ => by ring
  have z' : (∑ k ∈ range g.n, ua2 g s k (1 + 1) * (f (T s k 1) - f (T s k (2 * 1)))) =
      -∑ k ∈ range g.n, ua2 g s k 2 * (f (T s k 2) - f (T s k 1)) := by
    rw [← sum_neg_distrib]
    exact sum_congr rfl fun k _ => by ring
  rw [z, z']
  ring

/-! ## Steady states -/

variable {mat g s} {p f F : K → K} {a b : K}

theorem divisor_pos (hph : Physical mat g s) (c : ℕ) : 0 < divisor g c := by
  unfold divisor
  split_ifs
  exacts [hph.chSup, hph.chDmd]

theorem above (hw : Within g s a b) {k j : ℕ} (hk : k < g.n) (h0 : 0 < k) (hj : j < 3) :
    a ≤ s.ext k (j + 1) ∧ s.ext k (j + 1) ≤ b := by
  have := hw.cells (k - 1) (by omega) j hj
  unfold T at this
  rwa [Nat.sub_add_cancel h0] at this

theorem below (hw : Within g s a b) {k j : ℕ} (hk : k + 1 < g.n) (hj : j < 3) :
    a ≤ s.ext (k + 2) (j + 1) ∧ s.ext (k + 2) (j + 1) ≤ b :=
  hw.cells (k + 1) hk j hj

theorem tangent_fluid (hph : Physical mat g s) (hw : Within g s a b) (ht : Tangents p f F (enthalpy mat) a b) {k c : ℕ}
    (hk : k < g.n) (hc : c < 2) :
    p (T s k (2 * c)) * fluidPull mat g s id (enthalpy mat) k c ≤ fluidPull mat g s f F k c := by
  have hT := hw.cells k hk (2 * c) (by omega)
  have hd := divisor_pos hph c
  have cond : ∀ w u : K, 0 ≤ w → a ≤ u ∧ u ≤ b → p (T s k (2 * c)) * (w * (u - T s k (2 * c))) ≤
      w * (f u - f (T s k (2 * c))) := by
    intro w u hw0 hu
    have := mul_le_mul_of_nonneg_left (ht.temp _ u hT.1 hT.2 hu.1 hu.2) hw0
    linarith
  have adv : ∀ w u : K, 0 ≤ w → a ≤ u ∧ u ≤ b →
      p (T s k (2 * c)) * (w * (enthalpy mat u - enthalpy mat (T s k (2 * c)))) ≤
      w * (F u - F (T s k (2 * c))) := by
    intro w u hw0 hu
    have := mul_le_mul_of_nonneg_left (ht.enth _ u hT.1 hT.2 hu.1 hu.2) hw0
    linarith
  have zero : ∀ w x y : K, w = 0 → p (T s k (2 * c)) * (w * x) ≤ w * y := by
    intro w x y h
    rw [h, zero_mul, zero_mul, mul_zero]
  have iteq : ∀ (q : Prop) [Decidable q] (x y : K), p (T s k (2 * c)) * x ≤ y →
      p (T s k (2 * c)) * (if q then x else 0) ≤ if q then y else 0 := by
    intro q _ x y h
    split_ifs
    · exact h
    · rw [mul_zero]
  have hb : ∀ q : Prop, k + 1 < g.n ∨ k + 1 = g.n := fun _ => by omega
  unfold fluidPull
  simp only [id, mul_add]
  refine add_le_add (add_le_add (add_le_add (add_le_add (add_le_add (add_le_add (add_le_add (add_le_add ?_ ?_) ?_) ?_) ?_)
    ?_) ?_) ?_) ?_
  · rcases Nat.eq_zero_or_pos k with e | e
    · exact zero _ _ _ (by simp [ua1, e])
    · exact cond _ _ (hph.ua1_nonneg hk.le (by omega)) (above hw hk e (by omega))
  · rcases hb True with e | e
    · exact cond _ _ (hph.ua1_nonneg e.le (by omega)) (below hw e (by omega))
    · exact zero _ _ _ (by simp [ua1, e])
  · exact cond _ _ (hph.ua2_pos hk hc).le (hw.cells k hk 1 (by omega))
  · exact iteq _ _ _ (cond _ _ (hph.port _ (by omega)) (hw.ports _ (by omega)))
  · exact iteq _ _ _ (cond _ _ (hph.port _ (by omega)) (hw.ports _ (by omega)))
  · rcases Nat.eq_zero_or_pos k with e | e
    · exact zero _ _ _ (by simp [dmTop, e])
    · exact adv _ _ (div_nonneg (dmTop_nonneg s c k) hd.le) (above hw hk e (by omega))
  · rcases hb True with e | e
    · exact adv _ _ (div_nonneg (dmBot_nonneg g s c k) hd.le) (below hw e (by omega))
    · exact zero _ _ _ (by simp [dmBot, e])
  · exact iteq _ _ _ (adv _ _ (div_nonneg (dmPort_nonneg s _) hd.le) (hw.ports _ (by omega)))
  · exact iteq _ _ _ (adv _ _ (div_nonneg (dmPort_nonneg s _) hd.le) (hw.ports _ (by omega)))

theorem tangent_wall (hph : Physical mat g s) (hw : Within g s a b) (ht : Tangents p f F (enthalpy mat) a b) {k : ℕ}
    (hk : k < g.n) : p (T s k 1) * wallPull mat g s id k ≤ wallPull mat g s f k := by
  have hT := hw.cells k hk 1 (by omega)
  have cond : ∀ w u : K, 0 ≤ w → a ≤ u ∧ u ≤ b → p (T s k 1) * (w * (u - T s k 1)) ≤ w * (f u - f (T s k 1)) := by
    intro w u hw0 hu
    have := mul_le_mul_of_nonneg_left (ht.temp _ u hT.1 hT.2 hu.1 hu.2) hw0
    linarith
  have zero : ∀ w x y : K, w = 0 → p (T s k 1) * (w * x) ≤ w * y := by
    intro w x y h
    rw [h, zero_mul, zero_mul, mul_zero]
  have hb : k + 1 < g.n ∨ k + 1 = g.n := by omega
  unfold wallPull
  simp only [id, mul_add]
  refine add_le_add (add_le_add (add_le_add ?_ ?_) ?_) ?_
  · rcases Nat.eq_zero_or_pos k with e | e
    · exact zero _ _ _ (by simp [ua1, e])
    · exact cond _ _ (hph.ua1_nonneg hk.le (by omega)) (above hw hk e (j := 1) (by omega))
  · rcases hb with e | e
    · exact cond _ _ (hph.ua1_nonneg e.le (by omega)) (below hw e (j := 1) (by omega))
    · exact zero _ _ _ (by simp [ua1, e])
  · exact cond _ _ (hph.ua2_pos hk (c := 0) (by omega)).le (hw.cells k hk 0 (by omega))
  · exact cond _ _ (hph.ua2_pos hk (c := 1) (by omega)).le (hw.cells k hk 2 (by omega))

/-- **C174**, partial (steady states, one channel of each side): in a steady state the water of one supply channel and of
one demand channel together leave behind no less than is conducted away, of anything whose slope grows with the
temperature.  Heat transfer coefficients, density, specific heat and conductivity may depend on the temperature.  Missing:
the same for all channels together, which is false for one pass (`C174_fails_one_pass`). -/
theorem C174_steady_channels_partial (hph : Physical mat g s) (hw : Within g s a b)
    (ht : Tangents p f F (enthalpy mat) a b) (hst : Steady mat g s) :
    0 ≤ left F g s 0 / g.chSup + left F g s 1 / g.chDmd + conducted f mat g s 0 + conducted f mat g s 1 := by
  have e := sum_pulls mat g s f F hph.n
  have d0 : divisor g 0 = g.chSup := by simp [divisor]
  have d1 : divisor g 1 = g.chDmd := by simp [divisor]
  rw [d0, d1] at e
  rw [← e]
  refine sum_nonneg fun k hk => ?_
  have hk := mem_range.1 hk
  have fl : ∀ c < 2, 0 ≤ fluidPull mat g s f F k c := by
    intro c hc
    refine le_trans (le_of_eq ?_) (tangent_fluid hph hw ht hk hc)
    rw [← fluid_rate mat g s hc hph.n hk (hph.mcp_pos hk (by omega)).ne', hst k hk (2 * c) (by omega), mul_zero, mul_zero]
  have wl : 0 ≤ wallPull mat g s f k := by
    refine le_trans (le_of_eq ?_) (tangent_wall hph hw ht hk)
    rw [← wall_rate mat g s hph.n k hph.mcpWll.ne', hst k hk 1 (by omega), mul_zero, mul_zero]
  exact add_nonneg (add_nonneg (fl 0 (by omega)) wl) (fl 1 (by omega))

/-- **C174**, partial (steady states, as many channels on both sides, that is two or more passes): in a steady state the
water of both sides and what is conducted through the ports of all channels together leave behind no less than nothing of
anything whose slope grows with the temperature. -/
theorem C174_steady_partial (hph : Physical mat g s) (hw : Within g s a b) (ht : Tangents p f F (enthalpy mat) a b)
    (hst : Steady mat g s) (he : g.chSup = g.chDmd) :
    0 ≤ left F g s 0 + left F g s 1 + g.chSup * (conducted f mat g s 0 + conducted f mat g s 1) := by
  have h := mul_nonneg hph.chSup.le (C174_steady_channels_partial hph hw ht hst)
  rw [← he] at h
  have hne := hph.chSup.ne'
  have e : g.chSup * (left F g s 0 / g.chSup + left F g s 1 / g.chSup + conducted f mat g s 0 + conducted f mat g s 1) =
      left F g s 0 + left F g s 1 + g.chSup * (conducted f mat g s 0 + conducted f mat g s 1) := by
    field_simp
    ring
  rwa [e] at h

end Balance

/-! ## Entropy -/

section Entropy

variable {mat : Mat ℝ} {g : Geo ℝ} {s : Inp ℝ} {a b c h M : ℝ} {φ : ℝ → ℝ}

/-- Specification: `S` is the entropy per mass of a fluid at the temperatures between `a` and `b` (in degrees Celsius):
it changes by the change of the enthalpy divided by the absolute temperature. -/
def IsEntropy (mat : Mat ℝ) (S : ℝ → ℝ) (a b : ℝ) : Prop :=
  ∀ t ∈ Set.Icc a b, ∃ d, 0 ≤ d ∧ HasDerivAt (enthalpy mat) d t ∧ HasDerivAt S (d / (t + 273.15)) t

theorem log_tangent {T u : ℝ} (hT : 0 < T + 273.15) (hu : 0 < u + 273.15) :
    -(1 / (T + 273.15)) * (u - T) ≤ -Real.log (u + 273.15) - -Real.log (T + 273.15) := by
  have h := Real.log_le_sub_one_of_pos (div_pos hu hT)
  rw [Real.log_div hu.ne' hT.ne'] at h
  have e : (u + 273.15) / (T + 273.15) - 1 = 1 / (T + 273.15) * (u - T) := by
    field_simp
    ring
  rw [e] at h
  linarith

theorem entropy_tangent {S : ℝ → ℝ} (ha : -273.15 < a) (hS : IsEntropy mat S a b) {T u : ℝ} (hT : T ∈ Set.Icc a b)
    (hu : u ∈ Set.Icc a b) : S u - S T ≤ 1 / (T + 273.15) * (enthalpy mat u - enthalpy mat T) := by
  have hT0 : 0 < T + 273.15 := by linarith [hT.1]
  set G : ℝ → ℝ := fun x => S x - 1 / (T + 273.15) * enthalpy mat x with hG
  have key : ∀ t ∈ Set.Icc a b, ∃ d, 0 ≤ d ∧ HasDerivAt G (d * (1 / (t + 273.15) - 1 / (T + 273.15))) t := by
    intro t ht
    obtain ⟨d, d0, d1, d2⟩ := hS t ht
    refine ⟨d, d0, ?_⟩
    have := d2.sub (d1.const_mul (1 / (T + 273.15)))
    exact this.congr_deriv (by ring)
  have goal : G u ≤ G T := by
    rcases le_total u T with hut | hut
    · have sub : Set.Icc u T ⊆ Set.Icc a b := Set.Icc_subset_Icc hu.1 hT.2
      have mono : MonotoneOn G (Set.Icc u T) := by
        refine monotoneOn_of_deriv_nonneg (convex_Icc u T) ?_ ?_ ?_
        · intro x hx
          obtain ⟨d, -, hd⟩ := key x (sub hx)
          exact hd.continuousAt.continuousWithinAt
        · intro x hx
          obtain ⟨d, -, hd⟩ := key x (sub (interior_subset hx))
          exact hd.differentiableAt.differentiableWithinAt
        · intro x hx
          have hx := interior_subset hx
          obtain ⟨d, d0, hd⟩ := key x (sub hx)
          rw [hd.deriv]
          have : 1 / (T + 273.15) ≤ 1 / (x + 273.15) :=
            one_div_le_one_div_of_le (by linarith [(sub hx).1]) (by linarith [hx.2])
          exact mul_nonneg d0 (by linarith)
      exact mono (Set.left_mem_Icc.2 hut) (Set.right_mem_Icc.2 hut) hut
    · have sub : Set.Icc T u ⊆ Set.Icc a b := Set.Icc_subset_Icc hT.1 hu.2
      have anti : AntitoneOn G (Set.Icc T u) := by
        refine antitoneOn_of_deriv_nonpos (convex_Icc T u) ?_ ?_ ?_
        · intro x hx
          obtain ⟨d, -, hd⟩ := key x (sub hx)
          exact hd.continuousAt.continuousWithinAt
        · intro x hx
          obtain ⟨d, -, hd⟩ := key x (sub (interior_subset hx))
          exact hd.differentiableAt.differentiableWithinAt
        · intro x hx
          have hx := interior_subset hx
          obtain ⟨d, d0, hd⟩ := key x (sub hx)
          rw [hd.deriv]
          have : 1 / (x + 273.15) ≤ 1 / (T + 273.15) :=
            one_div_le_one_div_of_le hT0 (by linarith [hx.1])
          exact mul_nonpos_of_nonneg_of_nonpos d0 (by linarith)
      exact anti (Set.left_mem_Icc.2 hut) (Set.right_mem_Icc.2 hut) hut
  simp only [hG] at goal
  linarith

theorem entropy_tangents {S : ℝ → ℝ} (ha : -273.15 < a) (hS : IsEntropy mat S a b) :
    Tangents (fun t => -(1 / (t + 273.15))) (fun t => -Real.log (t + 273.15)) (fun t => -S t) (enthalpy mat) a b where
  temp T u h1 _ h3 _ := log_tangent (by linarith) (by linarith)
  enth T u h1 h2 h3 h4 := by
    have := entropy_tangent ha hS ⟨h1, h2⟩ ⟨h3, h4⟩
    linarith

/-- **C174**, partial (entropy in steady states, as many channels on both sides): in a steady state the entropy of the water
that leaves the exchanger is no less than that of the water that enters it and of what is conducted through its ports. -/
theorem C174_entropy_partial {S : ℝ → ℝ} (ha : -273.15 < a) (hS : IsEntropy mat S a b) (hph : Physical mat g s)
    (hw : Within g s a b) (hst : Steady mat g s) (he : g.chSup = g.chDmd) :
    |s.dm 0| * S (inletT s 0) + |s.dm 1| * S (inletT s 1)
        + g.chSup * (conducted (fun t => Real.log (t + 273.15)) mat g s 0
          + conducted (fun t => Real.log (t + 273.15)) mat g s 1) ≤
      |s.dm 0| * S (outletT g s 0) + |s.dm 1| * S (outletT g s 1) := by
  have h := C174_steady_partial hph hw (entropy_tangents ha hS) hst he
  have e : ∀ c, conducted (fun t => -Real.log (t + 273.15)) mat g s c =
      -conducted (fun t => Real.log (t + 273.15)) mat g s c := by
    intro c
    unfold conducted
    ring
  rw [e, e] at h
  unfold left at h
  nlinarith [h]

/-- Water between 0 and 100 degC has an entropy. -/
theorem water_entropy : ∃ S, IsEntropy Water.water S 0 100 := by
  have hc : ContinuousOn (fun t : ℝ => Water.dEnth t / (t + 273.15)) (Set.Ioi (-273.15)) := by
    refine ContinuousOn.div ?_ (by fun_prop) fun t ht => ?_
    · unfold Water.dEnth
      fun_prop
    · have : -273.15 < t := ht
      linarith
  refine ⟨fun t => ∫ x in (0 : ℝ)..t, Water.dEnth x / (x + 273.15), fun t ht => ⟨Water.dEnth t, ?_, Water.hasDerivAt_enth t, ?_⟩⟩
  · exact (by norm_num : (0 : ℝ) ≤ 4167).trans (Water.dEnth_ge ht.1 ht.2)
  · refine intervalIntegral.integral_hasDerivAt_right ?_ ?_ ?_
    · refine (hc.mono ?_).intervalIntegrable
      intro x hx
      rw [Set.uIcc_of_le ht.1] at hx
      show (-273.15 : ℝ) < x
      linarith [hx.1]
    · exact hc.stronglyMeasurableAtFilter isOpen_Ioi _ (show (-273.15 : ℝ) < t by linarith [ht.1])
    · exact hc.continuousAt (Ioi_mem_nhds (show (-273.15 : ℝ) < t by linarith [ht.1]))

/-! ## Steps -/

/-- Everything that the cells of one channel of each side and the wall between them have of `φ` of their temperatures. -/
noncomputable def store (φ : ℝ → ℝ) (M : ℝ) (g : Geo ℝ) (x : ℕ → ℕ → ℝ) : ℝ :=
  ∑ k ∈ range g.n, (M * φ (x k 0) + g.mcpWll * φ (x k 1) + M * φ (x k 2))

theorem mix_fluid (hph : Physical mat g s) (hw : Within g s a b) (hc0 : 0 ≤ c) {k i : ℕ} (hk : k < g.n) (hi : i < 2) :
    Mix φ a b (T s k (2 * i)) (fluidLoad mat g s c k i) (fluidPull mat g s id (fun t => c * t) k i)
      (fluidPull mat g s φ (fun t => c * φ t) k i) := by
  have hd := divisor_pos hph i
  have hz := Mix.zero φ a b (T s k (2 * i))
  have one : ∀ w u : ℝ, 0 ≤ w → a ≤ u ∧ u ≤ b → Mix φ a b (T s k (2 * i)) w (w * (u - T s k (2 * i)))
      (w * (φ u - φ (T s k (2 * i)))) := fun w u h1 h2 => Mix.one h1 h2
  have adv : ∀ w u : ℝ, 0 ≤ w → a ≤ u ∧ u ≤ b → Mix φ a b (T s k (2 * i)) (c * w)
      (w * (c * u - c * T s k (2 * i))) (w * (c * φ u - c * φ (T s k (2 * i)))) := by
    intro w u h1 h2
    have := one (c * w) u (mul_nonneg hc0 h1) h2
    rw [show w * (c * u - c * T s k (2 * i)) = c * w * (u - T s k (2 * i)) by ring,
      show w * (c * φ u - c * φ (T s k (2 * i))) = c * w * (φ u - φ (T s k (2 * i))) by ring]
    exact this
  have zero : ∀ w x y : ℝ, w = 0 → Mix φ a b (T s k (2 * i)) w (w * x) (w * y) := by
    intro w x y e
    rw [e, zero_mul, zero_mul]
    exact hz
  have zero' : ∀ w x y : ℝ, w = 0 → Mix φ a b (T s k (2 * i)) (c * w) (w * x) (w * y) := by
    intro w x y e
    rw [e, zero_mul, zero_mul, mul_zero]
    exact hz
  have iteq : ∀ (q : Prop) [Decidable q] (w x y : ℝ), Mix φ a b (T s k (2 * i)) w x y →
      Mix φ a b (T s k (2 * i)) (if q then w else 0) (if q then x else 0) (if q then y else 0) := by
    intro q _ w x y e
    split_ifs
    exacts [e, hz]
  have hb : k + 1 < g.n ∨ k + 1 = g.n := by omega
  have hload : fluidLoad mat g s c k i = ua1 mat g s k (2 * i) + ua1 mat g s (k + 1) (2 * i) + ua2 g s k (i + 1)
        + (if k = 0 then uaPort mat g s (2 * i) else 0) + (if k + 1 = g.n then uaPort mat g s (2 * i + 1) else 0)
        + c * (dmTop s i k / divisor g i) + c * (dmBot g s i k / divisor g i)
        + (if k = 0 then c * (dmPort s (2 * i) / divisor g i) else 0)
        + (if k + 1 = g.n then c * (dmPort s (2 * i + 1) / divisor g i) else 0) := by
    have := inflow_eq g s hi hph.n hk
    rw [ports_at g (dmPort s) hi hph.n hk] at this
    unfold fluidLoad
    rw [← this]
    split_ifs <;> ring
  rw [hload]
  unfold fluidPull
  simp only [id]
  refine (((((((Mix.add ?_ ?_).add ?_).add ?_).add ?_).add ?_).add ?_).add ?_).add ?_
  · rcases Nat.eq_zero_or_pos k with e | e
    · exact zero _ _ _ (by simp [ua1, e])
    · exact one _ _ (hph.ua1_nonneg hk.le (by omega)) (above hw hk e (by omega))
  · rcases hb with e | e
    · exact one _ _ (hph.ua1_nonneg e.le (by omega)) (below hw e (by omega))
    · exact zero _ _ _ (by simp [ua1, e])
  · exact one _ _ (hph.ua2_pos hk hi).le (hw.cells k hk 1 (by omega))
  · exact iteq _ _ _ _ (one _ _ (hph.port _ (by omega)) (hw.ports _ (by omega)))
  · exact iteq _ _ _ _ (one _ _ (hph.port _ (by omega)) (hw.ports _ (by omega)))
  · rcases Nat.eq_zero_or_pos k with e | e
    · exact zero' _ _ _ (by simp [dmTop, e])
    · exact adv _ _ (div_nonneg (dmTop_nonneg s i k) hd.le) (above hw hk e (by omega))
  · rcases hb with e | e
    · exact adv _ _ (div_nonneg (dmBot_nonneg g s i k) hd.le) (below hw e (by omega))
    · exact zero' _ _ _ (by simp [dmBot, e])
  · exact iteq _ _ _ _ (adv _ _ (div_nonneg (dmPort_nonneg s _) hd.le) (hw.ports _ (by omega)))
  · exact iteq _ _ _ _ (adv _ _ (div_nonneg (dmPort_nonneg s _) hd.le) (hw.ports _ (by omega)))

theorem mix_wall (hph : Physical mat g s) (hw : Within g s a b) {k : ℕ} (hk : k < g.n) :
    Mix φ a b (T s k 1) (wallLoad mat g s k) (wallPull mat g s id k) (wallPull mat g s φ k) := by
  have one : ∀ w u : ℝ, 0 ≤ w → a ≤ u ∧ u ≤ b → Mix φ a b (T s k 1) w (w * (u - T s k 1))
      (w * (φ u - φ (T s k 1))) := fun w u h1 h2 => Mix.one h1 h2
  have zero : ∀ w x y : ℝ, w = 0 → Mix φ a b (T s k 1) w (w * x) (w * y) := by
    intro w x y e
    rw [e, zero_mul, zero_mul]
    exact Mix.zero φ a b _
  have hb : k + 1 < g.n ∨ k + 1 = g.n := by omega
  unfold wallLoad wallPull
  simp only [id]
  refine ((Mix.add ?_ ?_).add ?_).add ?_
  · rcases Nat.eq_zero_or_pos k with e | e
    · exact zero _ _ _ (by simp [ua1, e])
    · exact one _ _ (hph.ua1_nonneg hk.le (by omega)) (above hw hk e (j := 1) (by omega))
  · rcases hb with e | e
    · exact one _ _ (hph.ua1_nonneg e.le (by omega)) (below hw e (j := 1) (by omega))
    · exact zero _ _ _ (by simp [ua1, e])
  · exact one _ _ (hph.ua2_pos hk (c := 0) (by omega)).le (hw.cells k hk 0 (by omega))
  · exact one _ _ (hph.ua2_pos hk (c := 1) (by omega)).le (hw.cells k hk 2 (by omega))

/-- **C174**, partial (explicit steps, one channel of each side): with constant heat capacities, and a step no longer than
the heat capacity of each cell divided by everything connected to it, one channel of each side and the wall between them
have after the step at most what they had of a convex function of the temperature, plus what the water leaves behind and
what is conducted through the ports. -/
theorem C174_step_partial (hφ : ConvexOn ℝ (Set.Icc a b) φ) (hph : Physical mat g s) (hw : Within g s a b)
    (hc : ∀ t, mat.cp t = c) (hM : ∀ k < g.n, ∀ i < 2, g.vCell * (mat.rho (T s k (2 * i)) * mat.cp (T s k (2 * i))) = M)
    (hh : 0 ≤ h) (hfl : ∀ k < g.n, ∀ i < 2, h * fluidLoad mat g s c k i ≤ M)
    (hwl : ∀ k < g.n, h * wallLoad mat g s k ≤ g.mcpWll) :
    store φ M g (eulerStep mat g s h) ≤ store φ M g (T s) + h * (left (fun t => c * φ t) g s 0 / g.chSup
      + left (fun t => c * φ t) g s 1 / g.chDmd + conducted φ mat g s 0 + conducted φ mat g s 1) := by
  have e := sum_pulls mat g s φ (fun t => c * φ t) hph.n
  have d0 : divisor g 0 = g.chSup := by simp [divisor]
  have d1 : divisor g 1 = g.chDmd := by simp [divisor]
  rw [d0, d1] at e
  rw [← e, mul_sum]
  unfold store
  rw [← sum_add_distrib]
  refine sum_le_sum fun k hk => ?_
  have hk := mem_range.1 hk
  have hH : enthalpy mat = fun t => c * t := by
    funext t
    simp [enthalpy, hc]
  have hc0 : 0 ≤ c := by
    have := hph.cp k hk 0 (by omega)
    rw [hc] at this
    exact this.le
  have fl : ∀ i < 2, M * φ (eulerStep mat g s h k (2 * i)) ≤
      M * φ (T s k (2 * i)) + h * fluidPull mat g s φ (fun t => c * φ t) k i := by
    intro i hi
    have hm : mcp mat g s k (2 * i) = M := by
      rw [← hM k hk i hi, mcp, if_neg (by omega)]
    have hM0 : 0 < M := hm ▸ hph.mcp_pos hk (j := 2 * i) (by omega)
    have r := fluid_rate mat g s hi hph.n hk (hm ▸ hM0.ne')
    rw [hm, hH] at r
    have r' : dT mat g s k (2 * i) = fluidPull mat g s id (fun t => c * t) k i / M := by
      rw [eq_div_iff hM0.ne', mul_comm]; exact r
    have := (mix_fluid (φ := φ) hph hw hc0 hk hi).step hφ (hw.cells k hk _ (by omega)) hh hM0 (hfl k hk i hi)
    rw [eulerStep, r']
    calc _ ≤ M * (φ (T s k (2 * i)) + h * (fluidPull mat g s φ (fun t => c * φ t) k i / M)) :=
          mul_le_mul_of_nonneg_left this hM0.le
      _ = _ := by field_simp
  have wl : g.mcpWll * φ (eulerStep mat g s h k 1) ≤ g.mcpWll * φ (T s k 1) + h * wallPull mat g s φ k := by
    have r := wall_rate mat g s hph.n k hph.mcpWll.ne'
    have r' : dT mat g s k 1 = wallPull mat g s id k / g.mcpWll := by
      rw [eq_div_iff hph.mcpWll.ne', mul_comm]; exact r
    have := (mix_wall (φ := φ) hph hw hk).step hφ (hw.cells k hk _ (by omega)) hh hph.mcpWll (hwl k hk)
    rw [eulerStep, r']
    have hne := hph.mcpWll.ne'
    calc _ ≤ g.mcpWll * (φ (T s k 1) + h * (wallPull mat g s φ k / g.mcpWll)) :=
          mul_le_mul_of_nonneg_left this hph.mcpWll.le
      _ = _ := by field_simp
  have f0 := fl 0 (by omega)
  have f1 := fl 1 (by omega)
  simp only [mul_zero, mul_one] at f0 f1
  linarith

/-- Temperatures after a step of the solver (`simenv.py:3952-3966, 4101-4116`, see `Model/Attempt.lean`), from the
temperatures and rates `s` at its beginning and the rates `s'` after its predictor. -/
noncomputable def heunStep (mat : Mat ℝ) (g : Geo ℝ) (s s' : Inp ℝ) (h : ℝ) (k j : ℕ) : ℝ :=
  T s k j + h / 2 * (dT mat g s k j + dT mat g s' k j)

/-- What enters a channel of each side, with its water and through its ports. -/
noncomputable def entering (φ : ℝ → ℝ) (c : ℝ) (mat : Mat ℝ) (g : Geo ℝ) (s : Inp ℝ) : ℝ :=
  left (fun t => c * φ t) g s 0 / g.chSup + left (fun t => c * φ t) g s 1 / g.chDmd + conducted φ mat g s 0 +
    conducted φ mat g s 1

/-- The conditions for an explicit step of an exchanger with constant heat capacities. -/
structure Gentle (mat : Mat ℝ) (g : Geo ℝ) (c M h : ℝ) (s : Inp ℝ) : Prop where
  physical : Physical mat g s
  capacity : ∀ k < g.n, ∀ i < 2, g.vCell * (mat.rho (T s k (2 * i)) * mat.cp (T s k (2 * i))) = M
  fluid : ∀ k < g.n, ∀ i < 2, h * fluidLoad mat g s c k i ≤ M
  wall : ∀ k < g.n, h * wallLoad mat g s k ≤ g.mcpWll

theorem gentle_range (hc : ∀ t, mat.cp t = c) (hs : Gentle mat g c M h s) (hw : Within g s a b) (hh : 0 ≤ h) :
    ∀ k < g.n, ∀ j < 3, a ≤ eulerStep mat g s h k j ∧ eulerStep mat g s h k j ≤ b := by
  have hc0 : 0 ≤ c := by
    have := hs.physical.cp 0 hs.physical.n 0 (by omega)
    rw [hc] at this
    exact this.le
  refine C88_no_new_extreme_partial mat g s hs.physical hw (L := c) ?_ hc0 hh (fun k hk i hi => ?_) hs.wall
  · intro u v _ huv _
    simp only [enthalpy, hc]
    constructor <;> nlinarith
  · rw [mcp, if_neg (by omega), hs.capacity k hk i hi]
    exact hs.fluid k hk i hi

/-- **C174**, partial (steps of the solver, one channel of each side): after a step of the solver all temperatures are in the
range in which they were, and one channel of each side and the wall between them have at most what they had of a convex
function of the temperature, plus what the water leaves behind and what is conducted through the ports, at the rates at the
beginning of the step and after its predictor; flows, port temperatures and heat transfer coefficients may have changed in
between.  Missing as in `C174_step_partial`. -/
theorem C174_solver_step_partial {s' : Inp ℝ} (hφ : ConvexOn ℝ (Set.Icc a b) φ) (hc : ∀ t, mat.cp t = c) (hh : 0 ≤ h)
    (hs : Gentle mat g c M h s) (hw : Within g s a b) (hs' : Gentle mat g c M h s')
    (hT : ∀ k < g.n, ∀ j < 3, T s' k j = eulerStep mat g s h k j)
    (hp' : ∀ i < 4, a ≤ (s'.port i).T ∧ (s'.port i).T ≤ b) :
    (∀ k < g.n, ∀ j < 3, a ≤ heunStep mat g s s' h k j ∧ heunStep mat g s s' h k j ≤ b) ∧
      store φ M g (heunStep mat g s s' h) ≤
        store φ M g (T s) + h / 2 * (entering φ c mat g s + entering φ c mat g s') := by
  have r1 := gentle_range hc hs hw hh
  have hw' : Within g s' a b := ⟨fun k hk j hj => hT k hk j hj ▸ r1 k hk j hj, hp'⟩
  have r2 := gentle_range hc hs' hw' hh
  have mean : ∀ k < g.n, ∀ j < 3,
      heunStep mat g s s' h k j = (1 / 2 : ℝ) • T s k j + (1 / 2 : ℝ) • eulerStep mat g s' h k j := by
    intro k hk j hj
    have := hT k hk j hj
    simp only [heunStep, eulerStep, smul_eq_mul] at this ⊢
    rw [this]; ring
  have e1 := C174_step_partial hφ hs.physical hw hc hs.capacity hh hs.fluid hs.wall
  have e2 := C174_step_partial hφ hs'.physical hw' hc hs'.capacity hh hs'.fluid hs'.wall
  have e3 : store φ M g (T s') = store φ M g (eulerStep mat g s h) := by
    refine sum_congr rfl fun k hk => ?_
    have hk := mem_range.mp hk
    rw [hT k hk 0 (by omega), hT k hk 1 (by omega), hT k hk 2 (by omega)]
  constructor
  · intro k hk j hj
    have x1 := hw.cells k hk j hj
    have x2 := r2 k hk j hj
    rw [mean k hk j hj]
    simp only [smul_eq_mul]
    constructor <;> linarith
  · have : store φ M g (heunStep mat g s s' h) ≤
        1 / 2 * store φ M g (T s) + 1 / 2 * store φ M g (eulerStep mat g s' h) := by
      unfold store
      rw [mul_sum, mul_sum, ← sum_add_distrib]
      refine sum_le_sum fun k hk => ?_
      have hk := mem_range.mp hk
      have hM0 : 0 ≤ M := by
        rw [← hs.capacity k hk 0 (by omega)]
        have := hs.physical.mcp_pos hk (j := 2 * 0) (by omega)
        rw [mcp, if_neg (by omega)] at this
        exact this.le
      have one : ∀ j < 3, φ (heunStep mat g s s' h k j) ≤
          1 / 2 * φ (T s k j) + 1 / 2 * φ (eulerStep mat g s' h k j) := by
        intro j hj
        rw [mean k hk j hj]
        exact hφ.2 (hw.cells k hk j hj) (r2 k hk j hj) (by norm_num) (by norm_num) (by norm_num)
      have m0 := mul_le_mul_of_nonneg_left (one 0 (by omega)) hM0
      have m1 := mul_le_mul_of_nonneg_left (one 1 (by omega)) hs.physical.mcpWll.le
      have m2 := mul_le_mul_of_nonneg_left (one 2 (by omega)) hM0
      linarith
    rw [e3] at e2
    unfold entering
    linarith

/-! ## Witnesses -/

/-- A fluid with constant properties. -/
noncomputable def reMat : Mat ℝ := ⟨fun _ => 1, fun _ => 1, fun _ => 1⟩
/-- An exchanger with one row of cells and `n` supply channels per demand channel. -/
noncomputable def reGeo (n : ℝ) : Geo ℝ := ⟨1, n, 1, 1, 1, 1, 2, 2, 1, 1, 1, 1⟩
/-- Water of 10 degC enters the supply side, water of 0 degC the demand side; ports without conduction. -/
noncomputable def reInp (n : ℝ) : Inp ℝ :=
  ⟨fun _ j => if j = 1 then 15 / 2 else if j = 2 then 5 else if j = 3 then 5 / 2 else 0,
    fun c => if c = 0 then n else 1, fun _ _ => 1, fun i => if i < 2 then ⟨10, 0, 1, 0⟩ else ⟨0, 0, 1, 0⟩, fun _ => 1⟩

theorem re_ports (n : ℝ) {i : ℕ} (hi : i < 4) : uaPort reMat (reGeo n) (reInp n) i = 0 := by
  interval_cases i <;> norm_num [uaPort, reInp]

theorem re_physical {n : ℝ} (hn : 0 < n) : Physical reMat (reGeo n) (reInp n) := by
  constructor
  case port => exact fun i hi => (re_ports n hi).ge
  case chSup => exact hn
  all_goals norm_num [reMat, reGeo, reInp]

theorem re_within (n : ℝ) : Within (reGeo n) (reInp n) 0 10 := by
  constructor
  · intro k _ j hj
    interval_cases j <;> norm_num [T, reInp]
  · intro i hi
    interval_cases i <;> norm_num [reInp]

theorem re_steady {n : ℝ} (hn : 0 < n) : Steady reMat (reGeo n) (reInp n) := by
  intro k hk j hj
  have hk : k = 0 := by simp only [reGeo] at hk; omega
  subst hk
  have hne := hn.ne'
  have hn0 := hn.le
  interval_cases j <;>
    simp [dT, dTcond, dTadv, sum_range_succ, uaPort, portIdx, reMat, reGeo, reInp, ua1, ua2, mcp, ui, T, dmTop, dmBot, dmPort,
      divisor, side, hn0] <;> field_simp <;> norm_num

theorem re_entropy : IsEntropy reMat (fun t => Real.log (t + 273.15)) 0 10 := by
  intro t ht
  refine ⟨1, zero_le_one, ?_, ?_⟩
  · have : enthalpy reMat = id := by
      funext x
      simp [enthalpy, reMat]
    rw [this]
    exact hasDerivAt_id t
  · exact ((hasDerivAt_id t).add_const 273.15).log (by have := ht.1; simp only [id]; linarith)

example : (-273.15 : ℝ) < 0 ∧ IsEntropy reMat (fun t => Real.log (t + 273.15)) 0 10 ∧ Physical reMat (reGeo 1) (reInp 1) ∧
    Within (reGeo 1) (reInp 1) 0 10 ∧ Steady reMat (reGeo 1) (reInp 1) ∧ (reGeo 1).chSup = (reGeo 1).chDmd ∧
    Tangents (fun t => -(1 / (t + 273.15))) (fun t => -Real.log (t + 273.15)) (fun t => -Real.log (t + 273.15))
      (enthalpy reMat) 0 10 :=
  ⟨by norm_num, re_entropy, re_physical one_pos, re_within 1, re_steady one_pos, rfl,
    entropy_tangents (by norm_num) re_entropy⟩

/-- The step theorem applies to the same exchanger with a wall of any temperature, that is not only to steady states, and
to the square of the temperature. -/
example : ConvexOn ℝ (Set.Icc (0 : ℝ) 10) (fun t => t ^ 2) ∧ (∀ t, reMat.cp t = 1) ∧
    (∀ k < (reGeo 1).n, ∀ i < 2, (reGeo 1).vCell *
      (reMat.rho (T (reInp 1) k (2 * i)) * reMat.cp (T (reInp 1) k (2 * i))) = 1) ∧
    (∀ k < (reGeo 1).n, ∀ i < 2, (1 / 2 : ℝ) * fluidLoad reMat (reGeo 1) (reInp 1) 1 k i ≤ 1) ∧
    ∀ k < (reGeo 1).n, (1 / 2 : ℝ) * wallLoad reMat (reGeo 1) (reInp 1) k ≤ (reGeo 1).mcpWll := by
  refine ⟨?_, fun _ => rfl, ?_, ?_, ?_⟩
  · exact (convexOn_pow 2).subset (fun x hx => hx.1) (convex_Icc _ _)
  · intro k _ i _
    norm_num [reGeo, reMat]
  · intro k hk i hi
    have hk : k = 0 := by simp only [reGeo] at hk; omega
    subst hk
    interval_cases i <;>
      norm_num [fluidLoad, uaPort, ua1, ua2, reGeo, reInp, divisor]
  · intro k hk
    have hk : k = 0 := by simp only [reGeo] at hk; omega
    subst hk
    norm_num [wallLoad, ua1, ua2, reGeo, reInp]

/-- The same exchanger with any temperatures and any heat transfer coefficient up to one. -/
noncomputable def reAt (x : ℕ → ℕ → ℝ) (α : ℝ) : Inp ℝ := { reInp 1 with ext := x, alpha := fun _ _ => α }

theorem re_gentle (x : ℕ → ℕ → ℝ) {α : ℝ} (h0 : 0 < α) (h1 : α ≤ 1) : Gentle reMat (reGeo 1) 1 1 (1 / 2) (reAt x α) := by
  have hp : ∀ i < 4, uaPort reMat (reGeo 1) (reAt x α) i = 0 := by
    intro i hi
    interval_cases i <;> norm_num [uaPort, reAt, reInp]
  have hq : (2 : ℝ) / (α⁻¹ + 1) ≤ 1 := by
    rw [div_le_one (by positivity)]
    have := (one_le_inv₀ h0).mpr h1
    linarith
  constructor
  · constructor
    case port => exact fun i hi => (hp i hi).ge
    all_goals norm_num [reMat, reGeo, reAt, reInp]
    all_goals exact fun _ _ => h0
  · intro k _ i _
    norm_num [reGeo, reMat]
  · intro k hk i hi
    have hk : k = 0 := by simp only [reGeo] at hk; omega
    subst hk
    interval_cases i <;>
      norm_num [fluidLoad, uaPort, ua1, ua2, reGeo, reAt, reInp, divisor] <;> linarith
  · intro k hk
    have hk : k = 0 := by simp only [reGeo] at hk; omega
    subst hk
    norm_num [wallLoad, ua1, ua2, reGeo, reAt, reInp]
    linarith

/-- The theorem about steps of the solver applies to this exchanger with any temperatures between 0 and 10 degC at the
beginning, and heat transfer coefficients which are smaller after the predictor. -/
example (x : ℕ → ℕ → ℝ) (hx : ∀ k < 1, ∀ j < 3, 0 ≤ x (k + 1) (j + 1) ∧ x (k + 1) (j + 1) ≤ 10) :
    let s := reAt x 1
    let s' := reAt (fun k j => eulerStep reMat (reGeo 1) s (1 / 2) (k - 1) (j - 1)) (1 / 2)
    Gentle reMat (reGeo 1) 1 1 (1 / 2) s ∧ Within (reGeo 1) s 0 10 ∧ Gentle reMat (reGeo 1) 1 1 (1 / 2) s' ∧
      (∀ k < (reGeo 1).n, ∀ j < 3, T s' k j = eulerStep reMat (reGeo 1) s (1 / 2) k j) ∧
      ∀ i < 4, 0 ≤ (s'.port i).T ∧ (s'.port i).T ≤ 10 := by
  have hp : ∀ i < 4, (0 : ℝ) ≤ ((reInp 1).port i).T ∧ ((reInp 1).port i).T ≤ 10 := (re_within 1).ports
  exact ⟨re_gentle _ one_pos le_rfl, ⟨hx, hp⟩, re_gentle _ (by norm_num) (by norm_num), fun _ _ _ _ => rfl, hp⟩

/-- **C174** fails with one pass: a steady exchanger between 0 and 10 degC with two channels on the supply side and one on
the demand side, whose ports do not conduct, destroys entropy, since half of the heat is lost. -/
theorem C174_fails_one_pass :
    channels 4 1 .supply = some (2, 1) ∧
    ∃ (mat : Mat ℝ) (g : Geo ℝ) (s : Inp ℝ) (S : ℝ → ℝ), IsEntropy mat S 0 10 ∧ Physical mat g s ∧ Within g s 0 10 ∧
      Steady mat g s ∧ g.chSup = 2 ∧ g.chDmd = 1 ∧ (∀ i < 4, uaPort mat g s i = 0) ∧
      |s.dm 0| * S (outletT g s 0) + |s.dm 1| * S (outletT g s 1) <
        |s.dm 0| * S (inletT s 0) + |s.dm 1| * S (inletT s 1) := by
  refine ⟨by decide, reMat, reGeo 2, reInp 2, _, re_entropy, re_physical two_pos, re_within 2, re_steady two_pos, rfl, rfl,
    fun i hi => re_ports 2 hi, ?_⟩
  have h1 := log_tangent (T := 10) (u := 15 / 2) (by norm_num) (by norm_num)
  have h2 := log_tangent (T := 0) (u := 5 / 2) (by norm_num) (by norm_num)
  have e1 : inletT (reInp 2) 0 = 10 := by norm_num [inletT, reInp]
  have e2 : inletT (reInp 2) 1 = 0 := by norm_num [inletT, reInp]
  have e3 : outletT (reGeo 2) (reInp 2) 0 = 15 / 2 := by norm_num [outletT, reInp]
  have e4 : outletT (reGeo 2) (reInp 2) 1 = 5 / 2 := by norm_num [outletT, reInp]
  have e5 : (reInp 2).dm 0 = 2 := by norm_num [reInp]
  have e6 : (reInp 2).dm 1 = 1 := by norm_num [reInp]
  rw [e1, e2, e3, e4, e5, e6, abs_of_pos two_pos, abs_of_pos one_pos]
  norm_num at h1 h2 ⊢
  linarith

end Entropy

end Verif.HexNum
