import Verif.Props.Meters

/-!
# C54: meters do not depend on the start of the clock and count backward flow with the opposite sign
-/

set_option linter.unusedSectionVars false

namespace Verif.Meters

variable {K : Type*} [Field K] [LinearOrder K] [IsStrictOrderedRing K]

theorem diffs_shift (c : K) : ∀ t : List K, diffs (t.map (· + c)) = diffs t
  | [] => rfl
  | [_] => rfl
  | a :: b :: t => by
    have ih := diffs_shift c (b :: t)
    simp only [List.map_cons, diffs] at ih ⊢
    rw [ih, add_sub_add_right_eq_sub]

/-- **C54** (clock): what a heat meter shows depends on the lengths of the steps only, not on when the clock was started. -/
theorem C54_clock (cp rho : K → K) (rows : List (Row K)) (t : List K) (c : K) :
    heatMeter cp rho rows (t.map (· + c)) = heatMeter cp rho rows t := by
  have h : stepVec (t.map (· + c)) = stepVec t := by
    unfold stepVec
    rw [diffs_shift]
  unfold heatMeter
  rw [h]

/-- Specification: the same water flowing backward. -/
def Row.back (r : Row K) : Row K := { r with dm := -r.dm }

theorem cumsumFrom_neg : ∀ (l : List K) (a : K), cumsumFrom (-a) (l.map (- ·)) = (cumsumFrom a l).map (- ·)
  | [], _ => rfl
  | x :: l, a => by
    have ih := cumsumFrom_neg l (a + x)
    simp only [List.map_cons, cumsumFrom]
    rw [show -a + -x = -(a + x) by ring, ih]

theorem cumsum_back {f g : Row K → K → K} (h : ∀ r d, g r.back d = -f r d) (rows : List (Row K)) (s : List K) :
    cumsum (List.zipWith g (rows.map Row.back) s) = (cumsum (List.zipWith f rows s)).map (- ·) := by
  have e : List.zipWith g (rows.map Row.back) s = (List.zipWith f rows s).map (- ·) := by
    rw [List.zipWith_map_left, List.map_zipWith]
    simp only [h]
  unfold cumsum
  rw [e, ← cumsumFrom_neg, neg_zero]

/-- **C54** (backward flow): if the water flows backward, mass, volume, power and heat are counted with the opposite sign. -/
theorem C54_backward (cp rho : K → K) (rows : List (Row K)) (t : List K) :
    let m := heatMeter cp rho rows t
    let b := heatMeter cp rho (rows.map Row.back) t
    b.mass = m.mass.map (- ·) ∧ b.volume = m.volume.map (- ·) ∧ b.power = m.power.map (- ·) ∧
      b.heatMJ = m.heatMJ.map (- ·) ∧ b.heatkWh = m.heatkWh.map (- ·) := by
  have hq : ∀ r : Row K, heatflow cp r.back = -heatflow cp r := fun r => by
    unfold heatflow Row.back
    ring
  have heat := cumsum_back (f := fun r h => heatflow cp r * h) (g := fun r h => heatflow cp r * h)
    (fun r d => by rw [hq]; ring) rows (stepVec t)
  have hd : ∀ (l : List K) (c : K), (l.map (- ·)).map (· / c) = (l.map (· / c)).map (- ·) := fun l c => by
    rw [List.map_map, List.map_map]
    exact List.map_congr_left fun x _ => neg_div c x
  refine ⟨?_, ?_, ?_, ?_, ?_⟩
  · exact cumsum_back (fun r d => by simp only [Row.back]; ring) rows _
  · exact cumsum_back (fun r d => by simp only [Row.back]; ring) rows _
  · simp only [heatMeter, List.map_map]
    exact List.map_congr_left fun r _ => hq r
  · simp only [heatMeter]
    rw [heat, hd]
  · simp only [heatMeter]
    rw [heat, hd, hd]

/-- Two steps of different length; the clock starts at 0 or at 100; forward or backward. -/
example : let r : List (Row ℚ) := [⟨60, 40, 1⟩, ⟨60, 40, 2⟩, ⟨60, 40, 0⟩]
    (heatMeter (fun _ => 4000) (fun _ => 1000) r [0, 10, 30]).mass = [10, 50, 50] ∧
    (heatMeter (fun _ => 4000) (fun _ => 1000) r [100, 110, 130]).mass = [10, 50, 50] ∧
    (heatMeter (fun _ => 4000) (fun _ => 1000) (r.map Row.back) [0, 10, 30]).mass = [-10, -50, -50] := by
  decide +kernel

end Verif.Meters
