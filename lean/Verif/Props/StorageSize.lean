import Verif.Props.PlanShape

/-!
# C203: what the size of the storage means for plans
-/

set_option linter.unusedSectionVars false

namespace Verif.Tariff

open Verif.ModelPred (beforeEmpty beforeFull heatDmd cumsum)

variable {K : Type*} [Field K] [LinearOrder K] [IsStrictOrderedRing K]

/-- Specification: the plans of `S` that a storage with the energy content `now` and the capacities `lo` and `hi` admits
(`tes_soc_min` and `tes_soc_max` as in `controllers.py:1791-1792`). -/
def Admitted (S : Set (List K)) (lo hi now q : K) (dmd : List K) (n : ℕ) : Set (List K) :=
  {x | x ∈ S ∧ Feasible (now - lo) (hi - now) q dmd n x}

/-- **C203**: a larger storage admits every plan that a smaller one admits. -/
theorem C203_admits {S : Set (List K)} {lo hi lo' hi' now q : K} {dmd : List K} {n : ℕ} (hlo : lo' ≤ lo) (hhi : hi ≤ hi') :
    Admitted S lo hi now q dmd n ⊆ Admitted S lo' hi' now q dmd n := by
  rintro x ⟨hx, hf⟩
  refine ⟨hx, fun k hk => ?_⟩
  obtain ⟨h1, h2⟩ := hf k hk
  unfold beforeEmpty beforeFull at *
  constructor <;> linarith

/-- **C203**: the best plan with a larger storage is not more expensive than the best plan with a smaller one, for all
prices, loads and sets of plans. -/
theorem C203_larger {S : Set (List K)} {c : Prices K} {bs ts x y : List K} {lo hi lo' hi' now q : K} {dmd : List K} {n : ℕ}
    (hlo : lo' ≤ lo) (hhi : hi ≤ hi') (hx : Optimal (Admitted S lo hi now q dmd n) c bs ts x)
    (hy : Optimal (Admitted S lo' hi' now q dmd n) c bs ts y) : (costPlan c bs ts y).1 ≤ (costPlan c bs ts x).1 :=
  hy.2 x (C203_admits hlo hhi hx.1)

/-- **C203**: an emergency, which raises the lower or reduces the upper capacity to the present content, never makes the
best plan cheaper. -/
theorem C203_emergency {S : Set (List K)} {c : Prices K} {bs ts x y : List K} {lo hi lo' hi' now q : K} {dmd : List K}
    {n : ℕ} (h : lo ≤ now ∧ lo' = now ∧ hi' = hi ∨ now ≤ hi ∧ hi' = now ∧ lo' = lo)
    (hx : Optimal (Admitted S lo hi now q dmd n) c bs ts x)
    (hy : Optimal (Admitted S lo' hi' now q dmd n) c bs ts y) : (costPlan c bs ts x).1 ≤ (costPlan c bs ts y).1 := by
  rcases h with ⟨h1, rfl, rfl⟩ | ⟨h1, rfl, rfl⟩
  · exact C203_larger h1 le_rfl hy hx
  · exact C203_larger le_rfl h1 hy hx

/-- **C203**: two admitted plans never differ by more heat produced up to the same step than the storage holds between
its two capacities. -/
theorem C203_freedom {S : Set (List K)} {lo hi now q : K} {dmd : List K} {n : ℕ} {x y : List K}
    (hx : x ∈ Admitted S lo hi now q dmd n) (hy : y ∈ Admitted S lo hi now q dmd n) {k : ℕ} (hk : k < x.length)
    (hk' : k < y.length) : |(x.take (k + 1)).sum * q - (y.take (k + 1)).sum * q| ≤ hi - lo := by
  have e : ∀ z : List K, cumsum (z.map (· * q)) k = (z.take (k + 1)).sum * q := by
    intro z
    unfold cumsum
    rw [← List.map_take, List.sum_map_mul_right]
    simp
  obtain ⟨a1, a2⟩ := hx.2 k hk
  obtain ⟨b1, b2⟩ := hy.2 k hk'
  unfold beforeEmpty beforeFull at *
  rw [e] at a1 a2 b1 b2
  rw [abs_le]
  constructor <;> linarith

/-- **C203**: without storage (equal capacities) there is at most one plan of each length. -/
theorem C203_no_storage {S : Set (List K)} {cap now q : K} (hq : q ≠ 0) {dmd : List K} {n : ℕ} {x y : List K}
    (hx : x ∈ Admitted S cap cap now q dmd n) (hy : y ∈ Admitted S cap cap now q dmd n) (hl : x.length = y.length) :
    x = y := by
  have h : ∀ k ≤ x.length, (x.take k).sum = (y.take k).sum := by
    intro k hk
    obtain _ | k := k
    · simp
    have := C203_freedom hx hy (k := k) (by omega) (by omega)
    rw [sub_self, abs_nonpos_iff, ← sub_mul, mul_eq_zero] at this
    rcases this with h | h
    · exact sub_eq_zero.1 h
    · exact absurd h hq
  refine List.ext_getElem hl fun k h1 h2 => ?_
  have a := h k h1.le
  have b := h (k + 1) h1
  rw [List.take_add_one, List.take_add_one, List.sum_append, List.sum_append, a, List.getElem?_eq_getElem h1,
    List.getElem?_eq_getElem h2] at b
  simpa using b

/-- Two steps with 5 kWh of heat per step at full power and a demand of 5 kWh in the second one (C77: the demand of the first
step is not counted): a storage from 0 to 5 kWh admits running in either step, one from 0 to 0 only in the second one. -/
example : [1, 0] ∈ Admitted Set.univ (0 : ℚ) 5 0 5 [0, 5] 0 ∧ [0, 1] ∈ Admitted Set.univ (0 : ℚ) 5 0 5 [0, 5] 0 ∧
    [0, 1] ∈ Admitted Set.univ (0 : ℚ) 0 0 5 [0, 5] 0 ∧ [1, 0] ∉ Admitted Set.univ (0 : ℚ) 0 0 5 [0, 5] 0 := by
  refine ⟨⟨trivial, ?_⟩, ⟨trivial, ?_⟩, ⟨trivial, ?_⟩, fun h => ?_⟩
  · unfold Feasible; decide +kernel
  · unfold Feasible; decide +kernel
  · unfold Feasible; decide +kernel
  · exact absurd (h.2 0 (by decide)).2 (by decide +kernel)

/-- With the larger storage the plant runs in the cheap first step: here the tenants need the electricity in that step. -/
example :
    Optimal (Admitted ({[1, 0], [0, 1]} : Set (List ℚ)) 0 5 0 5 [0, 5] 0) examplePrices [0, 0] [100, 0] [1, 0] ∧
    Optimal (Admitted ({[1, 0], [0, 1]} : Set (List ℚ)) 0 0 0 5 [0, 5] 0) examplePrices [0, 0] [100, 0] [0, 1] := by
  refine ⟨⟨⟨by simp, by unfold Feasible; decide +kernel⟩, ?_⟩, ⟨⟨by simp, by unfold Feasible; decide +kernel⟩, ?_⟩⟩
  · rintro y ⟨hy, -⟩
    rcases hy with rfl | rfl <;> decide +kernel
  · rintro y ⟨hy, hf⟩
    rcases hy with rfl | rfl
    · exact absurd (hf 0 (by decide)).2 (by decide +kernel)
    · decide +kernel

end Verif.Tariff
