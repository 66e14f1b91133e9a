import Verif.Props.Mixing

/-!
# C191: joining streams in different orders
-/

set_option linter.unusedSectionVars false

namespace Verif.MixOrder

open Mixing

variable {K : Type*} [Field K] [LinearOrder K] [IsStrictOrderedRing K]

/-- The stream that leaves a connector into which two streams flow; `x` is the temperature behind the outlet. -/
def join (cp : K → K) (x : K) (s t : Stream K) : Stream K :=
  ⟨s.dm + t.dm, connector cp ![s.dm, t.dm, -(s.dm + t.dm)] ![s.T, t.T, x] 2⟩

theorem join_T (cp : K → K) (x : K) (s t : Stream K) (h1 : 0 < s.dm) (h2 : 0 < t.dm) :
    (join cp x s t).T = (s.enthalpy cp + t.enthalpy cp) / (cp ((s.T + t.T) / 2) * (s.dm + t.dm)) := by
  have := (connector_mix cp ![s.dm, t.dm, -(s.dm + t.dm)] ![s.T, t.T, x] (i := 0) (j := 1) (k := 2) (by decide)
    (by decide) (by decide) h1 h2 rfl).1
  unfold join
  rw [this]
  simp only [Matrix.cons_val, Stream.enthalpy]
  congr 1
  ring

/-- **C191** (two streams): it does not matter which of two streams enters which port, nor what is behind the
outlet. -/
theorem C191_commute (cp : K → K) (x y : K) (s t : Stream K) (h1 : 0 < s.dm) (h2 : 0 < t.dm) :
    (join cp x s t).T = (join cp y t s).T ∧ (join cp x s t).dm = (join cp y t s).dm := by
  refine ⟨?_, add_comm _ _⟩
  rw [join_T cp x s t h1 h2, join_T cp y t s h2 h1, add_comm (s.enthalpy cp), add_comm s.T, add_comm s.dm]

/-- **C191** (three streams), partial: with constant heat capacity it does not matter which two of three streams are joined
first: the temperature is always the mean temperature weighted with the flows.  Missing: with the heat capacity of water
it does matter (`C191_fails_water`), by at most what `C191_water_partial` says. -/
theorem C191_order_partial (cp : K → K) {k : K} (hk : 0 < k) (hcp : ∀ T, cp T = k) (x : K) (s t u : Stream K)
    (h1 : 0 < s.dm) (h2 : 0 < t.dm) (h3 : 0 < u.dm) :
    let T := (s.dm * s.T + t.dm * t.T + u.dm * u.T) / (s.dm + t.dm + u.dm)
    (join cp x (join cp x s t) u).T = T ∧ (join cp x s (join cp x t u)).T = T ∧
      (join cp x (join cp x s u) t).T = T := by
  have two : ∀ a b : Stream K, 0 < a.dm → 0 < b.dm → (join cp x a b).T * (a.dm + b.dm) = a.dm * a.T + b.dm * b.T := by
    intro a b ha hb
    rw [join_T cp x a b ha hb]
    simp only [Stream.enthalpy, hcp]
    have := add_pos ha hb
    field_simp
  have three : ∀ a b c : Stream K, 0 < a.dm → 0 < b.dm → 0 < c.dm →
      (join cp x (join cp x a b) c).T = (a.dm * a.T + b.dm * b.T + c.dm * c.T) / (a.dm + b.dm + c.dm) := by
    intro a b c ha hb hc
    have hp : 0 < a.dm + b.dm + c.dm := by linarith
    rw [eq_div_iff hp.ne']
    have e1 := two (join cp x a b) c (add_pos ha hb) hc
    have e2 := two a b ha hb
    change (join cp x (join cp x a b) c).T * (a.dm + b.dm + c.dm) = (a.dm + b.dm) * (join cp x a b).T + _ at e1
    rw [e1, ← e2]
    ring
  intro T
  refine ⟨three s t u h1 h2 h3, ?_, ?_⟩
  · rw [(C191_commute cp x x s (join cp x t u) h1 (add_pos h2 h3)).1, three t u s h2 h3 h1]
    simp only [T]
    congr 1 <;> ring
  · rw [three s u t h1 h3 h2]
    simp only [T]
    congr 1 <;> ring

/-- **C191** (three streams), partial (water): for temperatures between 0 and 97 degrees the enthalpy flow after joining three
streams in any order differs by at most 2.1 percent from the sum of the three. -/
theorem C191_water_partial (x : K) (s t u : Stream K) (h1 : 0 < s.dm) (h2 : 0 < t.dm) (h3 : 0 < u.dm)
    (t1 : 0 ≤ s.T ∧ s.T ≤ 97) (t2 : 0 ≤ t.T ∧ t.T ≤ 97) (t3 : 0 ≤ u.T ∧ u.T ≤ 97) :
    let E := s.enthalpy Water.cp + t.enthalpy Water.cp + u.enthalpy Water.cp
    |(join Water.cp x (join Water.cp x s t) u).enthalpy Water.cp - E| ≤ 21 / 1000 * E ∧
      |(join Water.cp x s (join Water.cp x t u)).enthalpy Water.cp - E| ≤ 21 / 1000 * E := by
  have pos : ∀ a : Stream K, 0 < a.dm → 0 ≤ a.T ∧ a.T ≤ 98 → 0 ≤ a.enthalpy Water.cp := by
    intro a ha hT
    have := Water.cp_ge hT.1 (by linarith [hT.2])
    exact mul_nonneg ha.le (mul_nonneg (by linarith) hT.1)
  have two : ∀ a b : Stream K, 0 < a.dm → 0 < b.dm → 0 ≤ a.T ∧ a.T ≤ 98 → 0 ≤ b.T ∧ b.T ≤ 98 →
      |(join Water.cp x a b).enthalpy Water.cp - (a.enthalpy Water.cp + b.enthalpy Water.cp)| ≤
        101 / 10000 * (a.enthalpy Water.cp + b.enthalpy Water.cp) := by
    intro a b ha hb hA hB
    exact (C30_enthalpy_error_partial a b ha hb hA hB x).1 0 1 2 (by decide) (by decide) (by decide)
      ![a.dm, b.dm, -(a.dm + b.dm)] ![a.T, b.T, x] rfl rfl rfl rfl rfl
  have range : ∀ a b : Stream K, 0 < a.dm → 0 < b.dm → 0 ≤ a.T ∧ a.T ≤ 97 → 0 ≤ b.T ∧ b.T ≤ 97 →
      0 ≤ (join Water.cp x a b).T ∧ (join Water.cp x a b).T ≤ 98 := by
    intro a b ha hb hA hB
    have := (C29_water_overshoot_partial a b ha hb ⟨hA.1, by linarith [hA.2]⟩ ⟨hB.1, by linarith [hB.2]⟩ x).1 0 1 2
      (by decide) (by decide) (by decide) ![a.dm, b.dm, -(a.dm + b.dm)] ![a.T, b.T, x] rfl rfl rfl rfl rfl
    refine ⟨le_trans ?_ this.1, this.2.trans ?_⟩
    · exact div_nonneg (le_min hA.1 hB.1) (by norm_num)
    · have : max a.T b.T ≤ 97 := max_le hA.2 hB.2
      norm_num
      linarith
  have three : ∀ a b c : Stream K, 0 < a.dm → 0 < b.dm → 0 < c.dm → 0 ≤ a.T ∧ a.T ≤ 97 → 0 ≤ b.T ∧ b.T ≤ 97 →
      0 ≤ c.T ∧ c.T ≤ 97 →
      |(join Water.cp x (join Water.cp x a b) c).enthalpy Water.cp -
          (a.enthalpy Water.cp + b.enthalpy Water.cp + c.enthalpy Water.cp)| ≤
        21 / 1000 * (a.enthalpy Water.cp + b.enthalpy Water.cp + c.enthalpy Water.cp) := by
    intro a b c ha hb hc hA hB hC
    have r := range a b ha hb hA hB
    have hA' : 0 ≤ a.T ∧ a.T ≤ 98 := ⟨hA.1, by linarith [hA.2]⟩
    have hB' : 0 ≤ b.T ∧ b.T ≤ 98 := ⟨hB.1, by linarith [hB.2]⟩
    have hC' : 0 ≤ c.T ∧ c.T ≤ 98 := ⟨hC.1, by linarith [hC.2]⟩
    have e1 := abs_le.1 (two a b ha hb hA' hB')
    have e2 := abs_le.1 (two (join Water.cp x a b) c (add_pos ha hb) hc r hC')
    have p1 := pos a ha hA'
    have p2 := pos b hb hB'
    have p3 := pos c hc hC'
    rw [abs_le]
    constructor <;> linarith [e1.1, e1.2, e2.1, e2.2]
  intro E
  refine ⟨three s t u h1 h2 h3 t1 t2 t3, ?_⟩
  have hc := C191_commute Water.cp x x s (join Water.cp x t u) h1 (add_pos h2 h3)
  have : (join Water.cp x s (join Water.cp x t u)).enthalpy Water.cp =
      (join Water.cp x (join Water.cp x t u) s).enthalpy Water.cp := by
    unfold Stream.enthalpy
    rw [hc.1, hc.2]
  rw [this, show E = t.enthalpy Water.cp + u.enthalpy Water.cp + s.enthalpy Water.cp by simp only [E]; ring]
  exact three t u s h2 h3 h1 t2 t3 t1

/-- **C191** is false of the code: 5 kg/s of 90 degrees, 10 g/s of 5 degrees and 1 kg/s of 10 degrees: if the last two
are joined first, the result is colder by more than 0.4 degrees. -/
theorem C191_fails_water :
    let s : Stream ℚ := ⟨5, 90⟩
    let t : Stream ℚ := ⟨1 / 100, 5⟩
    let u : Stream ℚ := ⟨1, 10⟩
    (join Water.cp 0 s (join Water.cp 0 t u)).T + 4 / 10 < (join Water.cp 0 (join Water.cp 0 s t) u).T := by
  decide +kernel

/-- Three streams of water. -/
example : (0 : ℚ) < 1 ∧ (0 : ℚ) < 2 ∧ (0 : ℚ) < 1 / 2 ∧ (0 : ℚ) ≤ 90 ∧ (90 : ℚ) ≤ 97 ∧
    (join (fun _ => (4200 : ℚ)) 0 (join (fun _ => 4200) 0 ⟨1, 90⟩ ⟨2, 30⟩) ⟨1, 10⟩).T = 40 := by decide +kernel

end Verif.MixOrder
