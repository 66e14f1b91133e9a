import Verif.Props.Meters

/-!
# C212: the meters of branches and sections add up
-/

set_option linter.unusedSectionVars false

namespace Verif.Meters

variable {K : Type*} [Field K] [LinearOrder K] [IsStrictOrderedRing K]

/-- Specification: two branches between the same temperatures. -/
structure Fork (K : Type*) where
  Tff : K
  Trf : K
  a : K
  b : K

/-- Specification: what meters in the first branch, in the second branch and in the common line see. -/
def Fork.first (f : Fork K) : Row K := ⟨f.Tff, f.Trf, f.a⟩
def Fork.second (f : Fork K) : Row K := ⟨f.Tff, f.Trf, f.b⟩
def Fork.common (f : Fork K) : Row K := ⟨f.Tff, f.Trf, f.a + f.b⟩

/-- Specification: two sections of a line with the same flow. -/
structure Line (K : Type*) where
  T1 : K
  T2 : K
  T3 : K
  dm : K

/-- Specification: what meters for the first section, for the second section and for the whole line see. -/
def Line.first (f : Line K) : Row K := ⟨f.T1, f.T2, f.dm⟩
def Line.second (f : Line K) : Row K := ⟨f.T2, f.T3, f.dm⟩
def Line.whole (f : Line K) : Row K := ⟨f.T1, f.T3, f.dm⟩

/-- Specification: element by element. -/
def plus (x y : List K) : List K := List.zipWith (· + ·) x y

theorem cumsumFrom_plus {α : Type*} {f g k : α → K → K} : ∀ (l : List α) (s : List K) (a b : K),
    (∀ x ∈ l, ∀ h, k x h = f x h + g x h) →
    cumsumFrom (a + b) (List.zipWith k l s) = plus (cumsumFrom a (List.zipWith f l s)) (cumsumFrom b (List.zipWith g l s))
  | [], s, a, b, _ => by simp [cumsumFrom, plus]
  | x :: l, [], a, b, _ => by simp [cumsumFrom, plus]
  | x :: l, h :: s, a, b, e => by
    have ih := cumsumFrom_plus l s (a + f x h) (b + g x h) fun y hy => e y (List.mem_cons_of_mem _ hy)
    simp only [List.zipWith_cons_cons, cumsumFrom, plus] at ih ⊢
    rw [e x (by simp) h, show a + b + (f x h + g x h) = a + f x h + (b + g x h) by ring, ih]

theorem cumsum_plus {α : Type*} {l : List α} {u v w : α → Row K} {s : List K} {f g k : Row K → K → K}
    (h : ∀ x ∈ l, ∀ d, k (w x) d = f (u x) d + g (v x) d) :
    cumsum (List.zipWith k (l.map w) s) = plus (cumsum (List.zipWith f (l.map u) s)) (cumsum (List.zipWith g (l.map v) s)) := by
  have := cumsumFrom_plus (f := fun x d => f (u x) d) (g := fun x d => g (v x) d) (k := fun x d => k (w x) d) l s 0 0 h
  rw [add_zero] at this
  unfold cumsum
  simpa [List.zipWith_map_left] using this

theorem map_plus (x y : List K) (c : K) : (plus x y).map (· / c) = plus (x.map (· / c)) (y.map (· / c)) := by
  unfold plus
  rw [List.map_zipWith, List.zipWith_map]
  simp only [add_div]

theorem heatflow_common (cp : K → K) (f : Fork K) : heatflow cp f.common = heatflow cp f.first + heatflow cp f.second := by
  unfold heatflow Fork.common Fork.first Fork.second
  ring

theorem clip_plus {x y : K} (h : 0 ≤ x ∧ 0 ≤ y ∨ x ≤ 0 ∧ y ≤ 0) : clip (x + y) = clip x + clip y := by
  unfold clip
  rcases h with ⟨h1, h2⟩ | ⟨h1, h2⟩ <;> split_ifs <;> linarith

/-- **C212** (branches): at every row, mass, volume, power and heat of the common line are the sums of those of the branches, whatever
the directions of the flows, the heat capacity and the density. -/
theorem C212_branches (cp rho : K → K) (l : List (Fork K)) (t : List K) :
    let m := heatMeter cp rho (l.map Fork.common) t
    let a := heatMeter cp rho (l.map Fork.first) t
    let b := heatMeter cp rho (l.map Fork.second) t
    m.mass = plus a.mass b.mass ∧ m.volume = plus a.volume b.volume ∧ m.power = plus a.power b.power ∧
      m.heatMJ = plus a.heatMJ b.heatMJ ∧ m.heatkWh = plus a.heatkWh b.heatkWh := by
  have heat : cumsum (List.zipWith (fun r h => heatflow cp r * h) (l.map Fork.common) (stepVec t)) =
      plus (cumsum (List.zipWith (fun r h => heatflow cp r * h) (l.map Fork.first) (stepVec t)))
        (cumsum (List.zipWith (fun r h => heatflow cp r * h) (l.map Fork.second) (stepVec t))) :=
    cumsum_plus fun x _ d => by rw [heatflow_common]; ring
  refine ⟨?_, ?_, ?_, ?_, ?_⟩
  · exact cumsum_plus fun x _ d => by simp only [Fork.common, Fork.first, Fork.second]; ring
  · exact cumsum_plus fun x _ d => by simp only [Fork.common, Fork.first, Fork.second]; ring
  · simp only [heatMeter, plus, List.map_map, List.zipWith_map, List.zipWith_self]
    exact List.map_congr_left fun x _ => heatflow_common cp x
  · simp only [heatMeter]
    rw [heat, map_plus]
  · simp only [heatMeter]
    rw [heat, map_plus, map_plus]

/-- **C212**, partial (positive-only counters): they add up, too, if the branches flow in the same direction in every row.  Missing:
branches that flow against each other (`C212_fails_opposite`). -/
theorem C212_positive_partial (cp rho : K → K) (hcp : ∀ T, 0 ≤ cp T) (l : List (Fork K)) (t : List K)
    (hl : ∀ f ∈ l, 0 ≤ f.a ∧ 0 ≤ f.b ∨ f.a ≤ 0 ∧ f.b ≤ 0) :
    let m := heatMeter cp rho (l.map Fork.common) t
    let a := heatMeter cp rho (l.map Fork.first) t
    let b := heatMeter cp rho (l.map Fork.second) t
    m.massPos = plus a.massPos b.massPos ∧ m.volumePos = plus a.volumePos b.volumePos ∧
      m.heatPosMJ = plus a.heatPosMJ b.heatPosMJ ∧ m.heatPoskWh = plus a.heatPoskWh b.heatPoskWh := by
  have key : ∀ f ∈ l, clip (heatflow cp f.common) = clip (heatflow cp f.first) + clip (heatflow cp f.second) := by
    intro f hf
    rw [heatflow_common]
    refine clip_plus ?_
    have hc : 0 ≤ cp f.Trf + cp f.Tff := add_nonneg (hcp _) (hcp _)
    have e : ∀ d : K, heatflow cp ⟨f.Tff, f.Trf, d⟩ = (f.Tff - f.Trf) * (cp f.Trf + cp f.Tff) / 2000 * d := by
      intro d
      unfold heatflow
      norm_num
      ring
    show 0 ≤ heatflow cp ⟨f.Tff, f.Trf, f.a⟩ ∧ 0 ≤ heatflow cp ⟨f.Tff, f.Trf, f.b⟩ ∨
      heatflow cp ⟨f.Tff, f.Trf, f.a⟩ ≤ 0 ∧ heatflow cp ⟨f.Tff, f.Trf, f.b⟩ ≤ 0
    rw [e, e]
    rcases le_total 0 ((f.Tff - f.Trf) * (cp f.Trf + cp f.Tff) / 2000) with q | q <;> rcases hl f hf with ⟨h1, h2⟩ | ⟨h1, h2⟩
    · exact .inl ⟨mul_nonneg q h1, mul_nonneg q h2⟩
    · exact .inr ⟨mul_nonpos_of_nonneg_of_nonpos q h1, mul_nonpos_of_nonneg_of_nonpos q h2⟩
    · exact .inr ⟨mul_nonpos_of_nonpos_of_nonneg q h1, mul_nonpos_of_nonpos_of_nonneg q h2⟩
    · exact .inl ⟨mul_nonneg_of_nonpos_of_nonpos q h1, mul_nonneg_of_nonpos_of_nonpos q h2⟩
  have heat : cumsum (List.zipWith (fun r h => clip (heatflow cp r) * h) (l.map Fork.common) (stepVec t)) =
      plus (cumsum (List.zipWith (fun r h => clip (heatflow cp r) * h) (l.map Fork.first) (stepVec t)))
        (cumsum (List.zipWith (fun r h => clip (heatflow cp r) * h) (l.map Fork.second) (stepVec t))) :=
    cumsum_plus fun x hx d => by rw [key x hx]; ring
  have dm : ∀ f ∈ l, clip f.common.dm = clip f.first.dm + clip f.second.dm := fun f hf => clip_plus (hl f hf)
  refine ⟨?_, ?_, ?_, ?_⟩
  · exact cumsum_plus fun x hx d => by rw [dm x hx]; ring
  · refine cumsum_plus fun x hx d => ?_
    rw [dm x hx]
    simp only [Fork.common, Fork.first, Fork.second]
    ring
  · simp only [heatMeter]
    rw [heat, map_plus]
  · simp only [heatMeter]
    rw [heat, map_plus, map_plus]

/-- **C212**, partial (sections): power and heat of a line are the sums of those of its sections if the heat capacity is constant or
changes linearly with the temperature.  Missing: other heat capacities (`C212_fails_sections`), since a meter multiplies by the mean at its two temperatures. -/
theorem C212_sections_partial (c d : K) (rho : K → K) (l : List (Line K)) (t : List K) :
    let m := heatMeter (fun T => c + d * T) rho (l.map Line.whole) t
    let a := heatMeter (fun T => c + d * T) rho (l.map Line.first) t
    let b := heatMeter (fun T => c + d * T) rho (l.map Line.second) t
    m.power = plus a.power b.power ∧ m.heatMJ = plus a.heatMJ b.heatMJ ∧ m.heatkWh = plus a.heatkWh b.heatkWh := by
  have key : ∀ f : Line K, heatflow (fun T => c + d * T) f.whole = heatflow (fun T => c + d * T) f.first + heatflow (fun T => c + d * T) f.second := by
    intro f
    unfold heatflow Line.whole Line.first Line.second
    ring
  have heat : cumsum (List.zipWith (fun r h => heatflow (fun T => c + d * T) r * h) (l.map Line.whole) (stepVec t)) =
      plus (cumsum (List.zipWith (fun r h => heatflow (fun T => c + d * T) r * h) (l.map Line.first) (stepVec t)))
        (cumsum (List.zipWith (fun r h => heatflow (fun T => c + d * T) r * h) (l.map Line.second) (stepVec t))) :=
    cumsum_plus fun x _ h => by rw [key]; ring
  refine ⟨?_, ?_, ?_⟩
  · simp only [heatMeter, plus, List.map_map, List.zipWith_map, List.zipWith_self]
    exact List.map_congr_left fun x _ => key x
  · simp only [heatMeter]
    rw [heat, map_plus]
  · simp only [heatMeter]
    rw [heat, map_plus, map_plus]

/-- Two rows with flows in the same direction, and what the meters show. -/
example : let l : List (Fork ℚ) := [⟨60, 40, 1, 2⟩, ⟨70, 40, 2, 3⟩]
    (∀ f ∈ l, 0 ≤ f.a ∧ 0 ≤ f.b ∨ f.a ≤ 0 ∧ f.b ≤ 0) ∧
    (heatMeter (fun _ => 4000) (fun _ => 1000) (l.map Fork.common) [0, 10]).mass = [30, 80] ∧
    (heatMeter (fun _ => 4000) (fun _ => 1000) (l.map Fork.first) [0, 10]).mass = [10, 30] ∧
    (heatMeter (fun _ => 4000) (fun _ => 1000) (l.map Fork.second) [0, 10]).mass = [20, 50] := by
  decide +kernel

/-- **C212** fails for positive-only counters when the branches flow against each other. -/
theorem C212_fails_opposite : let l : List (Fork ℚ) := [⟨60, 40, 1, -1⟩, ⟨60, 40, 1, -1⟩]
    (heatMeter (fun _ => 4000) (fun _ => 1000) (l.map Fork.common) [0, 10]).massPos = [0, 0] ∧
    plus (heatMeter (fun _ => 4000) (fun _ => 1000) (l.map Fork.first) [0, 10]).massPos
      (heatMeter (fun _ => 4000) (fun _ => 1000) (l.map Fork.second) [0, 10]).massPos = [10, 20] := by
  decide +kernel

/-- **C212** fails for sections if the heat capacity depends on the temperature other than linearly: here it is larger in the middle. -/
theorem C212_fails_sections : let l : List (Line ℚ) := [⟨60, 40, 20, 1⟩]
    let cp : ℚ → ℚ := fun T => if T = 40 then 5000 else 4000
    (heatMeter cp (fun _ => 1000) (l.map Line.whole) [0, 10]).power = [160] ∧
    plus (heatMeter cp (fun _ => 1000) (l.map Line.first) [0, 10]).power
      (heatMeter cp (fun _ => 1000) (l.map Line.second) [0, 10]).power = [180] := by
  decide +kernel

end Verif.Meters
