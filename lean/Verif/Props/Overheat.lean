import Verif.Props.Arrival

/-!
# C192: a heater does not overheat the water
-/

set_option linter.unusedSectionVars false

namespace Verif.Overheat

open Finset Verif.Cells Verif.Flows Verif.Attempt
open Verif.Idle (Temps)
open Verif.Arrival (Kept call_part_kept simulate_snoc)

section Step

variable {K H N P : Type*} [Field K] [LinearOrder K] [IsStrictOrderedRing K]

/-- A heated pipe (`heatedDT`) as part of a plant: `limit` is the shutdown temperature; the heat and the way it is spread may
depend on what the part keeps (the control value) and on the ports. -/
def heated (v : Vessel K H P) (limit : K) (q : H → P → Heat K) (io : P → K) (pin pout : P → Port K) :
    Diff K (ℕ → K) H P := fun m p x h =>
  ⟨fun k => if k < v.g.n then (heatedDT v.mat v.g (v.inp m p x) limit (q m p) (io p) (pin p) (pout p)).1 k else 0,
    v.upd m p x, v.check m p x h⟩

/-- Specification: a heated pipe around which nothing is colder than `a` or hotter than `b`, and which within a step of the
length `h` can heat up each of its cells by at most `rise`.  The shutdown temperature is not above `b`, the step is no
longer than the heat capacity of each cell divided by everything connected to it. -/
structure Limited (v : Vessel K H P) (limit : K) (q : H → P → Heat K) (io : P → K) (pin pout : P → Port K)
    (Bp : P → Prop) (L a b rise h : K) : Prop where
  n : 2 ≤ v.g.n
  range : limit ≤ b ∧ 0 ≤ rise
  slope : EnthalpySlope v.mat a (b + rise) L ∧ 0 ≤ L
  temps : ∀ m p x, (v.inp m p x).T = x
  physical : ∀ m p x, Bp p → Between a (b + rise) x → Physical v.mat v.g (v.inp m p x) [pin p, pout p]
  around : ∀ m p x, Bp p → (a ≤ (v.inp m p x).Tamb ∧ (v.inp m p x).Tamb ≤ b) ∧ (a ≤ (pin p).T ∧ (pin p).T ≤ b) ∧
    (a ≤ (pout p).T ∧ (pout p).T ≤ b)
  place : ∀ p, (pin p).idx = 0 ∧ (pout p).idx = v.g.n - 1 ∧ (pin p).io = io p ∧ (pout p).io = -io p
  short : 0 ≤ h ∧ ∀ m p x, Bp p → Between a (b + rise) x → ∀ k < v.g.n,
    h * (totalConductance v.mat v.g (v.inp m p x) [pin p, pout p] k + L * |io p|) ≤ heatCapacity v.mat v.g (v.inp m p x) k
  power : ∀ m p x, Bp p → Between a (b + rise) x → ∀ k < v.g.n, 0 ≤ (q m p).dQ * (q m p).mult ∧
    h * ((q m p).dQ * (q m p).mult) ≤ rise * heatCapacity v.mat v.g (v.inp m p x) k

variable {v : Vessel K H P} {limit : K} {q : H → P → Heat K} {io : P → K} {pin pout : P → Port K} {Bp : P → Prop}
  {L a b rise h : K}

/-- **C192**, partial (explicit steps): a heated pipe stays below the shutdown temperature (or the hottest thing around it),
plus what it can heat up in one step.  Missing: not more than the shutdown temperature (`C192_fails_limit`); steps for which
only the stability check of the code is known (C24). -/
theorem C192_step_partial (hv : Limited v limit q io pin pout Bp L a b rise h) :
    ∀ m p x, Bp p → Between a (b + rise) x → Between a (b + rise) (x + h • (heated v limit q io pin pout m p x h).dT) := by
  intro m p x hp hx k
  have e : (x + h • (heated v limit q io pin pout m p x h).dT) k = x k + h * (if k < v.g.n then
      (heatedDT v.mat v.g (v.inp m p x) limit (q m p) (io p) (pin p) (pout p)).1 k else 0) := rfl
  rw [e]
  by_cases hk : k < v.g.n
  swap
  · rw [if_neg hk, mul_zero, add_zero]
    exact hx k
  rw [if_pos hk]
  obtain ⟨i1, i2, i3, i4⟩ := hv.place p
  obtain ⟨r1, r2⟩ := hv.range
  have hph := hv.physical m p x hp hx
  obtain ⟨am, pi, po⟩ := hv.around m p x hp
  have hcap := hph.cap k hk
  have hT := hv.temps m p x
  have hpw := hv.power m p x hp hx k hk
  unfold heatedDT shutdown
  simp only
  split_ifs with hoff
  · -- switched off
    have hw : Within v.g (v.inp m p x) [pin p, pout p] a (b + rise) := by
      refine ⟨fun k _ => by rw [hT]; exact hx k, ⟨am.1, by linarith [am.2]⟩, ?_⟩
      intro r hr
      simp only [List.mem_cons, List.not_mem_nil, or_false] at hr
      rcases hr with rfl | rfl
      · exact ⟨pi.1, by linarith [pi.2]⟩
      · exact ⟨po.1, by linarith [po.2]⟩
    have := C24_pipe_no_new_extreme_partial hv.n hph hw hv.slope.1 hv.slope.2 i1 i2 i3 i4 hv.short.1
      (hv.short.2 m p x hp hx) k hk
    rw [hT] at this
    have e0 : dTheat v.mat v.g (v.inp m p x) { q m p with dQ := 0 } k = 0 := by
      unfold dTheat; split_ifs <;> simp
    rw [e0, add_zero]
    exact this
  · -- all cells are below the shutdown temperature
    have hlow : ∀ j < v.g.n, x j < limit := by
      intro j hj
      by_contra hc
      refine hoff ⟨j + 1, by omega, ?_⟩
      unfold tExt
      rw [if_neg (by omega), if_neg (by omega), Nat.add_sub_cancel, hT]
      exact not_lt.1 hc
    have hw : Within v.g (v.inp m p x) [pin p, pout p] a b := by
      refine ⟨fun j hj => by rw [hT]; exact ⟨(hx j).1, (hlow j hj).le.trans r1⟩, am, ?_⟩
      intro r hr
      simp only [List.mem_cons, List.not_mem_nil, or_false] at hr
      rcases hr with rfl | rfl
      · exact pi
      · exact po
    have hsl : EnthalpySlope v.mat a b L := fun s t h1 h2 h3 => hv.slope.1 s t h1 h2 (by linarith)
    have := C24_pipe_no_new_extreme_partial hv.n hph hw hsl hv.slope.2 i1 i2 i3 i4 hv.short.1
      (hv.short.2 m p x hp hx) k hk
    rw [hT] at this
    have e0 : 0 ≤ h * dTheat v.mat v.g (v.inp m p x) { q m p with dQ := (q m p).dQ } k ∧
        h * dTheat v.mat v.g (v.inp m p x) { q m p with dQ := (q m p).dQ } k ≤ rise := by
      unfold dTheat
      split_ifs
      · rw [mcp_eq, ← mul_div_assoc]
        exact ⟨div_nonneg (mul_nonneg hv.short.1 hpw.1) hcap.le, by rw [div_le_iff₀ hcap]; exact hpw.2⟩
      · rw [mul_zero]
        exact ⟨le_rfl, r2⟩
    rw [mul_add]
    constructor <;> linarith [this.1, this.2, e0.1, e0.2]

end Step

variable {H N P : Type} {v : Vessel ℝ H P} {limit : ℝ} {q : H → P → Heat ℝ} {io : P → ℝ} {pin pout : P → Port ℝ}
  {Bp : P → Prop} {L a b rise : ℝ}

/-- **C192**, partial (simulations): over any number of accepted steps and rejected attempts, whatever the heater is asked for
and whatever the plant around it does, the water in a heated pipe does not become hotter than the shutdown
temperature (or the hottest thing around it) plus what one step can heat it up.  Missing as in `C192_step_partial`. -/
theorem C192_simulation_partial {sys : System ℝ (ℕ → ℝ) H N P} {i : ℕ}
    (hd : sys.diffs[i]? = some (heated v limit q io pin pout)) (hB : Kept sys Bp) (l : List (List ℝ × ℝ))
    (hv : ∀ e ∈ l, Limited v limit q io pin pout Bp L a b rise e.2)
    {s : State (ℕ → ℝ) H N P} (hs : Bp s.ports)
    (hst : ∀ (l₁ : List (List ℝ × ℝ)) e l₂, l = l₁ ++ e :: l₂ → (call sys (simulate sys s l₁) e.1 e.2).stable = true)
    {x : ℕ → ℝ} (hx : Temps s i x) (hab : Between a (b + rise) x) :
    ∃ y, Temps (simulate sys s l) i y ∧ ∀ k, a ≤ y k ∧ y k ≤ b + rise := by
  suffices hmain : Bp (simulate sys s l).ports ∧ ∃ y, Temps (simulate sys s l) i y ∧ Between a (b + rise) y from hmain.2
  induction l using List.reverseRecOn with
  | nil => exact ⟨hs, x, hx, hab⟩
  | append_singleton l e ih =>
    obtain ⟨hp, y, hy, hyb⟩ := ih (fun e he => hv e (List.mem_append_left _ he))
      (fun l₁ e' l₂ h => hst l₁ e' (l₂ ++ [e]) (by rw [h, List.append_assoc]; rfl))
    have hstab := hst l e [] rfl
    have hl := hv e (by simp)
    rw [simulate_snoc]
    obtain ⟨hp', m, p, m', p', b1, b2, hz⟩ := call_part_kept hB hp hd hy hstab
    refine ⟨hp', _, hz, ?_⟩
    have h1 := C192_step_partial hl m p y b1 hyb
    have h2 := C192_step_partial hl m' p' _ b2 h1
    have := between_mid _ _ hyb h2
    convert this using 1
    module

/-- A pipe of two cells with a heater of 20 W and shutdown at 100 degrees, 1/6 s, between 0 and 100 degrees. -/
def testHeater : Vessel ℝ Unit Unit where
  mat := constMat 1 1 1
  g := ⟨2, 1, 1, 1, 0, 0⟩
  inp _ _ x := { T := x, edgeTop := 0, edgeBot := 0, Tamb := 20, buoy := fun _ => 1, uaAmb := fun _ => 0, lidTop := 0, lidBot := 0 }
  ports _ := [⟨0, 20, 0, 1, 0, 1⟩, ⟨1, 20, 0, 1, 0, -1⟩]
  upd _ _ _ := ()
  check _ _ _ _ := true

example : Limited testHeater 100 (fun _ _ => Heat.all 2 20) (fun _ => 1) (fun _ => ⟨0, 20, 0, 1, 0, 1⟩)
    (fun _ => ⟨1, 20, 0, 1, 0, -1⟩) (fun _ => True) 1 0 100 2 (1 / 6) where
  n := le_rfl
  range := by norm_num
  slope := by
    refine ⟨fun s t _ h _ => ?_, zero_le_one⟩
    simp only [enthalpy, testHeater, constMat, one_mul]
    constructor <;> linarith
  temps _ _ _ := rfl
  physical m p x _ _ := by
    constructor <;> simp [testHeater, constMat, heatCapacity]
  around m p x _ := by norm_num [testHeater]
  place p := by simp [testHeater]
  short := by
    refine ⟨by norm_num, fun m p x _ _ k hk => ?_⟩
    have : k = 0 ∨ k = 1 := by simp only [testHeater] at hk; omega
    rcases this with rfl | rfl <;>
      norm_num [testHeater, constMat, totalConductance, faceConductance, portConductance, heatCapacity]
  power m p x _ _ k hk := by
    norm_num [testHeater, constMat, Heat.all, heatCapacity]

/-- **C192** is false of the code in its simple form: a heated pipe with shutdown at 100 degrees, which is nowhere hotter than
99 degrees, has 109 degrees after one step. -/
theorem C192_fails_limit :
    let T : ℚ := 99
    T + 1 * (heatedDT (constMat 1 1 1) ⟨2, 1, 1, 1, 0, 0⟩ { hotCell with T := fun _ => T } 100 (Heat.all 2 20) 0
      ⟨0, T, 0, 1, 0, 0⟩ ⟨1, T, 0, 1, 0, 0⟩).1 0 = 109 := by
  decide +kernel

end Verif.Overheat
