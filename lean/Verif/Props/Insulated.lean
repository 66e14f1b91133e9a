import Verif.Props.Compare

/-!
# C202: better insulated parts stay hotter
-/

set_option linter.unusedSectionVars false

namespace Verif.Cells

open Verif.Flows

variable {K : Type*} [Field K] [LinearOrder K] [IsStrictOrderedRing K]

/-- Specification: conductances of the shell and of the lids. -/
structure Insulation (K : Type*) where
  shell : ℕ → K
  top : K
  bot : K

/-- Specification: everything that connects cell `k` of `n` with the ambient. -/
def Insulation.at (u : Insulation K) (n k : ℕ) : K :=
  u.shell k + (if k = 0 then u.top else 0) + (if k + 1 = n then u.bot else 0)

/-- Specification: the same part with another insulation. -/
def Inp.insulate (s : Inp K) (u : Insulation K) : Inp K :=
  { s with uaAmb := u.shell, lidTop := u.top, lidBot := u.bot }

theorem dTcond_insulate (mat : Mat K) (g : Geo K) (s : Inp K) (u u' : Insulation K) (ports : List (Port K)) {k : ℕ}
    (hk : k < g.n) :
    dTcond mat g (s.insulate u') ports k = dTcond mat g (s.insulate u) ports k +
      (u'.at g.n k - u.at g.n k) * (s.Tamb - s.T k) / heatCapacity mat g s k := by
  have hT : tExt g s (k + 1) = s.T k := by
    unfold tExt
    rw [if_neg (by omega), if_neg (by omega)]
    rfl
  unfold dTcond
  rw [addAt_eq, addAt_eq]
  have e1 : ∀ (v : Insulation K) j, uaTb mat g (s.insulate v) j = uaTb mat g s j := fun _ _ => rfl
  have e2 : ∀ (v : Insulation K) j, tExt g (s.insulate v) j = tExt g s j := fun _ _ => rfl
  have e3 : ∀ (v : Insulation K) j, mcp mat g (s.insulate v) j = mcp mat g s j := fun _ _ => rfl
  have e4 : ∀ (v : Insulation K) p, uaPort mat g (s.insulate v) p = uaPort mat g s p := fun _ _ => rfl
  simp only [e1, e2, e3, e4]
  rw [← mcp_eq mat g s k]
  unfold Insulation.at
  simp only [Inp.insulate, hT]
  by_cases h0 : k = 0
  · subst h0
    by_cases h1 : 0 + 1 = g.n
    · have : g.n - 1 = 0 := by omega
      simp only [h1, this, if_true]
      rw [← h1, hT]
      ring
    · simp only [h1, if_true, if_false]
      rw [hT]
      ring
  · by_cases h1 : k + 1 = g.n
    · have : g.n - 1 = k := by omega
      simp only [h0, h1, this, if_true, if_false]
      rw [← h1, hT]
      ring
    · simp only [h0, h1, if_false]
      ring

/-- **C202**: every conductance to the ambient that a cell has more lets it cool faster by this conductance times the
difference of temperature, divided by its heat capacity; for storages and branched pipes and all materials. -/
theorem C202_rate_storage (mat : Mat K) (g : Geo K) (s : Inp K) (u u' : Insulation K) (ports : List (Port K)) {k : ℕ}
    (hk : k < g.n) :
    storageDT mat g (s.insulate u) ports k = storageDT mat g (s.insulate u') ports k -
      (u.at g.n k - u'.at g.n k) * (s.T k - s.Tamb) / heatCapacity mat g s k := by
  unfold storageDT
  show dTcond mat g (s.insulate u) ports k + _ = dTcond mat g (s.insulate u') ports k + _ - _
  rw [dTcond_insulate mat g s u' u ports hk]
  have : ∀ a b x y z : K, x + a * (b - y) / z = x - a * (y - b) / z := by intros; ring
  rw [this]
  have e : ∀ a b c : K, a - b + c = a + c - b := by intros; ring
  rw [e]
  rfl

/-- **C202**: the same for pipes. -/
theorem C202_rate_pipe (mat : Mat K) (g : Geo K) (s : Inp K) (u u' : Insulation K) (io : K) (pin pout : Port K) {k : ℕ}
    (hk : k < g.n) :
    pipeDT mat g (s.insulate u) io pin pout k = pipeDT mat g (s.insulate u') io pin pout k -
      (u.at g.n k - u'.at g.n k) * (s.T k - s.Tamb) / heatCapacity mat g s k := by
  unfold pipeDT
  show dTcond mat g (s.insulate u) [pin, pout] k + _ = dTcond mat g (s.insulate u') [pin, pout] k + _ - _
  rw [dTcond_insulate mat g s u' u [pin, pout] hk]
  have : ∀ a b x y z : K, x + a * (b - y) / z = x - a * (y - b) / z := by intros; ring
  rw [this]
  have e : ∀ a b c : K, a - b + c = a + c - b := by intros; ring
  rw [e]
  rfl

section Run

variable {c r l : K} {g : Geo K}

theorem exists_above (f : ℕ → K) : ∀ n, ∃ M, ∀ k < n, f k ≤ M := by
  intro n
  induction n with
  | zero => exact ⟨0, by simp⟩
  | succ n ih =>
    obtain ⟨M, hM⟩ := ih
    refine ⟨max M (f n), fun k hk => ?_⟩
    rcases Nat.lt_succ_iff_lt_or_eq.1 hk with h | h
    · exact (hM k h).trans (le_max_left _ _)
    · rw [h]; exact le_max_right _ _

theorem exists_above_ports (ps : List (Port K)) : ∃ M, ∀ p ∈ ps, p.T ≤ M := by
  induction ps with
  | nil => exact ⟨0, by simp⟩
  | cons p ps ih =>
    obtain ⟨M, hM⟩ := ih
    refine ⟨max M p.T, fun q hq => ?_⟩
    rcases List.mem_cons.1 hq with rfl | h
    · exact le_max_right _ _
    · exact (hM q h).trans (le_max_left _ _)

/-- Specification: what is constant in a run: ambient temperature and the factors of buoyancy. -/
structure Place (K : Type*) where
  Tamb : K
  buoy : ℕ → K

/-- Specification: what the part sees. -/
def Place.inp (a : Place K) (u : Insulation K) (T : ℕ → K) : Inp K :=
  ⟨T, 0, 0, a.Tamb, u.shell, u.top, u.bot, a.buoy⟩

/-- Specification: a step of the solver: its length and what is at the ports in the predictor and in the corrector. -/
structure HeunStep (K : Type*) where
  h : K
  pred : List (Port K)
  corr : List (Port K)

/-- Specification: the temperatures after an explicit Euler step. -/
def eulerStep (mat : Mat K) (g : Geo K) (a : Place K) (u : Insulation K) (h : K) (ports : List (Port K)) (T : ℕ → K) :
    ℕ → K := fun k => T k + h * storageDT mat g (a.inp u T) ports k

/-- Specification: the temperatures after a step of Heun's method. -/
def heunStep (mat : Mat K) (g : Geo K) (a : Place K) (u : Insulation K) (e : HeunStep K) (T : ℕ → K) : ℕ → K := fun k =>
  T k + e.h * (storageDT mat g (a.inp u T) e.pred k +
    storageDT mat g (a.inp u (eulerStep mat g a u e.h e.pred T)) e.corr k) / 2

/-- Specification: the temperatures after a run. -/
def heunRun (mat : Mat K) (g : Geo K) (a : Place K) (u : Insulation K) (T : ℕ → K) (es : List (HeunStep K)) : ℕ → K :=
  es.foldl (fun T e => heunStep mat g a u e T) T

/-- Specification: conditions on the ports: in order, inside the part, balanced flows, not colder than the ambient,
physically meaningful, and a step short enough for the insulation `u`. -/
structure Fits (c r l : K) (g : Geo K) (a : Place K) (u : Insulation K) (h : K) (ports : List (Port K)) : Prop where
  sorted : (ports.map (·.idx)).Pairwise (· ≤ ·)
  inside : ∀ p ∈ ports, p.idx < g.n
  balance : (ports.map (·.io)).sum = 0
  warm : ∀ p ∈ ports, a.Tamb ≤ p.T
  physical : Physical (constMat c r l) g (a.inp u fun _ => a.Tamb) ports
  forward : 0 ≤ h
  short : ∀ k < g.n,
      let f := processVar g.n (ports.map (·.idx)) (ports.map (·.io))
      h * (totalConductance (constMat c r l) g (a.inp u fun _ => a.Tamb) ports k +
          c * (f.top k + f.bot k + inflowThroughPorts ports k)) ≤
        heatCapacity (constMat c r l) g (a.inp u fun _ => a.Tamb) k

/-- Specification: `u'` insulates at least as well as `u`. -/
structure Insulation.Better (u' u : Insulation K) : Prop where
  shell : ∀ k, 0 ≤ u'.shell k ∧ u'.shell k ≤ u.shell k
  top : 0 ≤ u'.top ∧ u'.top ≤ u.top
  bot : 0 ≤ u'.bot ∧ u'.bot ≤ u.bot

theorem Insulation.Better.at_le {u u' : Insulation K} (hu : u'.Better u) (n k : ℕ) : u'.at n k ≤ u.at n k := by
  unfold Insulation.at
  have h1 := (hu.shell k).2
  have h2 := hu.top.2
  have h3 := hu.bot.2
  split_ifs <;> linarith

theorem Fits.better {a : Place K} {u u' : Insulation K} {h : K} {ports : List (Port K)} (hf : Fits c r l g a u h ports)
    (hu : u'.Better u) : Fits c r l g a u' h ports := by
  refine ⟨hf.sorted, hf.inside, hf.balance, hf.warm, ?_, hf.forward, fun k hk => ?_⟩
  · have p := hf.physical
    exact ⟨p.lam, p.gs, p.aCell, p.uaTbWll, p.buoy, fun k => (hu.shell k).1, hu.top.1, hu.bot.1, p.ports, p.cap⟩
  · refine le_trans (mul_le_mul_of_nonneg_left ?_ hf.forward) (hf.short k hk)
    have ht : totalConductance (constMat c r l) g (a.inp u' fun _ => a.Tamb) ports k ≤
        totalConductance (constMat c r l) g (a.inp u fun _ => a.Tamb) ports k := by
      have e : ∀ v : Insulation K, totalConductance (constMat c r l) g (a.inp v fun _ => a.Tamb) ports k =
          (if 0 < k then faceConductance (constMat c r l) g (a.inp u fun _ => a.Tamb) (k - 1) else 0) +
          (if k + 1 < g.n then faceConductance (constMat c r l) g (a.inp u fun _ => a.Tamb) k else 0) +
          v.at g.n k +
          ((ports.filter (·.idx = k)).map (portConductance (constMat c r l) g (a.inp u fun _ => a.Tamb))).sum := by
        intro v
        unfold totalConductance Insulation.at
        simp only [← add_assoc]
        rfl
      rw [e, e]
      have := hu.at_le g.n k
      linarith
    linarith

/-- One Euler step keeps the temperatures above the ambient. -/
theorem euler_warm (hc : 0 ≤ c) (hn : 2 ≤ g.n) {a : Place K} {u : Insulation K} {h : K} {ports : List (Port K)}
    (hf : Fits c r l g a u h ports) {T : ℕ → K} (hT : ∀ k < g.n, a.Tamb ≤ T k) :
    ∀ k < g.n, a.Tamb ≤ eulerStep (constMat c r l) g a u h ports T k := by
  intro k hk
  obtain ⟨M1, hM1⟩ := exists_above T g.n
  obtain ⟨M2, hM2⟩ := exists_above_ports ports
  have p := hf.physical
  have hph : Physical (constMat c r l) g (a.inp u T) ports :=
    ⟨p.lam, p.gs, p.aCell, p.uaTbWll, p.buoy, p.uaAmb, p.lidTop, p.lidBot, p.ports, p.cap⟩
  have hw : Within g (a.inp u T) ports a.Tamb (max (max M1 M2) a.Tamb) :=
    ⟨fun k hk => ⟨hT k hk, (hM1 k hk).trans ((le_max_left _ _).trans (le_max_left _ _))⟩, ⟨le_rfl, le_max_right _ _⟩,
      fun p hp => ⟨hf.warm p hp, (hM2 p hp).trans ((le_max_right _ _).trans (le_max_left _ _))⟩⟩
  exact (C24_storage_no_new_extreme_partial hn hph hw (slope_const hc _ _) hc hf.sorted hf.inside hf.balance hf.forward
    hf.short k hk).1

/-- One Euler step keeps the better insulated part hotter. -/
theorem euler_hotter (hc : 0 ≤ c) (hn : 2 ≤ g.n) {a : Place K} {u u' : Insulation K} (hu : u'.Better u) {h : K}
    {ports : List (Port K)} (hf : Fits c r l g a u h ports) {T T' : ℕ → K} (hT : ∀ k < g.n, a.Tamb ≤ T k)
    (hTT : ∀ k < g.n, T k ≤ T' k) : ∀ k < g.n,
      eulerStep (constMat c r l) g a u h ports T k ≤ eulerStep (constMat c r l) g a u' h ports T' k := by
  intro k hk
  have h1 : eulerStep (constMat c r l) g a u h ports T k ≤ eulerStep (constMat c r l) g a u' h ports T k := by
    have e := C202_rate_storage (constMat c r l) g (a.inp u T) u u' ports hk
    have e1 : (a.inp u T).insulate u = a.inp u T := rfl
    have e2 : (a.inp u T).insulate u' = a.inp u' T := rfl
    rw [e1, e2] at e
    unfold eulerStep
    rw [e]
    have hcap : 0 < heatCapacity (constMat c r l) g (a.inp u T) k := hf.physical.cap k hk
    have : 0 ≤ (u.at g.n k - u'.at g.n k) * ((a.inp u T).T k - (a.inp u T).Tamb) /
        heatCapacity (constMat c r l) g (a.inp u T) k :=
      div_nonneg (mul_nonneg (sub_nonneg.2 (hu.at_le g.n k)) (sub_nonneg.2 (hT k hk))) hcap.le
    have := mul_nonneg hf.forward this
    linarith
  refine h1.trans ?_
  have hf' := hf.better hu
  obtain ⟨M, hM⟩ := exists_above (fun k => T' k - T k) g.n
  have p := hf'.physical
  have hph : Physical (constMat c r l) g (a.inp u' T) ports :=
    ⟨p.lam, p.gs, p.aCell, p.uaTbWll, p.buoy, p.uaAmb, p.lidTop, p.lidBot, p.ports, p.cap⟩
  have hps : (ports.map fun p => (p, p)).map Prod.fst = ports := by
    rw [List.map_map]; exact List.map_id' ports
  have hps2 : (ports.map fun p => (p, p)).map Prod.snd = ports := by
    rw [List.map_map]; exact List.map_id' ports
  have := C112_storage_partial (s := a.inp u' T) (s' := a.inp u' T') (c := c) (r := r) (l := l) (g := g) hc
    (ps := ports.map fun p => (p, p)) (a := 0) (b := max M 0) (h := h) hn
    ⟨rfl, rfl, rfl, rfl⟩
    (by intro q hq; obtain ⟨p, _, rfl⟩ := List.mem_map.1 hq; constructor <;> rfl)
    (by rw [hps]; exact hph)
    ⟨fun k hk => ⟨sub_nonneg.2 (hTT k hk), (hM k hk).trans (le_max_left _ _)⟩,
      by show 0 ≤ a.Tamb - a.Tamb ∧ a.Tamb - a.Tamb ≤ max M 0; rw [sub_self]; exact ⟨le_rfl, le_max_right _ _⟩,
      by intro q hq; obtain ⟨p, _, rfl⟩ := List.mem_map.1 hq; simp⟩
    (by rw [hps]; exact hf'.sorted) (by rw [hps]; exact hf'.inside) (by rw [hps]; exact hf'.balance) hf'.forward
    (by rw [hps]; exact hf'.short) k hk
  rw [hps, hps2] at this
  exact sub_nonneg.1 this.1

theorem heunStep_eq (mat : Mat K) (a : Place K) (u : Insulation K) (e : HeunStep K) (T : ℕ → K) (k : ℕ) :
    heunStep mat g a u e T k =
      (T k + eulerStep mat g a u e.h e.corr (eulerStep mat g a u e.h e.pred T) k) / 2 := by
  unfold heunStep
  rw [show eulerStep mat g a u e.h e.corr (eulerStep mat g a u e.h e.pred T) k = eulerStep mat g a u e.h e.pred T k +
    e.h * storageDT mat g (a.inp u (eulerStep mat g a u e.h e.pred T)) e.corr k from rfl,
    show eulerStep mat g a u e.h e.pred T k = T k + e.h * storageDT mat g (a.inp u T) e.pred k from rfl]
  ring

/-- **C202**, partial: of two storages (or branched pipes) in the same place with the same water flowing in, the better
insulated one is in every cell at least as hot as the other one, after any number of steps of Heun's method, if it was at
the beginning and nothing is colder than the ambient.  Missing: as in `C112_storage_partial` (constant
material properties and factors of buoyancy, steps short enough); the same step lengths for both. -/
theorem C202_hotter_partial (hc : 0 ≤ c) (hn : 2 ≤ g.n) {a : Place K} {u u' : Insulation K} (hu : u'.Better u)
    (es : List (HeunStep K)) (hes : ∀ e ∈ es, Fits c r l g a u e.h e.pred ∧ Fits c r l g a u e.h e.corr) :
    ∀ {T T' : ℕ → K}, (∀ k < g.n, a.Tamb ≤ T k ∧ T k ≤ T' k) → ∀ k < g.n,
      a.Tamb ≤ heunRun (constMat c r l) g a u T es k ∧
        heunRun (constMat c r l) g a u T es k ≤ heunRun (constMat c r l) g a u' T' es k := by
  induction es with
  | nil => intro T T' h; exact h
  | cons e es ih =>
    intro T T' h
    obtain ⟨f1, f2⟩ := hes e (by simp)
    have w0 : ∀ k < g.n, a.Tamb ≤ T k := fun k hk => (h k hk).1
    have w1 := euler_warm hc hn f1 w0
    have w2 := euler_warm hc hn f2 w1
    have o1 := euler_hotter hc hn hu f1 w0 fun k hk => (h k hk).2
    have o2 := euler_hotter hc hn hu f2 w1 o1
    refine ih (fun e he => hes e (by simp [he])) (fun k hk => ?_)
    dsimp only
    rw [heunStep_eq, heunStep_eq]
    have := w0 k hk
    have := w2 k hk
    have := o2 k hk
    have := (h k hk).2
    constructor <;> linarith

/-- A storage of two cells with an inlet at the top and an outlet at the bottom. -/
def exampleStorage : Geo ℚ := ⟨2, 10, 1, 1, 0, 0⟩

/-- A step of 1 s; water of 60 degrees flows in. -/
def exampleStep : HeunStep ℚ := ⟨1, [⟨0, 60, 0, 1, 0, 1⟩, ⟨1, 20, 0, 1, 0, -1⟩], [⟨0, 60, 0, 1, 0, 1⟩, ⟨1, 20, 0, 1, 0, -1⟩]⟩

theorem exampleStep_fits :
    Fits 1 1 1 exampleStorage ⟨20, fun _ => 1⟩ ⟨fun _ => 1, 1, 0⟩ exampleStep.h exampleStep.pred := by
  refine ⟨by decide +kernel, by decide +kernel, by decide +kernel, by decide +kernel, ⟨fun _ _ => ?_, ?_, ?_, ?_, fun _ => ?_,
    fun _ => ?_, ?_, ?_, ?_, ?_⟩, by decide +kernel, by decide +kernel⟩
  · show (0 : ℚ) < 1; norm_num
  · show (0 : ℚ) < 1; norm_num
  · show (0 : ℚ) ≤ 1; norm_num
  · show (0 : ℚ) ≤ 0; norm_num
  · show (0 : ℚ) ≤ 1; norm_num
  · show (0 : ℚ) ≤ 1; norm_num
  · show (0 : ℚ) ≤ 1; norm_num
  · show (0 : ℚ) ≤ 0; norm_num
  · decide +kernel
  · decide +kernel

/-- After 50 steps the storage with half the losses is hotter, and both are hotter than the ambient. -/
example : ∀ k < 2,
    20 ≤ heunRun (constMat 1 1 1) exampleStorage ⟨20, fun _ => 1⟩ ⟨fun _ => 1, 1, 0⟩ (fun _ => 20)
      (List.replicate 50 exampleStep) k ∧
    heunRun (constMat 1 1 1) exampleStorage ⟨20, fun _ => 1⟩ ⟨fun _ => 1, 1, 0⟩ (fun _ => 20)
        (List.replicate 50 exampleStep) k ≤
      heunRun (constMat 1 1 1) exampleStorage ⟨20, fun _ => 1⟩ ⟨fun _ => 1 / 2, 1 / 2, 0⟩ (fun _ => 20)
        (List.replicate 50 exampleStep) k :=
  C202_hotter_partial (c := 1) (r := 1) (l := 1) (g := exampleStorage) (by norm_num) (by decide)
    ⟨fun _ => by norm_num, by norm_num, by norm_num⟩ _
    (fun e he => by rw [List.eq_of_mem_replicate he]; exact ⟨exampleStep_fits, exampleStep_fits⟩)
    fun _ _ => by norm_num

/-- One step: 23.2 degrees instead of 23.4 in the upper cell. -/
example : heunStep (constMat 1 1 1) exampleStorage ⟨20, fun _ => 1⟩ ⟨fun _ => 1, 1, 0⟩ exampleStep (fun _ => 20) 0 <
    heunStep (constMat 1 1 1) exampleStorage ⟨20, fun _ => 1⟩ ⟨fun _ => 1 / 2, 1 / 2, 0⟩ exampleStep (fun _ => 20) 0 := by
  decide +kernel

end Run

end Verif.Cells
