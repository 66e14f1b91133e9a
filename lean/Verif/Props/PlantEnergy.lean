import Verif.Props.PortCond
import Verif.Props.Cells
import Verif.Props.Heun
import Mathlib.LinearAlgebra.Pi
import Mathlib.Algebra.BigOperators.Group.Finset.Sigma

/-!
# C111: the energy balance of a whole plant
-/

set_option linter.unusedSectionVars false

namespace Verif.PortCond

open Verif.Cells
open Finset

variable {K : Type*} [Field K] [LinearOrder K] [IsStrictOrderedRing K]

/-- Specification: a closed plant of parts with differential equation: every port is connected to exactly one other
one. -/
structure ClosedPlant (G : Plant) : Prop where
  numeric : ∀ p, p < G.count → G.numeric p = true
  heatcond : ∀ p, p < G.count → G.heatcond p = true
  link : ∀ p i, p < G.count → i < G.ports p →
    ∃ q, G.link p i = some q ∧ q.1 < G.count ∧ q.2 < G.ports q.1 ∧ G.link q.1 q.2 = some (p, i)

/-- A plant with its flows and temperatures: the cell of each port, the mass flow into the part at each port, the
geometry of the parts, what enters their differentials, which of them are plain pipes, and their heat sources. -/
structure Running (K : Type*) where
  cell : ℕ → ℕ → ℕ
  io : ℕ → ℕ → K
  geo : ℕ → Geo K
  inp : ℕ → Inp K
  isPipe : ℕ → Bool
  dQ : ℕ → K

/-- The ports of part `p` as its differential sees them after the set-up `c`, if `Tp p i` is the temperature at its
port `i`. -/
def portsWith (G : Plant) (c : State K) (R : Running K) (Tp : ℕ → ℕ → K) (p : ℕ) : List (Port K) :=
  (List.range (G.ports p)).map fun i =>
    ⟨R.cell p i, Tp p i, areaFld (c.own p i) (c.conn p i), (c.conn p i).gsp, uaWll (c.own p i) (c.conn p i), R.io p i⟩

/-- The differential of part `p`. -/
def dTWith (G : Plant) (c : State K) (mat : Mat K) (R : Running K) (Tp : ℕ → ℕ → K) (p : ℕ) : ℕ → K :=
  let ports := portsWith G c R Tp p
  let q : Heat K := Heat.all (R.geo p).n (R.dQ p)
  if R.isPipe p then fun k =>
    pipeDT mat (R.geo p) (R.inp p) (R.io p 0) (ports.getD 0 ⟨0, 0, 0, 0, 0, 0⟩) (ports.getD 1 ⟨0, 0, 0, 0, 0, 0⟩) k
      + dTheat mat (R.geo p) (R.inp p) q k
  else fun k => storageDT mat (R.geo p) (R.inp p) ports k + dTheat mat (R.geo p) (R.inp p) q k

/-- The temperature of the cell at port `i` of part `p`. -/
def Running.temp (R : Running K) (a : ℕ × ℕ) : K := (R.inp a.1).T (R.cell a.1 a.2)

/-- Directly connected parts: each port shows the temperature of the cell at the connected port. -/
def liveDT (G : Plant) (c : State K) (mat : Mat K) (R : Running K) (p : ℕ) : ℕ → K :=
  dTWith G c mat R (fun p i => R.temp (source G p i)) p

/-- Specification: the data of a part fit together. -/
structure Proper (G : Plant) (st : State K) (mat : Mat K) (R : Running K) (p : ℕ) : Prop where
  two : 2 ≤ (R.geo p).n
  cap : ∀ k < (R.geo p).n, heatCapacity mat (R.geo p) (R.inp p) k ≠ 0
  gs : ∀ i < G.ports p, (R.geo p).gs = (st.own p i).gsp
  area : ∀ i < G.ports p, (st.own p i).aFld ≠ 0 ∧ (st.own p i).aWll ≠ 0
  cell : ∀ i < G.ports p, R.cell p i < (R.geo p).n
  sorted : ∀ i j, i < j → j < G.ports p → R.cell p i ≤ R.cell p j
  balance : ∑ i ∈ range (G.ports p), R.io p i = 0
  pipe : R.isPipe p = true → G.ports p = 2 ∧ R.cell p 0 = 0 ∧ R.cell p 1 = (R.geo p).n - 1

theorem map_range_sum (n : ℕ) (f : ℕ → K) : ((List.range n).map f).sum = ∑ i ∈ range n, f i := by
  induction n with
  | zero => simp
  | succ n ih => rw [List.range_succ, List.map_append, List.sum_append, ih, sum_range_succ]; simp

/-- The energy balance of one part. -/
theorem part_balance {G : Plant} (c st : State K) {mat : Mat K} {R : Running K} (Tp : ℕ → ℕ → K) {p : ℕ} (h : Proper G st mat R p) :
    heatRate mat (R.geo p) (R.inp p) (dTWith G c mat R Tp p) =
      fromAmbient (R.geo p) (R.inp p) + throughPorts mat (R.geo p) (R.inp p) (portsWith G c R Tp p) +
        enthalpyThroughPorts mat (R.inp p) (portsWith G c R Tp p) + R.dQ p := by
  have hq := (C68_heat_arrives mat (R.geo p) (R.inp p) (by have := h.two; omega) h.cap (R.dQ p)).1
  have hadd : ∀ a : ℕ → K, heatRate mat (R.geo p) (R.inp p)
      (fun k => a k + dTheat mat (R.geo p) (R.inp p) (Heat.all (R.geo p).n (R.dQ p)) k) =
      heatRate mat (R.geo p) (R.inp p) a + R.dQ p := by
    intro a
    refine Eq.trans ?_ (congrArg (fun x => heatRate mat (R.geo p) (R.inp p) a + x) hq)
    unfold heatRate
    simp only
    rw [← sum_add_distrib]
    exact sum_congr rfl fun k _ => mul_add _ _ _
  unfold dTWith
  simp only
  by_cases hp : R.isPipe p = true
  · rw [if_pos hp, hadd]
    obtain ⟨h2, h0, h1⟩ := h.pipe hp
    have hio : R.io p 1 = -R.io p 0 := by
      have := h.balance
      rw [h2, sum_range_succ, sum_range_one] at this
      linarith
    have e : portsWith G c R Tp p = [(portsWith G c R Tp p).getD 0 ⟨0, 0, 0, 0, 0, 0⟩,
        (portsWith G c R Tp p).getD 1 ⟨0, 0, 0, 0, 0, 0⟩] := by
      unfold portsWith
      rw [h2]
      rfl
    have c0 : (portsWith G c R Tp p).getD 0 ⟨0, 0, 0, 0, 0, 0⟩ = ⟨R.cell p 0,
        Tp p 0, areaFld (c.own p 0) (c.conn p 0),
        (c.conn p 0).gsp, uaWll (c.own p 0) (c.conn p 0), R.io p 0⟩ := by
      unfold portsWith
      rw [h2]
      rfl
    have c1 : (portsWith G c R Tp p).getD 1 ⟨0, 0, 0, 0, 0, 0⟩ = ⟨R.cell p 1,
        Tp p 1, areaFld (c.own p 1) (c.conn p 1),
        (c.conn p 1).gsp, uaWll (c.own p 1) (c.conn p 1), R.io p 1⟩ := by
      unfold portsWith
      rw [h2]
      rfl
    rw [C23_pipe_energy_balance mat (R.geo p) (R.inp p) h.two (R.io p 0) _ _ h.cap (by rw [c0]; exact h0)
      (by rw [c1]; exact h1) (by rw [c0]) (by rw [c1]; exact hio), ← e]
  · rw [if_neg hp, hadd]
    rw [C23_storage_energy_balance mat (R.geo p) (R.inp p) h.two (portsWith G c R Tp p) h.cap]
    · unfold portsWith
      rw [List.map_map]
      apply List.Pairwise.map (R := fun i j => i < j ∧ j < G.ports p)
      · intro i j hij
        exact h.sorted i j hij.1 hij.2
      · have := List.pairwise_lt_range (n := G.ports p)
        refine List.Pairwise.imp_of_mem ?_ this
        intro a b _ hb hab
        exact ⟨hab, List.mem_range.mp hb⟩
    · intro q hq
      obtain ⟨i, hi, rfl⟩ := List.mem_map.mp hq
      exact h.cell i (List.mem_range.mp hi)
    · unfold portsWith
      rw [List.map_map]
      show ((List.range (G.ports p)).map fun i => R.io p i).sum = 0
      rw [map_range_sum, h.balance]

/-- The ports of the parts in `S` are paired: each port shows the temperature of its partner, was told the size of its
partner, and carries the same mass flow in the other direction. -/
structure Paired (G : Plant) (c st : State K) (R : Running K) (Tp : ℕ → ℕ → K) (S : Finset ℕ) (partner : ℕ → ℕ → ℕ × ℕ) :
    Prop where
  own : ∀ p ∈ S, ∀ i, c.own p i = st.own p i
  pair : ∀ p ∈ S, ∀ i < G.ports p, (partner p i).1 ∈ S ∧ (partner p i).2 < G.ports (partner p i).1 ∧
    partner (partner p i).1 (partner p i).2 = (p, i)
  conn : ∀ p ∈ S, ∀ i < G.ports p, c.conn p i = st.own (partner p i).1 (partner p i).2
  temp : ∀ p ∈ S, ∀ i < G.ports p, Tp p i = R.temp (partner p i)
  flow : ∀ p ∈ S, ∀ i < G.ports p, R.io (partner p i).1 (partner p i).2 = -R.io p i

theorem paired_balance {G : Plant} {c st : State K} (mat : Mat K) {R : Running K} {Tp : ℕ → ℕ → K} {S : Finset ℕ}
    {partner : ℕ → ℕ → ℕ × ℕ} (hR : ∀ p ∈ S, Proper G st mat R p) (hpd : Paired G c st R Tp S partner) :
    ∑ p ∈ S, heatRate mat (R.geo p) (R.inp p) (dTWith G c mat R Tp p) =
      ∑ p ∈ S, (fromAmbient (R.geo p) (R.inp p) + R.dQ p) := by
  obtain ⟨hown, hP, hconn, hT, hio⟩ := hpd
  rw [sum_congr rfl fun p hp => part_balance c st Tp (hR p hp)]
  -- heat through one port
  let f : (Σ _ : ℕ, ℕ) → K := fun a =>
    heat mat (R.geo a.1) (R.inp a.1) (c.own a.1 a.2) (c.conn a.1 a.2) (R.cell a.1 a.2) (Tp a.1 a.2) +
      (if 0 ≤ R.io a.1 a.2 then R.io a.1 a.2 * enthalpy mat (Tp a.1 a.2)
      else R.io a.1 a.2 * enthalpy mat ((R.inp a.1).T (R.cell a.1 a.2)))
  have hsum : ∑ p ∈ S, (throughPorts mat (R.geo p) (R.inp p) (portsWith G c R Tp p) +
      enthalpyThroughPorts mat (R.inp p) (portsWith G c R Tp p)) = 0 := by
    have e : ∀ p ∈ S, throughPorts mat (R.geo p) (R.inp p) (portsWith G c R Tp p) +
        enthalpyThroughPorts mat (R.inp p) (portsWith G c R Tp p) = ∑ i ∈ range (G.ports p), f ⟨p, i⟩ := by
      intro p _
      unfold throughPorts enthalpyThroughPorts portsWith
      rw [List.map_map, List.map_map, map_range_sum, map_range_sum, ← sum_add_distrib]
      refine sum_congr rfl fun i _ => ?_
      simp only [Function.comp, f, heat, uaPort_eq, portConductance]
    rw [sum_congr rfl e, ← sum_sigma S (fun p => range (G.ports p)) f]
    have hpair : ∀ a ∈ S.sigma fun p => range (G.ports p),
        f a + f ⟨(partner a.1 a.2).1, (partner a.1 a.2).2⟩ = 0 := by
      rintro ⟨p, i⟩ ha
      simp only [mem_sigma, mem_range] at ha
      obtain ⟨hp, hi⟩ := ha
      obtain ⟨hq, hj, e2⟩ := hP p hp i hi
      have hm := hio p hp i hi
      have t1 := hT p hp i hi
      have t2 := hT _ hq _ hj
      have k1 := hconn p hp i hi
      have k2 := hconn _ hq _ hj
      rw [e2] at t2 k2
      simp only [f]
      rw [hown p hp, hown _ hq, k1, k2, t1, t2, hm]
      simp only [Running.temp]
      generalize (partner p i).1 = q at *
      generalize (partner p i).2 = j at *
      have hx := heat_exchange (mat := mat) (s := R.inp p) (s' := R.inp q) (a := R.cell p i) (a' := R.cell q j)
        ((hR p hp).gs i hi) ((hR q hq).gs j hj) ((hR p hp).area i hi) ((hR q hq).area j hj)
      have hy : ∀ m a b : K, (if 0 ≤ m then m * a else m * b) + (if 0 ≤ -m then -m * b else -m * a) = 0 := by
        intro m a b
        rcases lt_trichotomy m 0 with h | h | h
        · rw [if_neg (by linarith), if_pos (by linarith)]; ring
        · subst h; simp
        · rw [if_pos (by linarith), if_neg (by linarith)]; ring
      have := hy (R.io p i) (enthalpy mat ((R.inp q).T (R.cell q j))) (enthalpy mat ((R.inp p).T (R.cell p i)))
      linear_combination hx + this
    refine sum_involution (fun a _ => ⟨(partner a.1 a.2).1, (partner a.1 a.2).2⟩) hpair ?_ ?_ ?_
    · intro a ha hne heq
      have := hpair a ha
      rw [heq] at this
      exact hne (by linarith)
    · rintro ⟨p, i⟩ ha
      simp only [mem_sigma, mem_range] at ha ⊢
      exact ⟨(hP p ha.1 i ha.2).1, (hP p ha.1 i ha.2).2.1⟩
    · rintro ⟨p, i⟩ ha
      simp only [mem_sigma, mem_range] at ha
      simp only [(hP p ha.1 i ha.2).2.2]
  rw [sum_congr rfl fun p _ => show fromAmbient (R.geo p) (R.inp p) +
    throughPorts mat (R.geo p) (R.inp p) (portsWith G c R Tp p) +
    enthalpyThroughPorts mat (R.inp p) (portsWith G c R Tp p) + R.dQ p =
    (fromAmbient (R.geo p) (R.inp p) + R.dQ p) + (throughPorts mat (R.geo p) (R.inp p) (portsWith G c R Tp p) +
    enthalpyThroughPorts mat (R.inp p) (portsWith G c R Tp p)) by ring, sum_add_distrib, hsum, add_zero]

/-- In a closed plant the ports are paired with those they are connected to. -/
theorem direct_paired {G : Plant} (hG : ClosedPlant G) (st : State K) (R : Running K)
    (hio : ∀ p i q j, p < G.count → i < G.ports p → G.link p i = some (q, j) → R.io q j = -R.io p i) :
    Paired G (connect G st) st R (fun p i => R.temp (source G p i)) (range G.count) (source G) := by
  have hS : Separated G := by
    intro r hr hn
    rw [hG.numeric r hr] at hn
    cases hn
  have hC : Closed G := by
    intro p hp i hi q hq
    obtain ⟨q', e, h1, h2, -⟩ := hG.link p i hp hi
    rw [hq] at e
    cases e
    exact ⟨h1, h2⟩
  refine ⟨fun p hp i => connect_own hS st (hG.numeric p (mem_range.1 hp)) i, ?_, ?_, fun _ _ _ _ => rfl, ?_⟩
  · intro p hp i hi
    obtain ⟨q, e1, hq, hj, e2⟩ := hG.link p i (mem_range.1 hp) hi
    rw [show source G p i = q by rw [source, e1]; rfl]
    exact ⟨mem_range.2 hq, hj, by rw [source, e2]; rfl⟩
  · intro p hp i hi
    have hp := mem_range.1 hp
    obtain ⟨q, e1, hq, hj, e2⟩ := hG.link p i hp hi
    rw [show source G p i = q by rw [source, e1]; rfl]
    rw [connect_conn hS hC st hp (hG.numeric p hp) hi]
    simp [seen, source, e1, hG.numeric q.1 hq, hG.heatcond q.1 hq]
  · intro p hp i hi
    obtain ⟨q, e1, hq, hj, e2⟩ := hG.link p i (mem_range.1 hp) hi
    rw [show source G p i = q by rw [source, e1]; rfl]
    exact hio p i q.1 q.2 (mem_range.1 hp) hi e1

/-- **C111**, partial: in a closed plant of pipes and storages connected directly, whose connections carry the same
mass flow on both sides, the heat content changes at every moment by what comes from the ambient and from the heat
sources.  With pumps: `C111_pumps_partial`.  Missing: connectors and valves, through which heat is lost (C109). -/
theorem C111_plant_partial {G : Plant} (hG : ClosedPlant G) (st : State K) (mat : Mat K) (R : Running K)
    (hR : ∀ p < G.count, Proper G st mat R p)
    (hio : ∀ p i q j, p < G.count → i < G.ports p → G.link p i = some (q, j) → R.io q j = -R.io p i) :
    let c := connect G st
    ∑ p ∈ range G.count, heatRate mat (R.geo p) (R.inp p) (liveDT G c mat R p) =
      ∑ p ∈ range G.count, (fromAmbient (R.geo p) (R.inp p) + R.dQ p) := by
  intro c
  exact paired_balance mat (fun p hp => hR p (mem_range.1 hp)) (direct_paired hG st R hio)

/-! ## Pumps -/

/-- Specification: a closed plant of parts with differential equation and pumps, of which no two follow each other. -/
structure PumpedPlant (G : Plant) : Prop where
  heatcond : ∀ p, p < G.count → G.heatcond p = true
  pump : ∀ r, r < G.count → G.numeric r = false → G.ports r = 2
  apart : ∀ r, r < G.count → G.numeric r = false → ∀ i < 2, ∀ q, G.link r i = some q → G.numeric q.1 = true
  link : ∀ p i, p < G.count → i < G.ports p →
    ∃ q, G.link p i = some q ∧ q.1 < G.count ∧ q.2 < G.ports q.1 ∧ G.link q.1 q.2 = some (p, i)

/-- The temperature at a port: that of the connected cell, or what the connected pump hands on. -/
def pumpedTemp (G : Plant) (R : Running K) (p i : ℕ) : K :=
  let q := source G p i
  if G.numeric q.1 then R.temp q
  else Mixing.pump ![R.temp (source G q.1 0), R.temp (source G q.1 1)] (if q.2 = 0 then 0 else 1)

/-- The port on the other side of a connection, seen through a pump. -/
def through (G : Plant) (p i : ℕ) : ℕ × ℕ :=
  let q := source G p i
  if G.numeric q.1 then q else source G q.1 (1 - q.2)

theorem pumpedTemp_eq {G : Plant} (hG : PumpedPlant G) (R : Running K) {p i : ℕ} (hp : p < G.count)
    (hi : i < G.ports p) : pumpedTemp G R p i = R.temp (through G p i) := by
  obtain ⟨q, e1, hq, hj, -⟩ := hG.link p i hp hi
  have s1 : source G p i = q := by rw [source, e1]; rfl
  unfold pumpedTemp through
  rw [s1]
  simp only
  split_ifs with h1 h2
  · rfl
  · rw [h2]; rfl
  · rw [hG.pump q.1 hq (by simpa using h1)] at hj
    rw [show q.2 = 1 by omega]
    rfl

/-- With pumps the ports are paired with those on the other side of the pump. -/
theorem pumped_paired {G : Plant} (hG : PumpedPlant G) (st : State K) (R : Running K)
    (hio : ∀ p i q j, p < G.count → i < G.ports p → G.link p i = some (q, j) → R.io q j = -R.io p i)
    (hpump : ∀ r < G.count, G.numeric r = false → R.io r 0 + R.io r 1 = 0) :
    Paired G (connect G st) st R (pumpedTemp G R) ((range G.count).filter fun p => G.numeric p) (through G) := by
  have hS : Separated G := by
    intro r hr hn _ i hi
    obtain ⟨q, e1, -⟩ := hG.link r i hr hi
    exact ⟨q, e1, Or.inl (hG.apart r hr hn i (by rw [hG.pump r hr hn] at hi; exact hi) q e1)⟩
  have hC : Closed G := by
    intro p hp i hi q hq
    obtain ⟨q', e, h1, h2, -⟩ := hG.link p i hp hi
    rw [hq] at e
    cases e
    exact ⟨h1, h2⟩
  have src : ∀ {p i q}, G.link p i = some q → source G p i = q := fun e => by rw [source, e]; rfl
  -- the two cases of a connection
  have key : ∀ p < G.count, G.numeric p = true → ∀ i < G.ports p,
      (∃ q, G.link p i = some q ∧ q.1 < G.count ∧ q.2 < G.ports q.1 ∧ G.link q.1 q.2 = some (p, i) ∧
        G.numeric q.1 = true ∧ through G p i = q) ∨
      ∃ r k q, k < 2 ∧ r < G.count ∧ G.numeric r = false ∧ G.link p i = some (r, k) ∧ G.link r k = some (p, i) ∧
        G.link r (1 - k) = some q ∧ q.1 < G.count ∧ q.2 < G.ports q.1 ∧ G.link q.1 q.2 = some (r, 1 - k) ∧
        G.numeric q.1 = true ∧ through G p i = q := by
    intro p hp hn i hi
    obtain ⟨⟨r, k⟩, e1, hr, hk, e2⟩ := hG.link p i hp hi
    by_cases h : G.numeric r = true
    · exact Or.inl ⟨(r, k), e1, hr, hk, e2, h, by rw [through, src e1]; simp [h]⟩
    · have h' : G.numeric r = false := by simpa using h
      have hk2 : k < 2 := by rw [← hG.pump r hr h']; exact hk
      obtain ⟨q, e3, hq, hj, e4⟩ := hG.link r (1 - k) hr (by rw [hG.pump r hr h']; omega)
      exact Or.inr ⟨r, k, q, hk2, hr, h', e1, e2, e3, hq, hj, e4, hG.apart r hr h' (1 - k) (by omega) q e3,
        by rw [through, src e1]; simp [h, src e3]⟩
  refine ⟨fun p hp i => connect_own hS st (mem_filter.1 hp).2 i, ?_, ?_,
    fun p hp i hi => pumpedTemp_eq hG R (mem_range.1 (mem_filter.1 hp).1) hi, ?_⟩
  all_goals
    intro p hp i hi
    obtain ⟨hp, hn⟩ := mem_filter.1 hp
    have hp := mem_range.1 hp
    rcases key p hp hn i hi with ⟨q, e1, hq, hj, e2, hnq, et⟩ |
      ⟨r, k, q, hk, hr, hnr, e1, e2, e3, hq, hj, e4, hnq, et⟩
    all_goals rw [et]
  · exact ⟨mem_filter.2 ⟨mem_range.2 hq, hnq⟩, hj, by rw [through, src e2]; simp [hn]⟩
  · refine ⟨mem_filter.2 ⟨mem_range.2 hq, hnq⟩, hj, ?_⟩
    rw [through, src e4]
    simp only [hnr, Bool.false_eq_true, if_false]
    rw [show 1 - (1 - k) = k by omega, src e2]
  · rw [connect_conn hS hC st hp hn hi]
    simp [seen, source, e1, hnq, hG.heatcond q.1 hq]
  · rw [connect_conn hS hC st hp hn hi]
    obtain rfl | rfl : k = 0 ∨ k = 1 := by omega
    · simp only [seen, source, e1, Option.getD_some, hnr, hG.heatcond r hr, hG.pump r hr hnr, if_true, if_false,
        Bool.false_eq_true, (meanOthers_two _).1, read]
      simp [show G.link r 1 = some q from e3, hG.heatcond q.1 hq]
    · simp only [seen, source, e1, Option.getD_some, hnr, hG.heatcond r hr, hG.pump r hr hnr, if_true, if_false,
        Bool.false_eq_true, (meanOthers_two _).2, read]
      simp [show G.link r 0 = some q from e3, hG.heatcond q.1 hq]
  · exact hio p i q.1 q.2 hp hi e1
  · have a1 := hio p i r k hp hi e1
    have a2 := hio r (1 - k) q.1 q.2 hr (by rw [hG.pump r hr hnr]; omega) e3
    have a3 := hpump r hr hnr
    rw [a2]
    obtain rfl | rfl : k = 0 ∨ k = 1 := by omega
    · show -R.io r 1 = _
      linarith
    · show -R.io r 0 = _
      linarith

/-- **C111**, partial (pumps): the same with pumps between the parts, of which no two follow each other: the parts
with differential equation together gain what comes from the ambient and from the heat sources. -/
theorem C111_pumps_partial {G : Plant} (hG : PumpedPlant G) (st : State K) (mat : Mat K) (R : Running K)
    (hR : ∀ p < G.count, G.numeric p = true → Proper G st mat R p)
    (hio : ∀ p i q j, p < G.count → i < G.ports p → G.link p i = some (q, j) → R.io q j = -R.io p i)
    (hpump : ∀ r < G.count, G.numeric r = false → R.io r 0 + R.io r 1 = 0) :
    let c := connect G st
    ∑ p ∈ range G.count with G.numeric p, heatRate mat (R.geo p) (R.inp p) (dTWith G c mat R (pumpedTemp G R) p) =
      ∑ p ∈ range G.count with G.numeric p, (fromAmbient (R.geo p) (R.inp p) + R.dQ p) := by
  intro c
  exact paired_balance mat (fun p hp => hR p (mem_range.1 (mem_filter.1 hp).1) (mem_filter.1 hp).2)
    (pumped_paired hG st R hio hpump)

/-! ## Steps -/

/-- The plant with the temperatures `y`. -/
def Running.at (R : Running K) (y : ℕ → ℕ → K) : Running K := { R with inp := fun p => { R.inp p with T := y p } }

/-- The plant as the solver sees it: the port array is represented by the temperatures of all cells, from which the
ports pick theirs; `check` are the stability checks. -/
def plantSystem (G : Plant) (c : State K) (mat : Mat K) (R : Running K)
    (check : ℕ → (ℕ → ℕ → K) → (ℕ → K) → K → Bool) : Attempt.System K (ℕ → K) Unit Unit (ℕ → ℕ → K) where
  diffs := List.ofFn fun k : Fin G.count => fun _ p x h =>
    ⟨liveDT G c mat (R.at (Function.update p k.val x)) k.val, (), check k.val p x h⟩
  solves := []
  interm ts _ _ := fun q => ts.getD q 0
  result ts _ _ := fun q => ts.getD q 0

/-- Specification: the heat content of the plant, relative to 0 °C, with the heat capacity `cap p k` of cell `k` of
part `p`. -/
def heatContent (N : ℕ) (n : ℕ → ℕ) (cap : ℕ → ℕ → K) (y : Fin N → ℕ → K) : K :=
  ∑ p : Fin N, ∑ k ∈ range (n p), cap p k * y p k

/-- **C111**, partial (steps): a closed plant of directly connected pipes and storages without losses and heat sources
keeps its heat content in every accepted step of any length, if heat capacity and density of water are constant. -/
theorem C111_step_partial {G : Plant} (hG : ClosedPlant G) (st : State K) {mat : Mat K} {cp rho : K}
    (hcp : ∀ T, mat.cp T = cp) (hrho : ∀ T, mat.rho T = rho) (R : Running K)
    (hR : ∀ p < G.count, ∀ y, Proper G st mat (R.at y) p)
    (hio : ∀ p i q j, p < G.count → i < G.ports p → G.link p i = some (q, j) → R.io q j = -R.io p i)
    (hA : ∀ p < G.count, (∀ k, (R.inp p).uaAmb k = 0) ∧ (R.inp p).lidTop = 0 ∧ (R.inp p).lidBot = 0 ∧ R.dQ p = 0)
    (check : ℕ → (ℕ → ℕ → K) → (ℕ → K) → K → Bool) (y : Fin G.count → ℕ → K) (s : Attempt.State (ℕ → K) Unit Unit (ℕ → ℕ → K))
    (hy : s.parts.map Attempt.PState.prev = List.ofFn y) (hp : s.ports = fun q => (List.ofFn y).getD q 0)
    (hn : s.nonnum = []) (h : K)
    (hst : (Attempt.attempt (plantSystem G (connect G st) mat R check) h s).stable = true) :
    let E := heatContent G.count (fun p => (R.geo p).n) fun p _ => cp * rho * (R.geo p).vCell + (R.geo p).mcpWll
    ∃ y', (Attempt.attempt (plantSystem G (connect G st) mat R check) h s).parts.map Attempt.PState.res = List.ofFn y' ∧
      E y' = E y := by
  intro E
  let El : (Fin G.count → ℕ → K) →ₗ[K] K := ∑ p : Fin G.count, ∑ k ∈ range (R.geo p).n,
    (cp * rho * (R.geo p).vCell + (R.geo p).mcpWll) •
      ((LinearMap.proj k : (ℕ → K) →ₗ[K] K) ∘ₗ (LinearMap.proj p : (Fin G.count → ℕ → K) →ₗ[K] (ℕ → K)))
  have hE : ∀ z, El z = E z := by
    intro z
    simp [El, E, heatContent, LinearMap.sum_apply]
  let π : (Fin G.count → ℕ → K) → ℕ → ℕ → K := fun y q => (List.ofFn y).getD q 0
  have hd : Attempt.Describes (plantSystem G (connect G st) mat R check)
      (fun (k : Fin G.count) p x => liveDT G (connect G st) mat (R.at (Function.update p k.val x)) k.val) π := by
    refine ⟨?_, fun _ _ => rfl, fun _ _ => rfl, rfl⟩
    intro k
    refine ⟨fun _ p x h => ⟨liveDT G (connect G st) mat (R.at (Function.update p k.val x)) k.val, (), check k.val p x h⟩,
      ?_, fun _ _ _ _ => rfl⟩
    simp [plantSystem]
  obtain ⟨y', h1, h2⟩ := Attempt.C103_conserved_partial hd hy hp hn hst El (by
    intro z
    have hup : ∀ k : Fin G.count, Function.update (π z) k.val (z k) = π z := by
      intro k
      apply Function.update_eq_self_iff.mpr
      simp [π]
    simp only [hup]
    have key := C111_plant_partial hG st mat (R.at (π z)) (fun p hp => hR p hp _) hio
    simp only at key
    have hz : ∑ p ∈ range G.count, (fromAmbient ((R.at (π z)).geo p) ((R.at (π z)).inp p) + (R.at (π z)).dQ p) = 0 := by
      apply sum_eq_zero
      intro p hp
      obtain ⟨a1, a2, a3, a4⟩ := hA p (mem_range.mp hp)
      simp [fromAmbient, Running.at, a1, a2, a3, a4]
    rw [hz, sum_range] at key
    rw [hE, ← key]
    simp only [E, heatContent, heatRate, heatCapacity, hcp, hrho]
    rfl)
  exact ⟨y', h1, by rw [← hE, h2, hE]⟩

/-- Two pipes of different sizes in a circle, one at 80 °C, the other one at 20 °C and heated, with losses. -/
def runningPair : Running ℚ where
  cell _ i := i
  io _ i := if i = 0 then 3 else -3
  geo _ := ⟨2, 1, 1, 1, 0, 0⟩
  inp p := ⟨fun _ => if p = 0 then 80 else 20, 0, 0, 10, fun _ => 1, 0, 0, fun _ => 1⟩
  isPipe _ := true
  dQ p := if p = 0 then 0 else 50

/-- The hypotheses can be met. -/
example : ClosedPlant (ring 2 fun _ => true) ∧
    (∀ p < 2, Proper (ring 2 fun _ => true) ⟨fun p _ => if p = 0 then big else small, fun _ _ => Spec.zero⟩ mat1
      runningPair p) ∧
    ∀ p i q j, p < 2 → i < 2 → (ring 2 fun _ => true).link p i = some (q, j) →
      runningPair.io q j = -runningPair.io p i := by
  refine ⟨⟨fun _ _ => rfl, fun _ _ => rfl, ?_⟩, ?_, ?_⟩
  · intro p i hp hi
    have hp : p < 2 := hp
    have hi : i < 2 := hi
    interval_cases p <;> interval_cases i
    · exact ⟨(1, 1), rfl, by decide, by decide, rfl⟩
    · exact ⟨(1, 0), rfl, by decide, by decide, rfl⟩
    · exact ⟨(0, 1), rfl, by decide, by decide, rfl⟩
    · exact ⟨(0, 0), rfl, by decide, by decide, rfl⟩
  · intro p hp
    refine ⟨le_rfl, fun k _ => by norm_num [heatCapacity, mat1, runningPair], fun i _ => ?_, fun i _ => ?_, fun i hi => hi,
      fun i j h _ => h.le, ?_, fun _ => ⟨rfl, rfl, rfl⟩⟩
    · show (1 : ℚ) = (if p = 0 then big else small).gsp
      split_ifs <;> rfl
    · show (if p = 0 then big else small).aFld ≠ 0 ∧ (if p = 0 then big else small).aWll ≠ 0
      split_ifs <;> norm_num [big, small]
    · show ∑ i ∈ range 2, (if i = 0 then (3 : ℚ) else -3) = 0
      decide +kernel
  · intro p i q j hp hi h
    interval_cases p <;> interval_cases i <;> simp [ring] at h <;> obtain ⟨rfl, rfl⟩ := h <;> norm_num [runningPair]

/-- A pipe, a pump and another pipe in a circle. -/
def runningPump : Running ℚ where
  cell _ i := i
  io _ i := if i = 0 then 3 else -3
  geo _ := ⟨2, 1, 1, 1, 0, 0⟩
  inp p := ⟨fun _ => if p = 0 then 80 else 20, 0, 0, 10, fun _ => 1, 0, 0, fun _ => 1⟩
  isPipe _ := true
  dQ p := if p = 0 then 0 else 50

example : PumpedPlant (ring 3 fun p => p ≠ 1) ∧
    (∀ p < 3, (ring 3 fun p => p ≠ 1).numeric p = true → Proper (ring 3 fun p => p ≠ 1)
      ⟨fun p _ => if p = 0 then big else small, fun _ _ => Spec.zero⟩ mat1 runningPump p) ∧
    (∀ p i q j, p < 3 → i < 2 → (ring 3 fun p => p ≠ 1).link p i = some (q, j) →
      runningPump.io q j = -runningPump.io p i) ∧ runningPump.io 1 0 + runningPump.io 1 1 = 0 := by
  refine ⟨⟨fun _ _ => rfl, fun _ _ _ => rfl, ?_, ?_⟩, ?_, ?_, by norm_num [runningPump]⟩
  · intro r _ hr i hi q hq
    have hr : r = 1 := by simpa [ring] using hr
    subst hr
    interval_cases i <;> simp [ring] at hq <;> subst hq <;> rfl
  · intro p i hp hi
    have hp : p < 3 := hp
    have hi : i < 2 := hi
    interval_cases p <;> interval_cases i
    · exact ⟨(2, 1), rfl, by decide, by decide, rfl⟩
    · exact ⟨(1, 0), rfl, by decide, by decide, rfl⟩
    · exact ⟨(0, 1), rfl, by decide, by decide, rfl⟩
    · exact ⟨(2, 0), rfl, by decide, by decide, rfl⟩
    · exact ⟨(1, 1), rfl, by decide, by decide, rfl⟩
    · exact ⟨(0, 0), rfl, by decide, by decide, rfl⟩
  · intro p hp _
    refine ⟨le_rfl, fun k _ => by norm_num [heatCapacity, mat1, runningPump], fun i _ => ?_, fun i _ => ?_, fun i hi => hi,
      fun i j h _ => h.le, ?_, fun _ => ⟨rfl, rfl, rfl⟩⟩
    · show (1 : ℚ) = (if p = 0 then big else small).gsp
      split_ifs <;> rfl
    · show (if p = 0 then big else small).aFld ≠ 0 ∧ (if p = 0 then big else small).aWll ≠ 0
      split_ifs <;> norm_num [big, small]
    · show ∑ i ∈ range 2, (if i = 0 then (3 : ℚ) else -3) = 0
      decide +kernel
  · intro p i q j hp hi h
    interval_cases p <;> interval_cases i <;> simp [ring] at h <;> obtain ⟨rfl, rfl⟩ := h <;> norm_num [runningPump]

/-- The same pipes without losses and heating; a step moves heat from the warm pipe to the cold one and keeps the sum. -/
def adiabaticPair : Running ℚ :=
  { runningPair with
    inp := fun p => ⟨fun _ => if p = 0 then 80 else 20, 0, 0, 10, fun _ => 0, 0, 0, fun _ => 1⟩
    dQ := fun _ => 0 }

example :
    let c := connect (ring 2 fun _ => true) ⟨fun p _ => if p = 0 then big else small, fun _ _ => Spec.zero⟩
    let y : ℕ → ℕ → ℚ := fun p _ => if p = 0 then 80 else 20
    let s : Attempt.State (ℕ → ℚ) Unit Unit (ℕ → ℕ → ℚ) :=
      ⟨[⟨y 0, y 0, y 0, y 0, y 0, ()⟩, ⟨y 1, y 1, y 1, y 1, y 1, ()⟩], [], y, true⟩
    let a := Attempt.attempt (plantSystem (ring 2 fun _ => true) c mat1 adiabaticPair fun _ _ _ _ => true) (1 / 10) s
    (a.parts.map fun t => t.res 0 + t.res 1) = [257 / 2, 143 / 2] := by
  decide +kernel

end Verif.PortCond
