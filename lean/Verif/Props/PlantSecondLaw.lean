import Verif.Props.PlantEnergy
import Verif.Props.SecondLaw
import Verif.Props.Converge

/-!
# C172: second law for plants
-/

set_option linter.unusedSectionVars false

namespace Verif.PortCond

open Finset Verif.Cells Verif.Flows Verif.SecondLaw
open Verif.Idle (Shut)

variable {G : Plant} {mat : Mat ℝ} {R : Running ℝ} {φ : ℝ → ℝ} {a b c h : ℝ} {M : ℕ → ℝ}

/-- Specification: everything connected to cell `k` of part `p` with ports of the temperatures `Tp`: what it conducts to,
and the heat capacity of the water that flows in. -/
noncomputable def load (G : Plant) (st : State ℝ) (mat : Mat ℝ) (R : Running ℝ) (Tp : ℕ → ℕ → ℝ) (c : ℝ) (p k : ℕ) : ℝ :=
  let ports := portsWith G st R Tp p
  let f := processVar (R.geo p).n (ports.map (·.idx)) (ports.map (·.io))
  totalConductance mat (R.geo p) (R.inp p) ports k + c * (f.top k + f.bot k + inflowThroughPorts ports k)

/-- Specification: a part in which water and cells have the same heat capacity at all times, without heat source, with
temperatures between `a` and `b` and a step of length `h` that is at most the heat capacity of a cell divided by everything
connected to it. -/
structure Calm (G : Plant) (st : State ℝ) (mat : Mat ℝ) (R : Running ℝ) (Tp : ℕ → ℕ → ℝ) (c : ℝ) (M : ℕ → ℝ) (a b h : ℝ)
    (p : ℕ) : Prop where
  water : 0 ≤ c ∧ ∀ T, mat.cp T = c
  cap : 0 < M p ∧ ∀ k < (R.geo p).n, heatCapacity mat (R.geo p) (R.inp p) k = M p
  physical : Physical mat (R.geo p) (R.inp p) (portsWith G st R Tp p)
  cells : ∀ k < (R.geo p).n, a ≤ (R.inp p).T k ∧ (R.inp p).T k ≤ b
  ambient : a ≤ (R.inp p).Tamb ∧ (R.inp p).Tamb ≤ b
  quiet : R.dQ p = 0
  short : 0 ≤ h ∧ ∀ k < (R.geo p).n, h * load G st mat R Tp c p k ≤ M p

theorem ports_order {st' st : State ℝ} {Tp : ℕ → ℕ → ℝ} {p : ℕ} (hR : Proper G st mat R p) :
    ((portsWith G st' R Tp p).map (·.idx)).Pairwise (· ≤ ·) ∧ (∀ q ∈ portsWith G st' R Tp p, q.idx < (R.geo p).n) ∧
      ((portsWith G st' R Tp p).map (·.io)).sum = 0 := by
  refine ⟨?_, ?_, ?_⟩
  · unfold portsWith
    rw [List.map_map]
    apply List.Pairwise.map (R := fun i j => i < j ∧ j < G.ports p)
    · intro i j hij
      exact hR.sorted i j hij.1 hij.2
    · have := List.pairwise_lt_range (n := G.ports p)
      refine List.Pairwise.imp_of_mem ?_ this
      intro a b _ hb hab
      exact ⟨hab, List.mem_range.mp hb⟩
  · intro q hq
    obtain ⟨i, hi, rfl⟩ := List.mem_map.mp hq
    exact hR.cell i (List.mem_range.mp hi)
  · unfold portsWith
    rw [List.map_map]
    show ((List.range (G.ports p)).map fun i => R.io p i).sum = 0
    rw [map_range_sum, hR.balance]

/-- Without heat source the differential of a part is that of a storage. -/
theorem dTWith_storage {st' st : State ℝ} {Tp : ℕ → ℕ → ℝ} {p : ℕ} (hR : Proper G st mat R p) (hq : R.dQ p = 0) {k : ℕ}
    (hk : k < (R.geo p).n) : dTWith G st' mat R Tp p k = storageDT mat (R.geo p) (R.inp p) (portsWith G st' R Tp p) k := by
  obtain ⟨o1, -, -⟩ := ports_order (st' := st') (Tp := Tp) hR
  have hz : dTheat mat (R.geo p) (R.inp p) (Heat.all (R.geo p).n (R.dQ p)) k = 0 := by
    simp [dTheat, Heat.all, hq]
  unfold dTWith
  by_cases hp : R.isPipe p = true
  · rw [if_pos hp, hz, add_zero]
    obtain ⟨h2, h0, h1⟩ := hR.pipe hp
    have hio : R.io p 1 = -R.io p 0 := by
      have := hR.balance
      rw [h2, sum_range_succ, sum_range_one] at this
      linarith
    have e : portsWith G st' R Tp p = [⟨R.cell p 0, Tp p 0, areaFld (st'.own p 0) (st'.conn p 0),
        (st'.conn p 0).gsp, uaWll (st'.own p 0) (st'.conn p 0), R.io p 0⟩, ⟨R.cell p 1, Tp p 1,
        areaFld (st'.own p 1) (st'.conn p 1), (st'.conn p 1).gsp, uaWll (st'.own p 1) (st'.conn p 1), R.io p 1⟩] := by
      unfold portsWith
      rw [h2]
      rfl
    rw [e] at o1 ⊢
    exact (Arrival.storageDT_pipe (mid := []) hR.two ⟨h0, rfl⟩ ⟨h1, hio⟩ (by simp) o1 hk).symm
  · rw [if_neg hp, hz, add_zero]

/-- An explicit step of one part. -/
theorem part_law {st' st : State ℝ} {Tp : ℕ → ℕ → ℝ} {p : ℕ} (hR : Proper G st mat R p)
    (hc : Calm G st' mat R Tp c M a b h p) (hT : ∀ i < G.ports p, a ≤ Tp p i ∧ Tp p i ≤ b)
    (hφ : ConvexOn ℝ (Set.Icc a b) φ) :
    (∀ k < (R.geo p).n, a ≤ (R.inp p).T k + h * dTWith G st' mat R Tp p k ∧
      (R.inp p).T k + h * dTWith G st' mat R Tp p k ≤ b) ∧
    ∑ k ∈ range (R.geo p).n, M p * φ ((R.inp p).T k + h * dTWith G st' mat R Tp p k) ≤
      ∑ k ∈ range (R.geo p).n, M p * φ ((R.inp p).T k) +
        h * suppliedOf φ c mat (R.geo p) (R.inp p) (portsWith G st' R Tp p) := by
  obtain ⟨o1, o2, o3⟩ := ports_order (st' := st') (Tp := Tp) hR
  have hw : Within (R.geo p) (R.inp p) (portsWith G st' R Tp p) a b := by
    refine ⟨hc.cells, hc.ambient, fun q hq => ?_⟩
    obtain ⟨i, hi, rfl⟩ := List.mem_map.1 hq
    exact hT i (List.mem_range.1 hi)
  constructor
  · intro k hk
    rw [dTWith_storage hR hc.quiet hk]
    exact C24_storage_no_new_extreme_partial hR.two hc.physical hw (slope hc.water) hc.water.1 o1 o2 o3 hc.short.1
      (fun k hk => by rw [hc.cap.2 k hk]; exact hc.short.2 k hk) k hk
  · obtain ⟨f1, f2, f3, f4, f5⟩ := storage_flow (R.geo p) hR.two _ o1 o2 o3
    have := euler_law hφ hc.physical hw hc.water.2 hc.water.1 hc.cap.1 hc.cap.2 (by have := hR.two; omega) o2 f3 f1 f2 f4
      hc.short.1 (fun k hk => hc.short.2 k hk)
    refine le_trans (le_of_eq (sum_congr rfl fun k hk => ?_)) this
    rw [dTWith_storage hR hc.quiet (mem_range.1 hk)]
    rw [← f5]
    rfl

/-- Both sides of a connection conduct equally well. -/
theorem ua_exchange {g g' : Geo ℝ} {s s' : Inp ℝ} {own own' : Spec ℝ} {k k' : ℕ} (hg : g.gs = own.gsp)
    (hg' : g'.gs = own'.gsp) (h : own.aFld ≠ 0 ∧ own.aWll ≠ 0) (h' : own'.aFld ≠ 0 ∧ own'.aWll ≠ 0) (m m' : ℝ) :
    uaPort mat g s ⟨k, s'.T k', areaFld own own', own'.gsp, uaWll own own', m⟩ =
      uaPort mat g' s' ⟨k', s.T k, areaFld own' own, own.gsp, uaWll own' own, m'⟩ := by
  unfold Cells.uaPort areaFld uaWll areaWll
  simp only [h.1, h.2, h'.1, h'.2, if_false, hg, hg']
  rw [add_comm own.aFld, add_comm own.aWll, add_comm (own.gsp / (2 * mat.lam _)), add_comm (own.gsp / (2 * own.lam))]

/-- What goes through the ports of paired parts cancels. -/
theorem paired_supply {st' st : State ℝ} {Tp : ℕ → ℕ → ℝ} {S : Finset ℕ} {partner : ℕ → ℕ → ℕ × ℕ}
    (hR : ∀ p ∈ S, Proper G st mat R p) (hpd : Paired G st' st R Tp S partner) :
    ∑ p ∈ S, suppliedOf φ c mat (R.geo p) (R.inp p) (portsWith G st' R Tp p) =
      ∑ p ∈ S, ambientOf φ (R.geo p) (R.inp p) := by
  obtain ⟨hown, hP, hconn, hT, hio⟩ := hpd
  let f : (Σ _ : ℕ, ℕ) → ℝ := fun a =>
    uaPort mat (R.geo a.1) (R.inp a.1) ⟨R.cell a.1 a.2, Tp a.1 a.2, areaFld (st'.own a.1 a.2) (st'.conn a.1 a.2),
      (st'.conn a.1 a.2).gsp, uaWll (st'.own a.1 a.2) (st'.conn a.1 a.2), R.io a.1 a.2⟩ *
        (φ (Tp a.1 a.2) - φ ((R.inp a.1).T (R.cell a.1 a.2))) +
      (if 0 ≤ R.io a.1 a.2 then R.io a.1 a.2 * (c * φ (Tp a.1 a.2))
      else R.io a.1 a.2 * (c * φ ((R.inp a.1).T (R.cell a.1 a.2))))
  have hsum : ∑ p ∈ S, (conductedOf φ mat (R.geo p) (R.inp p) (portsWith G st' R Tp p) +
      carriedOf φ c (R.inp p) (portsWith G st' R Tp p)) = 0 := by
    have e : ∀ p ∈ S, conductedOf φ mat (R.geo p) (R.inp p) (portsWith G st' R Tp p) +
        carriedOf φ c (R.inp p) (portsWith G st' R Tp p) = ∑ i ∈ range (G.ports p), f ⟨p, i⟩ := by
      intro p _
      unfold conductedOf carriedOf portsWith
      rw [List.map_map, List.map_map, map_range_sum, map_range_sum, ← sum_add_distrib]
      refine sum_congr rfl fun i _ => ?_
      simp only [Function.comp, f, uaPort_eq]
    rw [sum_congr rfl e, ← sum_sigma S (fun p => range (G.ports p)) f]
    have hpair : ∀ a ∈ S.sigma fun p => range (G.ports p),
        f a + f ⟨(partner a.1 a.2).1, (partner a.1 a.2).2⟩ = 0 := by
      rintro ⟨p, i⟩ ha
      simp only [mem_sigma, mem_range] at ha
      obtain ⟨hp, hi⟩ := ha
      obtain ⟨hq, hj, e2⟩ := hP p hp i hi
      have hm := hio p hp i hi
      have t1 := hT p hp i hi
      have t2 := hT _ hq _ hj
      have k1 := hconn p hp i hi
      have k2 := hconn _ hq _ hj
      rw [e2] at t2 k2
      simp only [f]
      rw [hown p hp, hown _ hq, k1, k2, t1, t2, hm]
      simp only [Running.temp]
      generalize (partner p i).1 = q at *
      generalize (partner p i).2 = j at *
      rw [ua_exchange (mat := mat) (s := R.inp p) (s' := R.inp q) (k := R.cell p i) (k' := R.cell q j)
        ((hR p hp).gs i hi) ((hR q hq).gs j hj) ((hR p hp).area i hi) ((hR q hq).area j hj) (R.io p i) (-R.io p i)]
      have hy : ∀ m u w : ℝ, (if 0 ≤ m then m * u else m * w) + (if 0 ≤ -m then -m * w else -m * u) = 0 := by
        intro m u w
        rcases lt_trichotomy m 0 with h | h | h
        · rw [if_neg (by linarith), if_pos (by linarith)]; ring
        · subst h; simp
        · rw [if_pos (by linarith), if_neg (by linarith)]; ring
      have := hy (R.io p i) (c * φ ((R.inp q).T (R.cell q j))) (c * φ ((R.inp p).T (R.cell p i)))
      linear_combination this
    refine sum_involution (fun a _ => ⟨(partner a.1 a.2).1, (partner a.1 a.2).2⟩) hpair ?_ ?_ ?_
    · intro a ha hne heq
      have := hpair a ha
      rw [heq] at this
      exact hne (by linarith)
    · rintro ⟨p, i⟩ ha
      simp only [mem_sigma, mem_range] at ha ⊢
      exact ⟨(hP p ha.1 i ha.2).1, (hP p ha.1 i ha.2).2.1⟩
    · rintro ⟨p, i⟩ ha
      simp only [mem_sigma, mem_range] at ha
      simp only [(hP p ha.1 i ha.2).2.2]
  unfold suppliedOf
  rw [sum_congr rfl fun p _ => add_assoc _ _ _, sum_add_distrib, hsum, add_zero]

/-- An explicit step of paired parts. -/
theorem paired_law {st' st : State ℝ} {Tp : ℕ → ℕ → ℝ} {S : Finset ℕ} {partner : ℕ → ℕ → ℕ × ℕ}
    (hR : ∀ p ∈ S, Proper G st mat R p) (hpd : Paired G st' st R Tp S partner)
    (hc : ∀ p ∈ S, Calm G st' mat R Tp c M a b h p) (hφ : ConvexOn ℝ (Set.Icc a b) φ) :
    (∀ p ∈ S, ∀ k < (R.geo p).n, a ≤ (R.inp p).T k + h * dTWith G st' mat R Tp p k ∧
      (R.inp p).T k + h * dTWith G st' mat R Tp p k ≤ b) ∧
    ∑ p ∈ S, ∑ k ∈ range (R.geo p).n, M p * φ ((R.inp p).T k + h * dTWith G st' mat R Tp p k) ≤
      ∑ p ∈ S, ∑ k ∈ range (R.geo p).n, M p * φ ((R.inp p).T k) +
        h * ∑ p ∈ S, ambientOf φ (R.geo p) (R.inp p) := by
  have hT : ∀ p ∈ S, ∀ i < G.ports p, a ≤ Tp p i ∧ Tp p i ≤ b := by
    intro p hp i hi
    rw [hpd.temp p hp i hi]
    obtain ⟨h1, h2, -⟩ := hpd.pair p hp i hi
    exact (hc _ h1).cells _ ((hR _ h1).cell _ h2)
  refine ⟨fun p hp => (part_law (hR p hp) (hc p hp) (hT p hp) hφ).1, ?_⟩
  rw [← paired_supply (φ := φ) (c := c) hR hpd, mul_sum, ← sum_add_distrib]
  exact sum_le_sum fun p hp => (part_law (hR p hp) (hc p hp) (hT p hp) hφ).2

/-- **C172**, partial (one moment, with pumps): in an explicit step of a closed plant of pipes and storages, connected
directly or through single pumps, without heat sources, what all cells have of any convex function of their temperatures
grows at most by what enters from the ambient.  Missing: connectors and valves (C109), temperature dependent heat
capacities and steps for which only the code's stability check is known (C171). -/
theorem C172_pumps_partial (hG : PumpedPlant G) (st : State ℝ)
    (hR : ∀ p < G.count, G.numeric p = true → Proper G st mat R p)
    (hio : ∀ p i q j, p < G.count → i < G.ports p → G.link p i = some (q, j) → R.io q j = -R.io p i)
    (hpump : ∀ r < G.count, G.numeric r = false → R.io r 0 + R.io r 1 = 0)
    (hc : ∀ p < G.count, G.numeric p = true → Calm G (connect G st) mat R (pumpedTemp G R) c M a b h p)
    (hφ : ConvexOn ℝ (Set.Icc a b) φ) :
    ∑ p ∈ range G.count with G.numeric p, ∑ k ∈ range (R.geo p).n,
        M p * φ ((R.inp p).T k + h * dTWith G (connect G st) mat R (pumpedTemp G R) p k) ≤
      ∑ p ∈ range G.count with G.numeric p, ∑ k ∈ range (R.geo p).n, M p * φ ((R.inp p).T k) +
        h * ∑ p ∈ range G.count with G.numeric p, ambientOf φ (R.geo p) (R.inp p) :=
  (paired_law (fun p hp => hR p (mem_range.1 (mem_filter.1 hp).1) (mem_filter.1 hp).2) (pumped_paired hG st R hio hpump)
    (fun p hp => hc p (mem_range.1 (mem_filter.1 hp).1) (mem_filter.1 hp).2) hφ).2

/-! ## Steps of the solver -/

section Steps

open Verif.Attempt (call advance Consists At call_at)

/-- The temperatures of all cells of the plant. -/
def field {N : ℕ} (y : Fin N → ℕ → ℝ) (q : ℕ) : ℕ → ℝ := (List.ofFn y).getD q 0

theorem field_eq {N : ℕ} (y : Fin N → ℕ → ℝ) (p : Fin N) : field y p.val = y p := by
  simp [field]

theorem field_update {N : ℕ} (y : Fin N → ℕ → ℝ) (p : Fin N) : Function.update (field y) p.val (y p) = field y :=
  Function.update_eq_self_iff.mpr (field_eq y p).symm

/-- Specification: all cells of the plant are between `a` and `b`. -/
def Inside {N : ℕ} (n : ℕ → ℕ) (a b : ℝ) (y : Fin N → ℕ → ℝ) : Prop := ∀ p : Fin N, ∀ k < n p, a ≤ y p k ∧ y p k ≤ b

/-- Specification: what all cells have of `φ`. -/
noncomputable def plantContent {N : ℕ} (φ : ℝ → ℝ) (M : ℕ → ℝ) (n : ℕ → ℕ) (y : Fin N → ℕ → ℝ) : ℝ :=
  ∑ p : Fin N, ∑ k ∈ range (n p), M p * φ (y p k)

/-- Specification: what enters from the ambient. -/
noncomputable def fromAmbientOf (φ : ℝ → ℝ) (R : Running ℝ) {N : ℕ} (y : Fin N → ℕ → ℝ) : ℝ :=
  ∑ p ∈ range N, ambientOf φ (R.geo p) ((R.at (field y)).inp p)

/-- Specification: the flows, conductances and sizes `R` of a plant of parts with `n` cells of heat capacity `M` and a step
of length `h`, as long as all temperatures are between `a` and `b`. -/
structure Regular (G : Plant) (st : State ℝ) (mat : Mat ℝ) (n : ℕ → ℕ) (c : ℝ) (M : ℕ → ℝ) (a b : ℝ) (R : Running ℝ)
    (h : ℝ) : Prop where
  cells : ∀ p < G.count, (R.geo p).n = n p
  flow : ∀ p i q j, p < G.count → i < G.ports p → G.link p i = some (q, j) → R.io q j = -R.io p i
  proper : ∀ y : Fin G.count → ℕ → ℝ, Inside n a b y → ∀ p < G.count, Proper G st mat (R.at (field y)) p
  calm : ∀ y : Fin G.count → ℕ → ℝ, Inside n a b y → ∀ p < G.count,
    Calm G (connect G st) mat (R.at (field y)) (fun p i => (R.at (field y)).temp (source G p i)) c M a b h p

variable {st : State ℝ} {n : ℕ → ℕ}

/-- The differential of the plant. -/
noncomputable def plantDT (G : Plant) (st : State ℝ) (mat : Mat ℝ) (R : Running ℝ) (y : Fin G.count → ℕ → ℝ)
    (p : Fin G.count) : ℕ → ℝ := liveDT G (connect G st) mat (R.at (field y)) p.val

theorem plant_euler (hG : ClosedPlant G) (hr : Regular G st mat n c M a b R h) (hφ : ConvexOn ℝ (Set.Icc a b) φ)
    {y : Fin G.count → ℕ → ℝ} (hy : Inside n a b y) :
    Inside n a b (y + h • plantDT G st mat R y) ∧
      plantContent φ M n (y + h • plantDT G st mat R y) ≤ plantContent φ M n y + h * fromAmbientOf φ R y := by
  obtain ⟨h1, h2⟩ := paired_law (R := R.at (field y)) (fun p hp => hr.proper y hy p (mem_range.1 hp))
    (direct_paired hG st (R.at (field y)) hr.flow) (fun p hp => hr.calm y hy p (mem_range.1 hp)) hφ
  have e : ∀ (p : Fin G.count) k, (y + h • plantDT G st mat R y) p k = ((R.at (field y)).inp p).T k + h *
      dTWith G (connect G st) mat (R.at (field y)) (fun p i => (R.at (field y)).temp (source G p i)) p k := by
    intro p k
    have : ((R.at (field y)).inp p).T k = y p k := congrFun (field_eq y p) k
    rw [this]
    rfl
  have en : ∀ p : Fin G.count, ((R.at (field y)).geo p).n = n p := fun p => hr.cells p p.2
  constructor
  · intro p k hk
    rw [e]
    exact h1 p (mem_range.2 p.2) k (by rw [en]; exact hk)
  · rw [sum_range, sum_range] at h2
    unfold plantContent
    refine le_trans (le_of_eq ?_) (le_trans h2 (le_of_eq ?_))
    · refine sum_congr rfl fun p _ => ?_
      rw [en]
      exact sum_congr rfl fun k _ => by rw [e]
    · congr 1
      refine sum_congr rfl fun p _ => ?_
      rw [en]
      exact sum_congr rfl fun k _ => by rw [← field_eq y p]; rfl

theorem plantSystem_consists (check : ℕ → (ℕ → ℕ → ℝ) → (ℕ → ℝ) → ℝ → Bool) :
    Consists (plantSystem G (connect G st) mat R check) (n := G.count) (m := 0)
      (fun k p x => liveDT G (connect G st) mat (R.at (Function.update p k.val x)) k.val) (fun j _ => j.elim0)
      (fun y _ => field y) where
  diffs := fun k => ⟨fun _ p x h => ⟨liveDT G (connect G st) mat (R.at (Function.update p k.val x)) k.val, (),
    check k.val p x h⟩, by simp [plantSystem], fun _ _ _ _ => rfl⟩
  solves := fun j => j.elim0
  interm := fun _ _ _ _ => rfl
  result := fun _ _ _ _ => rfl

/-- Specification: the state of the simulation at the beginning of a step. -/
def Holds {N : ℕ} (s : Attempt.State (ℕ → ℝ) Unit Unit (ℕ → ℕ → ℝ)) (y : Fin N → ℕ → ℝ) : Prop :=
  s.parts.map Attempt.PState.prev = List.ofFn y ∧ s.ports = field y ∧ s.nonnum = []

theorem step_holds {check : ℕ → (ℕ → ℕ → ℝ) → (ℕ → ℝ) → ℝ → Bool}
    {s : Attempt.State (ℕ → ℝ) Unit Unit (ℕ → ℕ → ℝ)} {y : Fin G.count → ℕ → ℝ} (hs : Holds s y) {hs' : List ℝ}
    (hst : (call (plantSystem G (connect G st) mat R check) s hs' h).stable = true) :
    Holds (advance (call (plantSystem G (connect G st) mat R check) s hs' h))
      (y + (h / 2) • (plantDT G st mat R y + plantDT G st mat R (y + h • plantDT G st mat R y))) := by
  obtain ⟨h1, h2, h3⟩ := call_at (plantSystem_consists (R := R) check) (w := fun j => j.elim0)
    ⟨hs.1, hs.2.1, by rw [hs.2.2]; rfl⟩ hst
  simp only [field_update] at h1 h2
  exact ⟨h1, h2, List.length_eq_zero_iff.1 h3⟩

/-- **C172**, partial (steps): after an accepted step, whatever attempts were rejected before, all temperatures of a closed
plant of directly connected pipes and storages without heat sources are in the range in which they were, and what all cells
have of a convex function has grown at most by what came from the ambient, at the rates at the beginning of the step and after
its predictor.  Missing as in `C172_pumps_partial`, and pumps, whose temperatures are one evaluation late. -/
theorem C172_step_partial (hG : ClosedPlant G) (hr : Regular G st mat n c M a b R h)
    (hφ : ConvexOn ℝ (Set.Icc a b) φ) {check : ℕ → (ℕ → ℕ → ℝ) → (ℕ → ℝ) → ℝ → Bool}
    {s : Attempt.State (ℕ → ℝ) Unit Unit (ℕ → ℕ → ℝ)} {y : Fin G.count → ℕ → ℝ} (hs : Holds s y) (hy : Inside n a b y)
    {hs' : List ℝ} (hst : (call (plantSystem G (connect G st) mat R check) s hs' h).stable = true) :
    ∃ y₁ z : Fin G.count → ℕ → ℝ, Holds (advance (call (plantSystem G (connect G st) mat R check) s hs' h)) z ∧ Inside n a b y₁ ∧
      Inside n a b z ∧ plantContent φ M n z ≤ plantContent φ M n y + h / 2 * (fromAmbientOf φ R y + fromAmbientOf φ R y₁) := by
  obtain ⟨h1, h2⟩ := plant_euler hG hr hφ hy
  obtain ⟨h3, h4⟩ := plant_euler hG hr hφ h1
  set y₁ := y + h • plantDT G st mat R y with hy₁
  set w := y₁ + h • plantDT G st mat R y₁ with hw
  have hz := step_holds (R := R) (st := st) (mat := mat) (check := check) hs hst
  rw [← hy₁] at hz
  have e : ∀ p k, (y + (h / 2) • (plantDT G st mat R y + plantDT G st mat R y₁)) p k = 1 / 2 * y p k + 1 / 2 * w p k := by
    intro p k
    simp only [hw, hy₁, Pi.add_apply, Pi.smul_apply, smul_eq_mul]
    ring
  refine ⟨y₁, _, hz, h1, fun p k hk => ?_, ?_⟩
  · rw [e]
    constructor
    · have := (hy p k hk).1; have := (h3 p k hk).1; linarith
    · have := (hy p k hk).2; have := (h3 p k hk).2; linarith
  · have hc : plantContent φ M n (y + (h / 2) • (plantDT G st mat R y + plantDT G st mat R y₁)) ≤
        1 / 2 * plantContent φ M n y + 1 / 2 * plantContent φ M n w := by
      unfold plantContent
      rw [mul_sum, mul_sum, ← sum_add_distrib]
      refine sum_le_sum fun p _ => ?_
      rw [mul_sum, mul_sum, ← sum_add_distrib]
      refine sum_le_sum fun k hk => ?_
      have := hφ.2 (hy p k (mem_range.1 hk)) (h3 p k (mem_range.1 hk)) (show (0 : ℝ) ≤ 1 / 2 by norm_num)
        (show (0 : ℝ) ≤ 1 / 2 by norm_num) (by norm_num)
      simp only [smul_eq_mul] at this
      rw [e]
      calc _ ≤ M p * (1 / 2 * φ (y p k) + 1 / 2 * φ (w p k)) := mul_le_mul_of_nonneg_left this (hr.calm y hy p p.2).cap.1.le
        _ = _ := by ring
    linarith

/-! ## Simulations -/

/-- A simulation in which flows, conductances and controlled values may be different in each step: what holds during the step,
its rejected step lengths and the accepted one. -/
noncomputable def runPlant (G : Plant) (st : State ℝ) (mat : Mat ℝ) (check : ℕ → (ℕ → ℕ → ℝ) → (ℕ → ℝ) → ℝ → Bool) :
    Attempt.State (ℕ → ℝ) Unit Unit (ℕ → ℕ → ℝ) → List (Running ℝ × List ℝ × ℝ) →
      Attempt.State (ℕ → ℝ) Unit Unit (ℕ → ℕ → ℝ)
  | s, [] => s
  | s, (R, hs, h) :: l => runPlant G st mat check (advance (call (plantSystem G (connect G st) mat R check) s hs h)) l

/-- Specification: entropy of the plant, temperatures in degree Celsius. -/
noncomputable def plantEntropy {N : ℕ} (M : ℕ → ℝ) (n : ℕ → ℕ) (y : Fin N → ℕ → ℝ) : ℝ :=
  ∑ p : Fin N, ∑ k ∈ range (n p), M p * Real.log (y p k + 273.15)

/-- Specification: heat in the plant. -/
noncomputable def plantHeat {N : ℕ} (M : ℕ → ℝ) (n : ℕ → ℕ) (y : Fin N → ℕ → ℝ) : ℝ :=
  ∑ p : Fin N, ∑ k ∈ range (n p), M p * y p k

theorem content_parts {N : ℕ} (t : ℝ) (M : ℕ → ℝ) (n : ℕ → ℕ) (y : Fin N → ℕ → ℝ) :
    plantContent (exergy t) M n y =
      (plantHeat M n y + ∑ p : Fin N, n p * M p * 273.15) / (t + 273.15) - plantEntropy M n y := by
  unfold plantContent plantHeat plantEntropy
  rw [← sum_add_distrib, sum_div, ← sum_sub_distrib]
  exact sum_congr rfl fun p _ => content_exergy t (M p) (n p) (y p)

theorem ambient_nonpos {t : ℝ} {g : Geo ℝ} {s : Inp ℝ} {ports : List (Port ℝ)} (hphys : Physical mat g s ports)
    (hcells : ∀ k < g.n, a ≤ s.T k) (ht : s.Tamb = t) (hta : a ≤ t) (ha : -273.15 < a) (hn : 1 ≤ g.n) :
    ambientOf (exergy t) g s ≤ 0 := by
  have hm : ∀ k < g.n, exergy t s.Tamb - exergy t (s.T k) ≤ 0 := by
    intro k hk
    have := exergy_min (t := t) (T := s.T k) (by linarith) (by have := hcells k hk; linarith)
    rw [ht]
    linarith
  unfold ambientOf
  have e1 : ∑ k ∈ range g.n, s.uaAmb k * (exergy t s.Tamb - exergy t (s.T k)) ≤ 0 :=
    sum_nonpos fun k hk => mul_nonpos_of_nonneg_of_nonpos (hphys.uaAmb k) (hm k (mem_range.1 hk))
  have e2 := mul_nonpos_of_nonneg_of_nonpos hphys.lidTop (hm 0 (by omega))
  have e3 := mul_nonpos_of_nonneg_of_nonpos hphys.lidBot (hm (g.n - 1) (by omega))
  linarith

/-- **C172**, partial (second law): a closed plant of directly connected pipes and storages in surroundings of the temperature
`t`, in which flows and conductances may be different in each step.  After any number of accepted steps the entropy of the
plant and the entropy that its lost heat gives to the surroundings together have not decreased.  Missing as in
`C172_step_partial`. -/
theorem C172_entropy_partial (hG : ClosedPlant G) {t : ℝ} (ha : -273.15 < a)
    {check : ℕ → (ℕ → ℕ → ℝ) → (ℕ → ℝ) → ℝ → Bool} (l : List (Running ℝ × List ℝ × ℝ)) :
    ∀ {s : Attempt.State (ℕ → ℝ) Unit Unit (ℕ → ℕ → ℝ)} {y : Fin G.count → ℕ → ℝ},
      (∀ e ∈ l, Regular G st mat n c M a b e.1 e.2.2 ∧ ∀ p < G.count, (e.1.inp p).Tamb = t) →
      (∀ (l₁ : List (Running ℝ × List ℝ × ℝ)) e l₂, l = l₁ ++ e :: l₂ →
        (call (plantSystem G (connect G st) mat e.1 check) (runPlant G st mat check s l₁) e.2.1 e.2.2).stable = true) →
      Holds s y → Inside n a b y →
      ∃ z : Fin G.count → ℕ → ℝ, Holds (runPlant G st mat check s l) z ∧ Inside n a b z ∧
        0 ≤ (plantEntropy M n z - plantEntropy M n y) + (plantHeat M n y - plantHeat M n z) / (t + 273.15) := by
  induction l with
  | nil => intro s y _ _ hs hy; exact ⟨y, hs, hy, by simp⟩
  | cons e l ih =>
    obtain ⟨R, hs', h⟩ := e
    intro s y hl hst hs hy
    obtain ⟨hr, ht⟩ := hl _ List.mem_cons_self
    obtain ⟨y₁, z, h1, h2, h3, h4⟩ := C172_step_partial (φ := exergy t) hG hr (exergy_convex t ha) hs hy
      (hst [] _ l rfl)
    obtain ⟨w, h5, h6, h7⟩ := ih (fun e he => hl e (List.mem_cons_of_mem _ he))
      (fun l₁ e l₂ he => hst (_ :: l₁) e l₂ (by rw [he]; rfl)) h1 h3
    refine ⟨w, h5, h6, ?_⟩
    have amb : ∀ v : Fin G.count → ℕ → ℝ, Inside n a b v → fromAmbientOf (exergy t) R v ≤ 0 := by
      intro v hv
      unfold fromAmbientOf
      refine sum_nonpos fun p hp => ?_
      have hp := mem_range.1 hp
      have hcalm := hr.calm v hv p hp
      refine ambient_nonpos hcalm.physical (fun k hk => (hcalm.cells k hk).1) (ht p hp)
        (by rw [← ht p hp]; exact hcalm.ambient.1) ha ?_
      have := (hr.proper v hv p hp).two
      exact le_trans (by norm_num) this
    have s3 : h / 2 * (fromAmbientOf (exergy t) R y + fromAmbientOf (exergy t) R y₁) ≤ 0 := by
      by_cases hc : 0 < G.count
      · have hh := (hr.calm y hy 0 hc).short.1
        exact mul_nonpos_of_nonneg_of_nonpos (by linarith) (by have := amb y hy; have := amb y₁ h2; linarith)
      · have e : ∀ v : Fin G.count → ℕ → ℝ, fromAmbientOf (exergy t) R v = 0 := by
          intro v
          unfold fromAmbientOf
          exact sum_eq_zero fun p hp => absurd (mem_range.1 hp) (by omega)
        rw [e, e]
        simp
    rw [content_parts, content_parts, add_div, add_div] at h4
    rw [sub_div] at h7 ⊢
    linarith

/-! ## Two pipes in a circle -/

/-- Two pipes of two cells in a circle, in air of 10 degrees; the flow `m` may change from step to step. -/
noncomputable def lossyPair (m : ℝ) : Running ℝ where
  cell _ i := i
  io _ i := if i = 0 then m else -m
  geo _ := ⟨2, 1, 1, 1, 0, 0⟩
  inp _ := ⟨fun _ => 0, 0, 0, 10, fun _ => 1, 0, 0, fun _ => 1⟩
  isPipe _ := true
  dQ _ := 0

/-- Equal ports. -/
noncomputable def evenState : State ℝ := ⟨fun _ _ => ⟨1, 1, 1, 1⟩, fun _ _ => Spec.zero⟩

/-- The material of the examples. -/
noncomputable def unitMat : Mat ℝ := ⟨fun _ => 1, fun _ => 1, fun _ => 1⟩

theorem pair_closed : ClosedPlant (ring 2 fun _ => true) := by
  refine ⟨fun _ _ => rfl, fun _ _ => rfl, ?_⟩
  intro p i hp hi
  have hp : p < 2 := hp
  have hi : i < 2 := hi
  interval_cases p <;> interval_cases i
  · exact ⟨(1, 1), rfl, by decide, by decide, rfl⟩
  · exact ⟨(1, 0), rfl, by decide, by decide, rfl⟩
  · exact ⟨(0, 1), rfl, by decide, by decide, rfl⟩
  · exact ⟨(0, 0), rfl, by decide, by decide, rfl⟩

theorem even_calm {m h : ℝ} (hm : 0 ≤ m ∧ m ≤ 3) (hh : 0 ≤ h) (hh' : h ≤ 1 / 10) {st' : State ℝ} {Tp : ℕ → ℕ → ℝ} {p : ℕ}
    {Y : ℕ → ℕ → ℝ} (h2 : G.ports p = 2) (ho : ∀ i < 2, st'.own p i = ⟨1, 1, 1, 1⟩)
    (hc : ∀ i < 2, st'.conn p i = ⟨1, 1, 1, 1⟩) (hY : ∀ k < 2, 10 ≤ Y p k ∧ Y p k ≤ 90) :
    Calm G st' unitMat ((lossyPair m).at Y) Tp 1 (fun _ => 1) 10 90 h p := by
  set R := (lossyPair m).at Y with hRdef
  have hports : portsWith G st' R Tp p = [⟨0, Tp p 0, 1, 1, 1, m⟩, ⟨1, Tp p 1, 1, 1, 1, -m⟩] := by
    unfold portsWith
    rw [h2]
    simp only [List.range_succ, List.range_zero, List.nil_append, List.map_cons, List.map_nil,
      List.singleton_append, ho 0 (by norm_num), ho 1 (by norm_num), hc 0 (by norm_num), hc 1 (by norm_num)]
    norm_num [areaFld, uaWll, areaWll, hRdef, lossyPair, Running.at]
  refine ⟨⟨zero_le_one, fun _ => rfl⟩, ⟨one_pos, fun k _ => by
    norm_num [heatCapacity, unitMat, hRdef, lossyPair, Running.at]⟩, ?_, fun k hk => ?_, by
    norm_num [hRdef, lossyPair, Running.at], rfl, hh, fun k hk => ?_⟩
  · rw [hports]
    refine ⟨fun _ _ => one_pos, one_pos, zero_le_one, le_rfl, fun _ => zero_le_one, fun _ => zero_le_one, le_rfl, le_rfl,
      fun q hq => ?_, fun k _ => by norm_num [heatCapacity, unitMat, hRdef, lossyPair, Running.at]⟩
    simp only [List.mem_cons, List.not_mem_nil, or_false] at hq
    rcases hq with rfl | rfl <;> norm_num [unitMat]
  · exact hY k hk
  · have hk : k < 2 := hk
    have hload : load G st' unitMat R Tp 1 p k ≤ 7 := by
      unfold load
      rw [hports]
      have hm0 : ¬ (m < 0) := not_lt.2 hm.1
      obtain rfl | rfl : k = 0 ∨ k = 1 := by omega
      · norm_num [totalConductance, faceConductance, portConductance, inflowThroughPorts, processVar, slices, cumsum,
          cumsumFrom, pos, unitMat, hRdef, lossyPair, Running.at]
        rw [max_eq_left hm.1]
        split_ifs <;> linarith [hm.1, hm.2]
      · norm_num [totalConductance, faceConductance, portConductance, inflowThroughPorts, processVar, slices, cumsum,
          cumsumFrom, pos, unitMat, hRdef, lossyPair, Running.at]
        rw [max_eq_right (by linarith [hm.1] : -m ≤ 0)]
        split_ifs <;> linarith [hm.1, hm.2]
    have := mul_le_mul_of_nonneg_left hload hh
    linarith

theorem pair_regular {m h : ℝ} (hm : 0 ≤ m ∧ m ≤ 3) (hh : 0 ≤ h) (hh' : h ≤ 1 / 10) :
    Regular (ring 2 fun _ => true) evenState unitMat (fun _ => 2) 1 (fun _ => 1) 10 90 (lossyPair m) h := by
  have hflow : ∀ p i q j, p < 2 → i < 2 → (ring 2 fun _ => true).link p i = some (q, j) →
      (lossyPair m).io q j = -(lossyPair m).io p i := by
    intro p i q j hp hi h
    interval_cases p <;> interval_cases i <;> simp [ring] at h <;> obtain ⟨rfl, rfl⟩ := h <;> norm_num [lossyPair]
  refine ⟨fun _ _ => rfl, hflow, fun y hy p hp => ?_, fun y hy p hp => ?_⟩
  · refine ⟨le_rfl, fun k _ => by norm_num [heatCapacity, unitMat, lossyPair, Running.at], fun i _ => rfl,
      fun i _ => by norm_num [evenState], fun i hi => hi, fun i j h _ => h.le, ?_, fun _ => ⟨rfl, rfl, rfl⟩⟩
    show ∑ i ∈ range 2, (if i = 0 then m else -m) = 0
    simp [sum_range_succ]
  · have hp : p < 2 := hp
    have hpd := direct_paired pair_closed evenState ((lossyPair m).at (field y)) hflow
    exact even_calm hm hh hh' rfl (fun i _ => hpd.own p (mem_range.2 hp) i) (fun i hi => hpd.conn p (mem_range.2 hp) i hi)
      fun k hk => by rw [field_eq y ⟨p, hp⟩]; exact hy ⟨p, hp⟩ k hk

theorem always_stable {X H P N : Type*} [AddCommGroup X] [Module ℝ X] {sys : Attempt.System ℝ X H N P}
    (hd : ∀ d ∈ sys.diffs, ∀ m p x h, (d m p x h).stable = true) (s : Attempt.State X H N P) (hs : List ℝ) (h : ℝ) :
    (call sys s hs h).stable = true := by
  have key : ∀ (p : P) (ds : List (Attempt.Diff ℝ X H P)) (ss : List (Attempt.PState X H)),
      (∀ d ∈ ds, ∀ m p x h, (d m p x h).stable = true) → (Attempt.predict p h ds ss).2 = true := by
    intro p ds
    induction ds with
    | nil => intro ss _; cases ss <;> rfl
    | cons d ds ih =>
      intro ss hds
      cases ss with
      | nil => rfl
      | cons st ss =>
        rw [Attempt.predict, if_pos (hds d List.mem_cons_self _ _ _ _)]
        exact ih ss fun d' hd' => hds d' (List.mem_cons_of_mem _ hd')
  rw [Attempt.call, Attempt.attempt, if_pos (key _ _ _ hd)]
  rfl

/-- One pipe has 80, the other one 20 degrees. -/
noncomputable def pairTemps : Fin 2 → ℕ → ℝ := fun p _ => if p = 0 then 80 else 20

noncomputable def pairStart : Attempt.State (ℕ → ℝ) Unit Unit (ℕ → ℕ → ℝ) :=
  ⟨[⟨pairTemps 0, 0, 0, 0, 0, ()⟩, ⟨pairTemps 1, 0, 0, 0, 0, ()⟩], [], field pairTemps, true⟩

/-- The hypotheses can be met: twenty steps, each after a rejected attempt, in which the flow is switched off and on. -/
example : ∃ z : Fin 2 → ℕ → ℝ, Holds (runPlant (ring 2 fun _ => true) evenState unitMat (fun _ _ _ _ => true) pairStart
      ((List.range 20).map fun j => (lossyPair (if j % 2 = 0 then 3 else 0), [1], 1 / 10))) z ∧
    Inside (fun _ => 2) 10 90 z ∧ 0 ≤ (plantEntropy (fun _ => 1) (fun _ => 2) z -
        plantEntropy (fun _ => 1) (fun _ => 2) pairTemps) + (plantHeat (fun _ => 1) (fun _ => 2) pairTemps -
        plantHeat (fun _ => 1) (fun _ => 2) z) / (10 + 273.15) := by
  refine C172_entropy_partial (c := 1) (t := 10) pair_closed (by norm_num) _ ?_ ?_
    (show Holds pairStart pairTemps from ⟨by simp [pairStart, List.ofFn_succ], rfl, rfl⟩) ?_
  · intro e he
    obtain ⟨j, -, rfl⟩ := List.mem_map.1 he
    refine ⟨pair_regular ?_ (by norm_num) le_rfl, fun _ _ => rfl⟩
    split_ifs <;> norm_num
  · intro l₁ e l₂ _
    refine always_stable (fun d hd => ?_) _ _ _
    obtain ⟨k, rfl⟩ := (List.mem_ofFn' _ _).1 hd
    intros
    rfl
  · intro p k _
    simp only [pairTemps]
    split_ifs <;> norm_num

/-- The hypotheses of `C172_pumps_partial` can be met: a pipe, a pump and another pipe in a circle. -/
example :
    let G := ring 3 fun p => p ≠ 1
    let R := (lossyPair 3).at fun p _ => if p = 0 then 80 else 20
    ∑ p ∈ range G.count with G.numeric p, ∑ k ∈ range (R.geo p).n,
        1 * ((R.inp p).T k + 1 / 10 * dTWith G (connect G evenState) unitMat R (pumpedTemp G R) p k) ^ 2 ≤
      ∑ p ∈ range G.count with G.numeric p, ∑ k ∈ range (R.geo p).n, 1 * ((R.inp p).T k) ^ 2 +
        1 / 10 * ∑ p ∈ range G.count with G.numeric p, ambientOf (fun T => T ^ 2) (R.geo p) (R.inp p) := by
  intro G R
  have hG : PumpedPlant G := by
    refine ⟨fun _ _ => rfl, fun _ _ _ => rfl, ?_, ?_⟩
    · intro r _ hr i hi q hq
      have hr : r = 1 := by simpa [G, ring] using hr
      subst hr
      interval_cases i <;> simp [G, ring] at hq <;> subst hq <;> rfl
    · intro p i hp hi
      have hp : p < 3 := hp
      have hi : i < 2 := hi
      interval_cases p <;> interval_cases i
      · exact ⟨(2, 1), rfl, by decide, by decide, rfl⟩
      · exact ⟨(1, 0), rfl, by decide, by decide, rfl⟩
      · exact ⟨(0, 1), rfl, by decide, by decide, rfl⟩
      · exact ⟨(2, 0), rfl, by decide, by decide, rfl⟩
      · exact ⟨(1, 1), rfl, by decide, by decide, rfl⟩
      · exact ⟨(0, 0), rfl, by decide, by decide, rfl⟩
  have hio : ∀ p i q j, p < G.count → i < G.ports p → G.link p i = some (q, j) → R.io q j = -R.io p i := by
    intro p i q j hp hi h
    have hp : p < 3 := hp
    have hi : i < 2 := hi
    interval_cases p <;> interval_cases i <;> simp [G, ring] at h <;> obtain ⟨rfl, rfl⟩ := h <;>
      norm_num [R, lossyPair, Running.at]
  have hpump : ∀ r < G.count, G.numeric r = false → R.io r 0 + R.io r 1 = 0 := fun r _ _ => by
    norm_num [R, lossyPair, Running.at]
  have hpd := pumped_paired hG evenState R hio hpump
  refine C172_pumps_partial (M := fun _ => 1) (c := 1) (a := 10) (b := 90) (φ := fun T => T ^ 2) hG evenState
    (fun p hp _ => ?_) hio hpump (fun p hp hn => ?_)
    ((Even.convexOn_pow (n := 2) (𝕜 := ℝ) even_two).subset (Set.subset_univ _) (convex_Icc _ _))
  · refine ⟨le_rfl, fun k _ => by norm_num [heatCapacity, unitMat, R, lossyPair, Running.at], fun i _ => rfl,
      fun i _ => by norm_num [evenState], fun i hi => hi, fun i j h _ => h.le, ?_, fun _ => ⟨rfl, rfl, rfl⟩⟩
    show ∑ i ∈ range 2, (if i = 0 then (3 : ℝ) else -3) = 0
    simp [sum_range_succ]
  · have hm : p ∈ (range G.count).filter fun p => G.numeric p := mem_filter.2 ⟨mem_range.2 hp, hn⟩
    exact even_calm (by norm_num) (by norm_num) le_rfl rfl (fun i _ => hpd.own p hm i) (fun i hi => hpd.conn p hm i hi)
      fun k _ => by split_ifs <;> norm_num

end Steps

end Verif.PortCond
