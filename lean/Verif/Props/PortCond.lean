import Verif.Model.PortCond
import Verif.Model.Cells
import Verif.Model.Mixing
import Mathlib.Tactic.Ring
import Mathlib.Tactic.Linarith
import Mathlib.Tactic.FieldSimp
import Mathlib.Tactic.NormNum
import Mathlib.Tactic.IntervalCases
import Mathlib.Algebra.Order.Ring.Rat

/-!
# C109, C110: heat conduction through connections
-/

set_option linter.unusedSectionVars false

namespace Verif.PortCond

variable {K : Type*} [Field K]

/-! ## What the set-up computes -/

/-- Specification: parts without differential equation whose port values are handed on are connected to parts with
differential equation (or to parts without conduction) only. -/
def Separated (G : Plant) : Prop :=
  ∀ r, r < G.count → G.numeric r = false → G.heatcond r = true → ∀ i, i < G.ports r →
    ∃ q, G.link r i = some q ∧ (G.numeric q.1 = true ∨ G.heatcond q.1 = false)

/-- Specification: connections join ports that exist. -/
def Closed (G : Plant) : Prop :=
  ∀ p, p < G.count → ∀ i, i < G.ports p → ∀ q, G.link p i = some q → q.1 < G.count ∧ q.2 < G.ports q.1

/-- What port `i` of part `p` is connected to, seen through at most one part without differential equation. -/
def seen (G : Plant) (own : ℕ → ℕ → Spec K) (p i : ℕ) : Spec K :=
  let q := source G p i
  if G.heatcond q.1 then
    if G.numeric q.1 then own q.1 q.2 else Spec.meanOthers (G.ports q.1) (read G own q.1) q.2
  else Spec.zero

theorem visit_own_numeric (G : Plant) (s : State K) (p : ℕ) {q : ℕ} (hq : G.numeric q = true) (i : ℕ) :
    (visit G s p).own q i = s.own q i := by
  show (if _ then _ else _) = _
  rw [if_neg]
  rintro ⟨rfl, h, -⟩
  rw [hq] at h
  cases h

theorem meanOthers_congr {n : ℕ} {f g : ℕ → Spec K} {i : ℕ} (h : ∀ j < n, f j = g j) :
    Spec.meanOthers n f i = Spec.meanOthers n g i := by
  have e : ∀ j ∈ (Finset.range n).erase i, f j = g j := fun j hj =>
    h j (Finset.mem_range.mp (Finset.mem_of_mem_erase hj))
  unfold Spec.meanOthers meanOthers
  congr 2 <;> exact Finset.sum_congr rfl fun j hj => by simp only [e j hj]

/-- The invariant of the loop over the parts without differential equation. -/
theorem visits (G : Plant) (hS : Separated G) (own : ℕ → ℕ → Spec K) (l : List ℕ) (hl : ∀ p ∈ l, p < G.count) :
    ∀ (s : State K) (done : List ℕ), (∀ p ∈ done, p < G.count) → (∀ q i, G.numeric q = true → s.own q i = own q i) →
      (∀ r ∈ done, G.numeric r = false → G.heatcond r = true → ∀ i < G.ports r,
        s.own r i = Spec.meanOthers (G.ports r) (read G own r) i) →
      (∀ q i, G.numeric q = true → (l.foldl (visit G) s).own q i = own q i) ∧
      (∀ r, r ∈ done ∨ r ∈ l → G.numeric r = false → G.heatcond r = true → ∀ i < G.ports r,
        (l.foldl (visit G) s).own r i = Spec.meanOthers (G.ports r) (read G own r) i) := by
  induction l with
  | nil =>
    intro s done _ h1 h2
    exact ⟨h1, fun r hr => h2 r (by simpa using hr)⟩
  | cons p l ih =>
    intro s done hd h1 h2
    have hp := hl p List.mem_cons_self
    obtain ⟨r1, r2⟩ := ih (fun q hq => hl q (List.mem_cons_of_mem _ hq)) (visit G s p) (p :: done)
      (by
        intro q hq
        rcases List.mem_cons.mp hq with rfl | hq
        · exact hp
        · exact hd q hq)
      (fun q i hq => by rw [visit_own_numeric G s p hq, h1 q i hq])
      (by
        intro r hr hn hc i hi
        show (if r = p ∧ G.numeric p = false ∧ i < G.ports p then _ else _) = _
        by_cases hrp : r = p
        · subst hrp
          rw [if_pos ⟨rfl, hn, hi⟩]
          apply meanOthers_congr
          intro j hj
          rw [if_pos hj]
          obtain ⟨q, e, h⟩ := hS r hp hn hc j hj
          unfold read source
          rw [e]
          simp only [Option.getD_some]
          rcases h with h | h
          · rw [h1 _ _ h]
          · simp [h]
        · rw [if_neg (fun h => hrp h.1)]
          rcases List.mem_cons.mp hr with rfl | hr
          · exact absurd rfl hrp
          · exact h2 r hr hn hc i hi)
    refine ⟨r1, fun r hr => r2 r ?_⟩
    rcases hr with hr | hr
    · exact Or.inl (List.mem_cons_of_mem _ hr)
    · rcases List.mem_cons.mp hr with rfl | hr
      · exact Or.inl List.mem_cons_self
      · exact Or.inr hr

/-- The loop over the parts with differential equation. -/
theorem visits_numeric (G : Plant) (l : List ℕ) (hl : ∀ p ∈ l, G.numeric p = true) : ∀ (s : State K),
    (l.foldl (visit G) s).own = s.own ∧
      ∀ p i, i < G.ports p → (p ∈ l ∨ s.conn p i = read G s.own p i) →
        (l.foldl (visit G) s).conn p i = read G s.own p i := by
  induction l with
  | nil =>
    intro s
    exact ⟨rfl, fun p i _ h => by simpa using h⟩
  | cons a l ih =>
    intro s
    have ha := hl a List.mem_cons_self
    have hown : (visit G s a).own = s.own := by
      funext q i
      show (if q = a ∧ G.numeric a = false ∧ i < G.ports a then _ else _) = _
      rw [if_neg (by rintro ⟨-, h, -⟩; rw [ha] at h; cases h)]
    obtain ⟨i1, i2⟩ := ih (fun p hp => hl p (List.mem_cons_of_mem _ hp)) (visit G s a)
    rw [hown] at i1 i2
    refine ⟨i1, fun p i hi h => i2 p i hi ?_⟩
    by_cases hpa : p = a
    · right
      subst hpa
      show (if p = p then (if i < G.ports p then _ else _) else _) = _
      rw [if_pos rfl, if_pos hi]
    · rcases h with h | h
      · rcases List.mem_cons.mp h with rfl | h
        · exact absurd rfl hpa
        · exact Or.inl h
      · right
        show (if p = a then _ else _) = _
        rw [if_neg hpa, h]

/-- What a part with differential equation learns about its ports. -/
theorem connect_conn {G : Plant} (hS : Separated G) (hC : Closed G) (s : State K) {p i : ℕ} (hp : p < G.count)
    (hn : G.numeric p = true) (hi : i < G.ports p) : (connect G s).conn p i = seen G s.own p i := by
  unfold connect loopOrder
  rw [List.foldl_append]
  obtain ⟨v1, v2⟩ := visits G hS s.own ((List.range G.count).filter fun p => !G.numeric p).reverse
    (fun q hq => by simp only [List.mem_reverse, List.mem_filter, List.mem_range] at hq; exact hq.1) s []
    (by simp) (fun _ _ _ => rfl) (by simp)
  obtain ⟨-, w⟩ := visits_numeric G ((List.range G.count).filter G.numeric)
    (fun q hq => by simp only [List.mem_filter] at hq; exact hq.2)
    (((List.range G.count).filter fun p => !G.numeric p).reverse.foldl (visit G) s)
  rw [w p i hi (Or.inl (by simp [hp, hn]))]
  unfold seen read
  simp only
  by_cases hc : G.heatcond (source G p i).1 = true
  · rw [if_pos hc, if_pos hc]
    by_cases hq : G.numeric (source G p i).1 = true
    · rw [if_pos hq, v1 _ _ hq]
    · rw [if_neg hq]
      have hb : G.numeric (source G p i).1 = false := by simpa using hq
      have hcl : (source G p i).1 < G.count ∧ (source G p i).2 < G.ports (source G p i).1 := by
        unfold source at hq ⊢
        cases e : G.link p i with
        | none => rw [e] at hq; exact absurd hn hq
        | some q => exact hC p hp i hi q e
      exact v2 _ (Or.inr (by simp [hcl.1, hb])) hb hc _ hcl.2
  · rw [if_neg hc, if_neg hc]

/-- The own values of a part with differential equation are not changed. -/
theorem connect_own {G : Plant} (hS : Separated G) (s : State K) {p : ℕ} (hn : G.numeric p = true) (i : ℕ) :
    (connect G s).own p i = s.own p i := by
  unfold connect loopOrder
  rw [List.foldl_append]
  obtain ⟨v1, -⟩ := visits G hS s.own ((List.range G.count).filter fun p => !G.numeric p).reverse
    (fun q hq => by simp only [List.mem_reverse, List.mem_filter, List.mem_range] at hq; exact hq.1) s []
    (by simp) (fun _ _ _ => rfl) (by simp)
  obtain ⟨w, -⟩ := visits_numeric G ((List.range G.count).filter G.numeric)
    (fun q hq => by simp only [List.mem_filter] at hq; exact hq.2)
    (((List.range G.count).filter fun p => !G.numeric p).reverse.foldl (visit G) s)
  rw [w, v1 p i hn]

/-! ## C109 -/

section Heat

open Verif.Cells (Mat Geo Inp)

variable [LinearOrder K]

/-- Specification: the heat a part receives by conduction through a port whose own values are `own`, connected to a
port with the values `conn`, where the part sees the temperature `T`. -/
def heat (mat : Mat K) (g : Geo K) (s : Inp K) (own conn : Spec K) (idx : ℕ) (T : K) : K :=
  Cells.uaPort mat g s ⟨idx, T, areaFld own conn, conn.gsp, uaWll own conn, 0⟩ * (T - s.T idx)

theorem heat_exchange {mat : Mat K} {g g' : Geo K} {s s' : Inp K} {own own' : Spec K} {a a' : ℕ}
    (hg : g.gs = own.gsp) (hg' : g'.gs = own'.gsp) (h : own.aFld ≠ 0 ∧ own.aWll ≠ 0)
    (h' : own'.aFld ≠ 0 ∧ own'.aWll ≠ 0) :
    heat mat g s own own' a (s'.T a') + heat mat g' s' own' own a' (s.T a) = 0 := by
  unfold heat Cells.uaPort areaFld uaWll areaWll
  simp only [h.1, h.2, h'.1, h'.2, if_false, hg, hg']
  rw [add_comm own.aFld, add_comm own.aWll, add_comm (own.gsp / (2 * mat.lam _)), add_comm (own.gsp / (2 * own.lam))]
  ring

/-- **C109**, partial (direct connections): if two parts with differential equation are connected directly, the heat
that one of them receives by conduction through the connection is the heat the other one loses.  Missing: connectors
and valves between the parts (`C109_fails_sizes`, `C109_fails_split`) and several parts without differential equation
in a row (`C109_fails_chain`). -/
theorem C109_direct_partial {G : Plant} (hS : Separated G) (hC : Closed G) (st : State K) {p i q j : ℕ}
    (hp : p < G.count ∧ G.numeric p = true ∧ G.heatcond p = true ∧ i < G.ports p)
    (hq : q < G.count ∧ G.numeric q = true ∧ G.heatcond q = true ∧ j < G.ports q)
    (hl : G.link p i = some (q, j)) (hl' : G.link q j = some (p, i))
    (mat : Mat K) (g g' : Geo K) (s s' : Inp K) (a a' : ℕ)
    (hg : g.gs = (st.own p i).gsp) (hg' : g'.gs = (st.own q j).gsp)
    (h : (st.own p i).aFld ≠ 0 ∧ (st.own p i).aWll ≠ 0) (h' : (st.own q j).aFld ≠ 0 ∧ (st.own q j).aWll ≠ 0) :
    let c := connect G st
    heat mat g s (c.own p i) (c.conn p i) a (s'.T a') + heat mat g' s' (c.own q j) (c.conn q j) a' (s.T a) = 0 := by
  intro c
  have e1 : c.own p i = st.own p i := connect_own hS st hp.2.1 i
  have e2 : c.own q j = st.own q j := connect_own hS st hq.2.1 j
  have e3 : c.conn p i = st.own q j := by
    rw [connect_conn hS hC st hp.1 hp.2.1 hp.2.2.2]
    simp [seen, source, hl, hq.2.1, hq.2.2.1]
  have e4 : c.conn q j = st.own p i := by
    rw [connect_conn hS hC st hq.1 hq.2.1 hq.2.2.2]
    simp [seen, source, hl', hp.2.1, hp.2.2.1]
  rw [e1, e2, e3, e4]
  exact heat_exchange hg hg' h h'

theorem meanOthers_two (f : ℕ → Spec K) : Spec.meanOthers 2 f 0 = f 1 ∧ Spec.meanOthers 2 f 1 = f 0 := by
  have e0 : (Finset.range 2).erase 0 = {1} := by decide
  have e1 : (Finset.range 2).erase 1 = {0} := by decide
  unfold Spec.meanOthers meanOthers
  rw [e0, e1]
  simp

/-- **C109**, partial (pumps): the same for two parts with a pump between them; the part at one port of the pump sees
the temperature of the part at the other port. -/
theorem C109_pump_partial {G : Plant} (hS : Separated G) (hC : Closed G) (st : State K) {p i q j r : ℕ}
    (hp : p < G.count ∧ G.numeric p = true ∧ G.heatcond p = true ∧ i < G.ports p)
    (hq : q < G.count ∧ G.numeric q = true ∧ G.heatcond q = true ∧ j < G.ports q)
    (hr : G.numeric r = false ∧ G.heatcond r = true ∧ G.ports r = 2)
    (hl : G.link p i = some (r, 0)) (hl' : G.link q j = some (r, 1))
    (hk : G.link r 0 = some (p, i)) (hk' : G.link r 1 = some (q, j))
    (mat : Mat K) (g g' : Geo K) (s s' : Inp K) (a a' : ℕ)
    (hg : g.gs = (st.own p i).gsp) (hg' : g'.gs = (st.own q j).gsp)
    (h : (st.own p i).aFld ≠ 0 ∧ (st.own p i).aWll ≠ 0) (h' : (st.own q j).aFld ≠ 0 ∧ (st.own q j).aWll ≠ 0) :
    let c := connect G st
    let T := Mixing.pump ![s.T a, s'.T a']
    heat mat g s (c.own p i) (c.conn p i) a (T 0) + heat mat g' s' (c.own q j) (c.conn q j) a' (T 1) = 0 := by
  intro c T
  have e1 : c.own p i = st.own p i := connect_own hS st hp.2.1 i
  have e2 : c.own q j = st.own q j := connect_own hS st hq.2.1 j
  have e3 : c.conn p i = st.own q j := by
    rw [connect_conn hS hC st hp.1 hp.2.1 hp.2.2.2]
    simp [seen, source, hl, hr.1, hr.2.1, hr.2.2, (meanOthers_two _).1, read, hk', hq.2.2.1]
  have e4 : c.conn q j = st.own p i := by
    rw [connect_conn hS hC st hq.1 hq.2.1 hq.2.2.2]
    simp [seen, source, hl', hr.1, hr.2.1, hr.2.2, (meanOthers_two _).2, read, hk, hp.2.2.1]
  rw [e1, e2, e3, e4]
  exact heat_exchange hg hg' h h'

/-- **C109** (no conduction): a part does not conduct heat to a part that does not conduct heat to it. -/
theorem C109_disabled {G : Plant} (hS : Separated G) (hC : Closed G) (st : State K) {p i q j : ℕ}
    (hp : p < G.count ∧ G.numeric p = true ∧ i < G.ports p) (hl : G.link p i = some (q, j))
    (hq : G.heatcond q = false) (mat : Mat K) (g : Geo K) (s : Inp K) (a : ℕ) (T : K) :
    let c := connect G st
    heat mat g s (c.own p i) (c.conn p i) a T = 0 := by
  intro c
  have e : c.conn p i = Spec.zero := by
    rw [connect_conn hS hC st hp.1 hp.2.1 hp.2.2]
    simp [seen, source, hl, hq]
  rw [e]
  simp [heat, Cells.uaPort, areaFld, uaWll, Spec.zero]

theorem meanOthers_three [IsStrictOrderedRing K] (f : ℕ → Spec K) (o : Spec K) (h : ∀ j < 3, f j = o) {i : ℕ}
    (hi : i < 3) : Spec.meanOthers 3 f i = o := by
  have e : ∀ φ : Spec K → K, meanOthers 3 (fun j => φ (f j)) i = φ o := by
    intro φ
    unfold meanOthers
    rw [Finset.sum_congr rfl fun j hj =>
      congrArg φ (h j (Finset.mem_range.mp (Finset.mem_of_mem_erase hj))), Finset.sum_const,
      Finset.card_erase_of_mem (Finset.mem_range.mpr hi), Finset.card_range, nsmul_eq_mul]
    norm_num
  show Spec.mk _ _ _ _ = o
  rw [e Spec.aWll, e Spec.aFld, e Spec.gsp, e Spec.lam]

/-- **C109**, partial (connectors without flow): three equal ports at a connector through which nothing flows
exchange heat without loss, if the conductivity of water is constant. -/
theorem C109_idle_partial [IsStrictOrderedRing K] {G : Plant} (hS : Separated G) (hC : Closed G) (st : State K)
    {r : ℕ} {p i : Fin 3 → ℕ} {o : Spec K}
    (hp : ∀ k, p k < G.count ∧ G.numeric (p k) = true ∧ G.heatcond (p k) = true ∧ i k < G.ports (p k))
    (hr : G.numeric r = false ∧ G.heatcond r = true ∧ G.ports r = 3)
    (hl : ∀ k : Fin 3, G.link (p k) (i k) = some (r, k.val)) (hk : ∀ k : Fin 3, G.link r k.val = some (p k, i k))
    (mat : Mat K) (lam : K) (hlam : ∀ T, mat.lam T = lam) (g : Fin 3 → Geo K) (s : Fin 3 → Inp K) (a : Fin 3 → ℕ)
    (hg : ∀ k, (g k).gs = o.gsp) (ho : ∀ k, st.own (p k) (i k) = o) (cp : K → K) :
    let c := connect G st
    let T := Mixing.connector cp (fun _ => 0) fun k => (s k).T (a k)
    ∑ k, heat mat (g k) (s k) (c.own (p k) (i k)) (c.conn (p k) (i k)) (a k) (T k) = 0 := by
  intro c T
  have e1 : ∀ k, c.own (p k) (i k) = o := fun k => (connect_own hS st (hp k).2.1 (i k)).trans (ho k)
  have e2 : ∀ k, c.conn (p k) (i k) = o := by
    intro k
    rw [connect_conn hS hC st (hp k).1 (hp k).2.1 (hp k).2.2.2]
    simp only [seen, source, hl, Option.getD_some, hr.1, hr.2.1, hr.2.2, if_true, Bool.false_eq_true, if_false]
    apply meanOthers_three _ _ _ k.2
    intro j hj
    have hk' := hk ⟨j, hj⟩
    simp only at hk'
    simp [read, source, hk', (hp ⟨j, hj⟩).2.2.1, ho]
  have hT : T = ![((s 1).T (a 1) + (s 2).T (a 2)) / 2, ((s 0).T (a 0) + (s 2).T (a 2)) / 2,
      ((s 0).T (a 0) + (s 1).T (a 1)) / 2] := by
    simp [T, Mixing.connector, Mixing.count]
  simp only [e1, e2, hT, heat, Cells.uaPort, hlam, hg, Fin.sum_univ_three, Matrix.cons_val_zero, Matrix.cons_val_one,
    Matrix.cons_val]
  ring

end Heat

/-! ## C110 -/

/-- **C110**, partial (repetition): initialising the environment again does not change what a part learns about its
ports.  Missing: two parts without differential equation in a row, and such parts at boundary conditions
(`C110_fails_again`, `C110_fails_boundary`). -/
theorem C110_again_partial {G : Plant} (hS : Separated G) (hC : Closed G) (st : State K) {p i : ℕ}
    (hp : p < G.count) (hn : G.numeric p = true) (hi : i < G.ports p) :
    (connect G (connect G st)).conn p i = (connect G st).conn p i := by
  rw [connect_conn hS hC _ hp hn hi, connect_conn hS hC _ hp hn hi]
  unfold seen
  simp only
  by_cases hc : G.heatcond (source G p i).1 = true
  · rw [if_pos hc, if_pos hc]
    by_cases hq : G.numeric (source G p i).1 = true
    · rw [if_pos hq, if_pos hq, connect_own hS st hq]
    · rw [if_neg hq, if_neg hq]
      have hb : G.numeric (source G p i).1 = false := by simpa using hq
      have hcl : (source G p i).1 < G.count := by
        unfold source at hq ⊢
        cases e : G.link p i with
        | none => rw [e] at hq; exact absurd hn hq
        | some q => exact (hC p hp i hi q e).1
      apply meanOthers_congr
      intro j hj
      obtain ⟨q, e, h⟩ := hS _ hcl hb hc j hj
      have e' : source G (source G p i).1 j = q := by
        rw [source, e]
        rfl
      unfold read
      simp only [e']
      rcases h with h | h
      · rw [connect_own hS st h]
      · simp [h]
  · rw [if_neg hc, if_neg hc]

/-- Specification: the same plant with its parts added in another order. -/
structure Reordered (G G' : Plant) (s s' : State K) (σ : ℕ → ℕ) : Prop where
  count : ∀ p, p < G.count → σ p < G'.count
  numeric : ∀ p, G'.numeric (σ p) = G.numeric p
  heatcond : ∀ p, G'.heatcond (σ p) = G.heatcond p
  ports : ∀ p, G'.ports (σ p) = G.ports p
  link : ∀ p i, G'.link (σ p) i = (G.link p i).map fun q => (σ q.1, q.2)
  own : ∀ p i, s'.own (σ p) i = s.own p i

/-- **C110**, partial (order): what a part learns about its ports does not depend on the order in which the parts
were added.  Missing: as before (`C110_fails_order`). -/
theorem C110_order_partial {G G' : Plant} (hS : Separated G) (hC : Closed G) (hS' : Separated G') (hC' : Closed G')
    {s s' : State K} {σ : ℕ → ℕ} (h : Reordered G G' s s' σ) {p i : ℕ} (hp : p < G.count)
    (hn : G.numeric p = true) (hi : i < G.ports p) :
    (connect G' s').conn (σ p) i = (connect G s).conn p i := by
  rw [connect_conn hS hC _ hp hn hi, connect_conn hS' hC' _ (h.count p hp) (by rw [h.numeric, hn])
    (by rw [h.ports]; exact hi)]
  have src : ∀ p i, source G' (σ p) i = (σ (source G p i).1, (source G p i).2) := by
    intro p i
    unfold source
    rw [h.link]
    cases G.link p i <;> rfl
  have rd : ∀ p i, read G' s'.own (σ p) i = read G s.own p i := by
    intro p i
    unfold read
    rw [src]
    simp only [h.heatcond, h.own]
  unfold seen
  rw [src]
  simp only [h.heatcond, h.numeric, h.own, h.ports]
  have : read G' s'.own (σ (source G p i).1) = read G s.own (source G p i).1 := funext fun j => rd _ j
  rw [this]

/-! ## Examples and counterexamples -/

section Examples

/-- A chain of parts with two ports each, closed to a ring: port 1 of each part is connected to port 0 of the next
one. -/
def ring (n : ℕ) (numeric : ℕ → Bool) : Plant where
  count := n
  numeric := numeric
  heatcond _ := true
  ports _ := 2
  link p i := if i = 0 then some ((p + n - 1) % n, 1) else some ((p + 1) % n, 0)

/-- Pipes of two sizes and a pump which was declared with a third one. -/
def big : Spec ℚ := ⟨2, 4, 1, 1⟩
def small : Spec ℚ := ⟨1, 2, 1, 1⟩
def spec3 : Spec ℚ := ⟨1, 1, 1, 1⟩

theorem ring_closed {n : ℕ} (hn : 0 < n) (f : ℕ → Bool) : Closed (ring n f) := by
  intro p hp i hi q hq
  simp only [ring] at hq ⊢
  split_ifs at hq
  · cases hq
    exact ⟨Nat.mod_lt _ hn, by norm_num⟩
  · cases hq
    exact ⟨Nat.mod_lt _ hn, by norm_num⟩

/-- A pipe, a pump and two more pipes in a circle meet the hypotheses. -/
example : Separated (ring 4 fun p => p ≠ 1) ∧ Closed (ring 4 fun p => p ≠ 1) := by
  refine ⟨?_, ring_closed (by norm_num) _⟩
  intro r hr hn _ i hi
  have h1 : r = 1 := by simpa [ring] using hn
  subst h1
  have : i < 2 := hi
  interval_cases i
  · exact ⟨(0, 1), rfl, Or.inl rfl⟩
  · exact ⟨(2, 0), rfl, Or.inl rfl⟩

/-- The big pipe learns the size of the small one behind the pump. -/
example : ((connect (ring 4 fun p => p ≠ 1) ⟨fun p _ => if p = 0 then big else if p = 1 then spec3 else small,
    fun _ _ => Spec.zero⟩).conn 0 1).aFld = 2 := by decide +kernel

/-- A ring of a big pipe, two pumps and a small pipe. -/
def twoPumps : Plant := ring 4 fun p => p ≠ 1 ∧ p ≠ 2

def twoPumpsState : State ℚ :=
  ⟨fun p _ => if p = 0 then big else if p = 3 then small else spec3, fun _ _ => Spec.zero⟩

/-- The two pumps, added in the other order. -/
def swap12 (p : ℕ) : ℕ := if p = 1 then 2 else if p = 2 then 1 else p

def twoPumps' : Plant where
  count := 4
  numeric p := p ≠ 1 ∧ p ≠ 2
  heatcond _ := true
  ports _ := 2
  link p i := (twoPumps.link (swap12 p) i).map fun q => (swap12 q.1, q.2)

theorem swap12_swap12 (p : ℕ) : swap12 (swap12 p) = p := by
  unfold swap12
  split_ifs <;> omega

/-- **C110** is false of the code: with two pumps in a row, which size the pipe behind them is told to be connected to
depends on which pump was added first. -/
theorem C110_fails_order :
    Closed twoPumps ∧ Reordered twoPumps twoPumps' twoPumpsState twoPumpsState swap12 ∧
      ((connect twoPumps twoPumpsState).conn 3 0).aFld = 1 ∧
      ((connect twoPumps' twoPumpsState).conn (swap12 3) 0).aFld = 4 := by
  refine ⟨ring_closed (by norm_num) _, ⟨?_, ?_, fun _ => rfl, fun _ => rfl, ?_, ?_⟩, by decide +kernel,
    by decide +kernel⟩
  · intro p hp
    have : p < 4 := hp
    show swap12 p < 4
    unfold swap12
    split_ifs <;> omega
  · intro p
    show decide (swap12 p ≠ 1 ∧ swap12 p ≠ 2) = decide (p ≠ 1 ∧ p ≠ 2)
    have : (swap12 p ≠ 1 ∧ swap12 p ≠ 2) ↔ (p ≠ 1 ∧ p ≠ 2) := by
      unfold swap12
      split_ifs <;> omega
    simp only [this]
  · intro p i
    show (twoPumps.link (swap12 (swap12 p)) i).map _ = _
    rw [swap12_swap12]
  · intro p i
    show (if swap12 p = 0 then big else if swap12 p = 3 then small else spec3) =
      if p = 0 then big else if p = 3 then small else spec3
    have h0 : swap12 p = 0 ↔ p = 0 := by unfold swap12; split_ifs <;> simp_all
    have h3 : swap12 p = 3 ↔ p = 3 := by unfold swap12; split_ifs <;> simp_all
    simp only [h0, h3]

/-- **C110** is false of the code: initialising the same environment a second time changes the size. -/
theorem C110_fails_again :
    ((connect twoPumps twoPumpsState).conn 3 0).aFld = 1 ∧
      ((connect twoPumps (connect twoPumps twoPumpsState)).conn 3 0).aFld = 4 := by
  constructor <;> decide +kernel

/-- A pump between a boundary condition and a big pipe, whose other end is at a boundary condition, too. -/
def pumpAtBC : Plant where
  count := 2
  numeric p := p = 1
  heatcond _ := true
  ports _ := 2
  link p i := if p = 0 ∧ i = 1 then some (1, 0) else if p = 1 ∧ i = 0 then some (0, 1) else none

/-- **C110** is false of the code: the same happens with a single pump at a boundary condition. -/
theorem C110_fails_boundary :
    let s : State ℚ := ⟨fun p _ => if p = 0 then spec3 else big, fun _ _ => Spec.zero⟩
    Closed pumpAtBC ∧ ((connect pumpAtBC s).conn 1 0).aFld = 1 ∧
      ((connect pumpAtBC (connect pumpAtBC s)).conn 1 0).aFld = 4 := by
  refine ⟨?_, by decide +kernel, by decide +kernel⟩
  intro p _ i _ q hq
  simp only [pumpAtBC] at hq ⊢
  split_ifs at hq <;> cases hq <;> constructor <;> norm_num

open Verif.Cells (Mat Geo Inp)

/-- Water with constant properties. -/
def mat1 : Mat ℚ := ⟨fun _ => 1, fun _ => 1, fun _ => 1⟩
def geo1 : Geo ℚ := ⟨2, 1, 1, 1, 0, 0⟩
def inp1 (T : ℚ) : Inp ℚ := ⟨fun _ => T, 0, 0, 0, fun _ => 0, 0, 0, fun _ => 1⟩

/-- **C109** is false of the code with two pumps in a row: the pipes exchange heat through two different
conductances: one loses 270 W, the other one receives 150 W. -/
theorem C109_fails_chain :
    let c := connect twoPumps twoPumpsState
    heat mat1 geo1 (inp1 80) (c.own 0 1) (c.conn 0 1) 1 20 = -270 ∧
      heat mat1 geo1 (inp1 20) (c.own 3 0) (c.conn 3 0) 0 80 = 150 := by
  constructor <;> decide +kernel

/-- A part without differential equation with three ports (part 0) between three pipes. -/
def star : Plant where
  count := 4
  numeric p := p ≠ 0
  heatcond _ := true
  ports p := if p = 0 then 3 else 1
  link p i := if p = 0 then some (i + 1, 0) else some (0, p - 1)

theorem star_separated : Separated star ∧ Closed star := by
  constructor
  · intro r _ hn _ i hi
    have h0 : r = 0 := by simpa [star] using hn
    subst h0
    exact ⟨(i + 1, 0), rfl, Or.inl (by simp [star])⟩
  · intro p hp i hi q hq
    have hp : p < 4 := hp
    by_cases h : p = 0
    · subst h
      have hi : i < 3 := hi
      have : q = (i + 1, 0) := by simpa [star, eq_comm] using hq
      subst this
      exact ⟨by show i + 1 < 4; omega, by simp [star]⟩
    · have : q = (0, p - 1) := by simpa [star, h, eq_comm] using hq
      subst this
      exact ⟨by show 0 < 4; omega, by show p - 1 < 3; omega⟩

/-- Three equal pipes at a connector without flow meet the hypotheses of `C109_idle_partial`. -/
example :
    let c := connect star ⟨fun _ _ => small, fun _ _ => Spec.zero⟩
    let T := Mixing.connector (fun _ => 1) ![0, 0, 0] ![80, 20, 50]
    heat mat1 geo1 (inp1 80) (c.own 1 0) (c.conn 1 0) 0 (T 0) = -135 ∧
      heat mat1 geo1 (inp1 20) (c.own 2 0) (c.conn 2 0) 0 (T 1) = 135 ∧
      heat mat1 geo1 (inp1 50) (c.own 3 0) (c.conn 3 0) 0 (T 2) = 0 := by
  refine ⟨?_, ?_, ?_⟩ <;> decide +kernel

/-- **C109** is false of the code for pipes of different sizes at a connector without flow: the three pipes together
lose heat that nothing else receives. -/
theorem C109_fails_sizes :
    let c := connect star ⟨fun p _ => if p = 1 then big else small, fun _ _ => Spec.zero⟩
    let T := Mixing.connector (fun _ => 1) ![0, 0, 0] ![80, 20, 20]
    heat mat1 geo1 (inp1 80) (c.own 1 0) (c.conn 1 0) 0 (T 0) +
      heat mat1 geo1 (inp1 20) (c.own 2 0) (c.conn 2 0) 0 (T 1) +
      heat mat1 geo1 (inp1 20) (c.own 3 0) (c.conn 3 0) 0 (T 2) = -45 := by
  decide +kernel

/-- **C109** is false of the code for splitting valves, even between equal pipes: warm water in one branch and cold
water on the other sides. -/
theorem C109_fails_split :
    let c := connect star ⟨fun _ _ => small, fun _ _ => Spec.zero⟩
    let T := Mixing.splitValve ![(80 : ℚ), 20, 20]
    heat mat1 geo1 (inp1 80) (c.own 1 0) (c.conn 1 0) 0 (T 0) +
      heat mat1 geo1 (inp1 20) (c.own 2 0) (c.conn 2 0) 0 (T 1) +
      heat mat1 geo1 (inp1 20) (c.own 3 0) (c.conn 3 0) 0 (T 2) = -90 := by
  decide +kernel

end Examples

end Verif.PortCond
