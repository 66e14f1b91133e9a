import Verif.Props.Cells
import Verif.Props.HexNum
import Verif.Props.Mixing
import Verif.Model.PlateHex
import Verif.Props.Attempt
import Mathlib.Tactic.Abel

/-!
# C96: a plant in thermal equilibrium stays in equilibrium

If every temperature, inside the parts, at the ports and of the ambient, has the same value and nothing is
heated, then no differential and no part without storage changes anything, whatever the mass flows, the
materials and the geometry are; and the solver, whose parts do that, returns the temperatures it started with,
also after rejected attempts.
-/

set_option linter.unusedSectionVars false

namespace Verif.Cells

open Verif.Flows

variable {K : Type*} [Field K] [LinearOrder K] [IsStrictOrderedRing K] (mat : Mat K) (g : Geo K) (s : Inp K)

/-- All cells, the ambient and the neighbours at the ports have the temperature `T0`. -/
structure AtRest (T0 : K) (ports : List (Port K)) : Prop where
  cell : ∀ k < g.n, s.T k = T0
  amb : s.Tamb = T0
  port : ∀ p ∈ ports, p.T = T0 ∧ p.idx < g.n

variable {mat g s}

theorem addAt_zero {f : ℕ → K} {l : List (ℕ × K)} {k : ℕ} (hf : f k = 0) (hl : ∀ p ∈ l, p.2 = 0) :
    addAt f l k = 0 := by
  rw [addAt_eq, hf, zero_add]
  apply List.sum_eq_zero
  intro x hx
  obtain ⟨p, hp, rfl⟩ := List.mem_map.1 hx
  exact hl p (List.mem_of_mem_filter hp)

theorem tExt_rest {T0 : K} {ports : List (Port K)} (h : AtRest g s T0 ports) {j : ℕ} (h1 : 0 < j)
    (h2 : j ≤ g.n) : tExt g s j = T0 := by
  obtain ⟨k, rfl⟩ : ∃ k, j = k + 1 := ⟨j - 1, by omega⟩
  rw [tExt_cell g s (by omega : k < g.n)]
  exact h.cell k (by omega)

theorem dTcond_rest {T0 : K} {ports : List (Port K)} (h : AtRest g s T0 ports) {k : ℕ} (hk : k < g.n) :
    dTcond mat g s ports k = 0 := by
  unfold dTcond
  apply addAt_zero
  · have h1 : uaTb mat g s k * (tExt g s k - tExt g s (k + 1)) = 0 := by
      rcases Nat.eq_zero_or_pos k with h0 | h0
      · subst h0
        unfold uaTb
        rw [if_pos (Or.inl rfl), zero_mul]
      · rw [tExt_rest h h0 hk.le, tExt_rest h (by omega) (by omega), sub_self, mul_zero]
    have h2 : uaTb mat g s (k + 1) * (tExt g s (k + 2) - tExt g s (k + 1)) = 0 := by
      by_cases h0 : k + 1 = g.n
      · unfold uaTb
        rw [if_pos (Or.inr h0), zero_mul]
      · rw [tExt_rest h (by omega) (by omega : k + 2 ≤ g.n), tExt_rest h (by omega) (by omega), sub_self,
          mul_zero]
    have h3 : s.uaAmb k * (s.Tamb - tExt g s (k + 1)) = 0 := by
      rw [h.amb, tExt_rest h (by omega) (by omega), sub_self, mul_zero]
    have h4 : s.Tamb - tExt g s 1 = 0 := by
      rw [h.amb, tExt_rest h (by omega) (by omega), sub_self]
    have h5 : s.Tamb - tExt g s g.n = 0 := by
      rw [h.amb, tExt_rest h (by omega) le_rfl, sub_self]
    simp [h1, h2, h3, h4, h5]
  · intro p hp
    obtain ⟨q, hq, rfl⟩ := List.mem_map.1 hp
    obtain ⟨h1, h2⟩ := h.port q hq
    simp [h1, h.cell _ h2]

theorem dTadv_rest {T0 : K} {ports : List (Port K)} (h : AtRest g s T0 ports) {top bot : ℕ → K}
    (h0 : top 0 = 0) (hn : ∀ k, k + 1 = g.n → bot k = 0) (inflow : List K) {k : ℕ} (hk : k < g.n) :
    dTadv mat g s top bot ports inflow k = 0 := by
  unfold dTadv
  apply addAt_zero
  · have h1 : top k * (enth mat g s k - enth mat g s (k + 1)) = 0 := by
      rcases Nat.eq_zero_or_pos k with h' | h'
      · subst h'; rw [h0, zero_mul]
      · unfold enth
        rw [tExt_rest h h' hk.le, tExt_rest h (by omega) (by omega), sub_self, mul_zero]
    have h2 : bot k * (enth mat g s (k + 2) - enth mat g s (k + 1)) = 0 := by
      by_cases h' : k + 1 = g.n
      · rw [hn k h', zero_mul]
      · unfold enth
        rw [tExt_rest h (by omega) (by omega : k + 2 ≤ g.n), tExt_rest h (by omega) (by omega), sub_self,
          mul_zero]
    simp [h1, h2]
  · intro p hp
    obtain ⟨q, hq, rfl⟩ := List.mem_map.1 hp
    obtain ⟨h1, h2⟩ := h.port q.1 (List.of_mem_zip hq).1
    simp only
    unfold enth
    rw [h1, tExt_rest h (by omega) (by omega : q.1.idx + 1 ≤ g.n), sub_self, mul_zero, zero_div]

/-- **C96** (storage and branched pipe). -/
theorem C96_storage {T0 : K} {ports : List (Port K)} (h : AtRest g s T0 ports) {k : ℕ} (hk : k < g.n) :
    storageDT mat g s ports k = 0 := by
  unfold storageDT
  rw [dTcond_rest h hk, dTadv_rest h _ _ _ hk, add_zero]
  · simp [processVar]
  · intro k hk'
    simp [processVar, hk']

/-- **C96** (pipe), for any flow. -/
theorem C96_pipe {T0 : K} {pin pout : Port K} (h : AtRest g s T0 [pin, pout]) (io : K) {k : ℕ}
    (hk : k < g.n) : pipeDT mat g s io pin pout k = 0 := by
  unfold pipeDT
  rw [dTcond_rest h hk, dTadv_rest h _ _ _ hk, add_zero]
  · simp [processInvar]
  · intro k hk'
    simp [processInvar, hk']

/-- **C96** (heated pipe and CHP core without heat). -/
theorem C96_heated_pipe {T0 : K} {pin pout : Port K} (h : AtRest g s T0 [pin, pout]) (io limit : K)
    (q : Heat K) (hq : q.dQ = 0) {k : ℕ} (hk : k < g.n) :
    (heatedDT mat g s limit q io pin pout).1 k = 0 := by
  unfold heatedDT shutdown dTheat
  simp only [hq, ite_self, zero_mul, zero_div, add_zero]
  exact C96_pipe h io hk

/-- A storage of three cells at 40 degrees with two ports and flow. -/
example : AtRest (⟨3, 1, 1, 1, 1, 1⟩ : Geo ℚ) ⟨fun _ => 40, 0, 7, 40, fun _ => 2, 1, 1, fun _ => 1⟩ 40
    [⟨0, 40, 1, 1, 1, 5⟩, ⟨2, 40, 1, 1, 1, -5⟩] :=
  ⟨fun _ _ => rfl, rfl, by simp⟩

end Verif.Cells

namespace Verif.HexNum

open Verif.Cells (Mat lamMean)

variable {K : Type*} [Field K] [LinearOrder K] {mat : Mat K} {g : Geo K} {s : Inp K}

/-- **C96** (numeric plate heat exchanger): nothing changes, not even at ports which conduct from a wrong cell. -/
theorem C96_heat_exchanger {T0 : K} (hc : ∀ k < g.n, ∀ j < 3, T s k j = T0)
    (hp : ∀ i < 4, (s.port i).T = T0) {k j : ℕ} (hk : k < g.n) (hj : j < 3) : dT mat g s k j = 0 := by
  have ext : ∀ a b, 0 < a → a ≤ g.n → 0 < b → b ≤ 3 → s.ext a b = T0 := by
    intro a b h1 h2 h3 h4
    obtain ⟨a', rfl⟩ : ∃ k, a = k + 1 := ⟨a - 1, by omega⟩
    obtain ⟨b', rfl⟩ : ∃ k, b = k + 1 := ⟨b - 1, by omega⟩
    exact hc a' (by omega) b' (by omega)
  have hT : T s k j = T0 := hc k hk j hj
  have h0 : s.ext (k + 1) (j + 1) = T0 := ext _ _ (by omega) (by omega) (by omega) (by omega)
  have c1 : ua1 mat g s k j * (s.ext k (j + 1) - s.ext (k + 1) (j + 1)) = 0 := by
    rcases Nat.eq_zero_or_pos k with h' | h'
    · subst h'; unfold ua1; rw [if_pos (Or.inl rfl), zero_mul]
    · rw [ext k (j + 1) h' (by omega) (by omega) (by omega), h0, sub_self, mul_zero]
  have c2 : ua1 mat g s (k + 1) j * (s.ext (k + 2) (j + 1) - s.ext (k + 1) (j + 1)) = 0 := by
    by_cases h' : k + 1 = g.n
    · unfold ua1; rw [if_pos (Or.inr h'), zero_mul]
    · rw [ext (k + 2) (j + 1) (by omega) (by omega) (by omega) (by omega), h0, sub_self, mul_zero]
  have c3 : ua2 g s k j * (s.ext (k + 1) j - s.ext (k + 1) (j + 1)) = 0 := by
    rcases Nat.eq_zero_or_pos j with h' | h'
    · subst h'; unfold ua2; rw [if_neg (by omega), zero_mul]
    · rw [ext (k + 1) j (by omega) (by omega) h' (by omega), h0, sub_self, mul_zero]
  have c4 : ua2 g s k (j + 1) * (s.ext (k + 1) (j + 2) - s.ext (k + 1) (j + 1)) = 0 := by
    by_cases h' : j = 2
    · subst h'; unfold ua2; rw [if_neg (by omega), zero_mul]
    · rw [ext (k + 1) (j + 2) (by omega) (by omega) (by omega) (by omega), h0, sub_self, mul_zero]
  have d1 : dTcond mat g s k j = 0 := by
    unfold dTcond
    rw [c1, c2, c3, c4]
    have : ∀ i ∈ Finset.range 4, (if portIdx g i = k * 3 + j then
        uaPort mat g s i * ((s.port i).T - T s k j) / mcp mat g s k j else 0) = 0 := by
      intro i hi
      rw [hp i (Finset.mem_range.1 hi), hT, sub_self, mul_zero, zero_div, ite_self]
    rw [Finset.sum_eq_zero this]
    simp
  have d2 : dTadv mat g s k j = 0 := by
    unfold dTadv
    by_cases h1 : j = 1
    · rw [if_pos h1]
    rw [if_neg h1]
    have hui : ui mat g s k j = mat.cp T0 * T0 := by unfold ui; rw [if_neg h1, hT]
    have a1 : dmTop s (side j) k * (mat.cp (s.ext k (j + 1)) * s.ext k (j + 1) - ui mat g s k j) = 0 := by
      rcases Nat.eq_zero_or_pos k with h' | h'
      · subst h'; unfold dmTop; rw [if_pos rfl, zero_mul]
      · rw [ext k (j + 1) h' (by omega) (by omega) (by omega), hui, sub_self, mul_zero]
    have a2 : dmBot g s (side j) k *
        (mat.cp (s.ext (k + 2) (j + 1)) * s.ext (k + 2) (j + 1) - ui mat g s k j) = 0 := by
      by_cases h' : k + 1 = g.n
      · unfold dmBot; rw [if_pos h', zero_mul]
      · rw [ext (k + 2) (j + 1) (by omega) (by omega) (by omega) (by omega), hui, sub_self, mul_zero]
    have : ∀ i ∈ Finset.range 4, (if portIdx g i = k * 3 + j then
        dmPort s i * (mat.cp (s.port i).T * (s.port i).T - ui mat g s k j) / mcp mat g s k j else 0) = 0 := by
      intro i hi
      rw [hp i (Finset.mem_range.1 hi), hui, sub_self, mul_zero, zero_div, ite_self]
    rw [a1, a2, Finset.sum_eq_zero this]
    simp
  unfold dT
  rw [d1, d2, add_zero]

/-- An exchanger with two rows at 40 degrees, with flow on both sides. -/
example : (∀ k < ({ exGeo with n := 2 } : Geo ℚ).n, ∀ j < 3, T { exInp with ext := fun _ _ => 40 } k j = 40) ∧
    exInp.dm 0 ≠ 0 := ⟨fun _ _ _ _ => rfl, by decide +kernel⟩

end Verif.HexNum

namespace Verif.Mixing

variable {K : Type*} [Field K] [LinearOrder K] [IsStrictOrderedRing K]

/-- **C96** (connector): with balanced flows. -/
theorem C96_connector (cp : K → K) (dm T : Fin 3 → K) {T0 : K} (hc : cp T0 ≠ 0) (hb : ∑ i, dm i = 0)
    (hT : ∀ i, T i = T0) (k : Fin 3) : connector cp dm T k = T0 := by
  have hm : (T0 + T0) / 2 = T0 := by ring
  rcases patterns dm hb with h | ⟨a, b, c, hab, hac, hbc, h | h | h⟩
  · obtain ⟨i, j, h1, h2, h3⟩ : ∃ i j : Fin 3, k ≠ i ∧ k ≠ j ∧ i ≠ j := by
      revert k; decide
    rw [connector_rest cp dm T h h1 h2 h3, hT, hT, hm]
  · obtain ⟨e1, e2, e3⟩ := connector_mix cp dm T hab hac hbc h.1 h.2.1 h.2.2
    have hk : k = a ∨ k = b ∨ k = c := by
      clear e1 e2 e3 h
      revert a b c k; decide
    have hpos : dm a + dm b ≠ 0 := by linarith [h.1, h.2.1]
    rcases hk with rfl | rfl | rfl
    · rw [e2, hT]
    · rw [e3, hT]
    · rw [e1, hT, hT, hm]
      field_simp
  · obtain ⟨e1, e2, e3⟩ := connector_split cp dm T hab hac hbc h.1 h.2.1 h.2.2
    have hk : k = a ∨ k = b ∨ k = c := by
      clear e1 e2 e3 h
      revert a b c k; decide
    rcases hk with rfl | rfl | rfl
    · rw [e3, hT, hT, hm]
    · rw [e1, hT]
    · rw [e2, hT]
  · obtain ⟨e1, e2, e3⟩ := connector_through cp dm T hab hac hbc h.1 h.2.1 h.2.2
    have hk : k = a ∨ k = b ∨ k = c := by
      clear e1 e2 e3 h
      revert a b c k; decide
    rcases hk with rfl | rfl | rfl <;> simp_all

/-- **C96** (valves and pump): a mixing valve with the flow `dm 2 = dm 0 + dm 1` out of port AB. -/
theorem C96_valves_and_pump (cp : K → K) {T0 : K} (hc : cp T0 ≠ 0) :
    (∀ dm T : Fin 3 → K, dm 2 = dm 0 + dm 1 → (∀ i, T i = T0) → ∀ k, mixValve cp dm T k = T0) ∧
    (∀ T : Fin 3 → K, (∀ i, T i = T0) → ∀ k, splitValve T k = T0) ∧
    (∀ T : Fin 2 → K, (∀ i, T i = T0) → ∀ k, pump T k = T0) := by
  have hm : (T0 + T0) / 2 = T0 := by ring
  refine ⟨fun dm T hb hT k => ?_, fun T hT k => ?_, fun T hT k => ?_⟩
  · unfold mixValve
    by_cases h : dm 2 ≠ 0
    · rw [if_pos h]
      simp only [hT, hm]
      have e : (dm 0 * cp T0 * T0 + dm 1 * cp T0 * T0) / (dm 2 * cp T0) = T0 := by
        have : dm 0 * cp T0 * T0 + dm 1 * cp T0 * T0 = dm 2 * cp T0 * T0 := by rw [hb]; ring
        rw [this]
        field_simp
      fin_cases k
      · rfl
      · rfl
      · exact e
    · rw [if_neg h]
      simp only [hT, hm]
      fin_cases k <;> rfl
  · unfold splitValve
    simp only [hT, hm]
    fin_cases k <;> rfl
  · unfold pump
    simp only [hT]
    fin_cases k <;> rfl

/-- Two inlets with 40 degrees, heat capacity depending on the temperature. -/
example : connector (fun T : ℚ => 4 + T / 100) ![2, 3, -5] ![40, 40, 40] 2 = 40 :=
  C96_connector _ _ _ (T0 := 40) (by norm_num) (by simp [Fin.sum_univ_three]; norm_num)
    (by intro i; fin_cases i <;> rfl) 2

example : mixValve (fun T : ℚ => 4 + T / 100) ![2, 3, 5] ![40, 40, 40] 2 = 40 :=
  (C96_valves_and_pump _ (T0 := 40) (by norm_num)).1 _ _ (by change (5 : ℚ) = 2 + 3; norm_num)
    (by intro i; fin_cases i <;> rfl) 2

end Verif.Mixing

namespace Verif.PlateHex

/-- **C96** (plate heat exchanger with the NTU method). -/
theorem C96_plate_heat_exchanger (dmS dmD : ℝ) (Tp : Fin 4 → ℝ) (UA cpS cpD : ℝ) {T0 : ℝ}
    (hT : ∀ i, Tp i = T0) (k : Fin 4) : solve dmS dmD Tp UA cpS cpD k = T0 := by
  unfold solve
  simp only [hT, ite_self, sub_self, mul_zero, sub_zero, add_zero]
  fin_cases k <;> simp

example : solve 1 2 ![40, 40, 40, 40] 500 4180 4190 2 = 40 :=
  C96_plate_heat_exchanger _ _ _ _ _ _ (by intro i; fin_cases i <;> rfl) 2

end Verif.PlateHex

namespace Verif.Attempt

variable {K X H N P : Type*} [Field K] [AddCommGroup X] [Module K X]

/-- A system in which nothing happens at states described by `EX` (temperatures of numeric parts), `EN`
(non-numeric parts) and `EP` (ports): the differentials vanish, whatever the parts remember, the non-numeric parts
and the port updates stay inside. -/
structure System.Still (sys : System K X H N P) (EX : X → Prop) (EN : N → Prop) (EP : P → Prop) : Prop where
  diff : ∀ d ∈ sys.diffs, ∀ m p x h, EP p → EX x → (d m p x h).dT = 0
  solve : ∀ f ∈ sys.solves, ∀ n p h, EP p → EN n → EN (f n p h)
  interm : ∀ xs ns p, (∀ x ∈ xs, EX x) → (∀ n ∈ ns, EN n) → EP p → EP (sys.interm xs ns p)
  result : ∀ xs ns p, (∀ x ∈ xs, EX x) → (∀ n ∈ ns, EN n) → EP p → EP (sys.result xs ns p)

variable {EX : X → Prop} {EN : N → Prop} {EP : P → Prop}

theorem solveAll_still {ports : P} (hp : EP ports) (h : K) :
    ∀ (fs : List (N → P → K → N)) (ns : List N),
      (∀ f ∈ fs, ∀ n p h, EP p → EN n → EN (f n p h)) → (∀ n ∈ ns, EN n) →
      ∀ n ∈ solveAll ports h fs ns, EN n := by
  intro fs
  induction fs with
  | nil => intro ns _ hn; cases ns <;> exact hn
  | cons f fs ih =>
    intro ns hf hn
    cases ns with
    | nil => exact hn
    | cons n ns =>
      intro x hx
      rcases List.mem_cons.1 hx with rfl | hx
      · exact hf f (by simp) n ports h hp (hn n (by simp))
      · exact ih ns (fun f hf' => hf f (by simp [hf'])) (fun n hn' => hn n (by simp [hn'])) x hx

theorem predict_still {ports : P} (hp : EP ports) (h : K) :
    ∀ (ds : List (Diff K X H P)) (ss : List (PState X H)),
      (∀ d ∈ ds, ∀ m p x h, EP p → EX x → (d m p x h).dT = 0) → (∀ s ∈ ss, EX s.prev) →
      ds.length = ss.length → (predict ports h ds ss).2 = true →
      ∀ s ∈ (predict ports h ds ss).1, EX s.prev ∧ s.T = s.prev ∧ s.df0 = 0 := by
  intro ds
  induction ds with
  | nil =>
    intro ss _ _ hl _
    cases ss with
    | nil => simp [predict]
    | cons => simp at hl
  | cons d ds ih =>
    intro ss hd hs hl hst
    cases ss with
    | nil => simp at hl
    | cons s ss =>
      rw [predict] at hst ⊢
      split_ifs at hst ⊢ with h1
      · have h0 := hd d (by simp) s.mem ports s.prev h hp (hs s (by simp))
        intro x hx
        rcases List.mem_cons.1 hx with rfl | hx
        · refine ⟨hs s (by simp), ?_, h0⟩
          simp [predict1, h0]
        · exact ih ss (fun d' hd' => hd d' (by simp [hd'])) (fun s' hs' => hs s' (by simp [hs']))
            (by simpa using hl) hst x hx

theorem correct_still {ports : P} (hp : EP ports) (h : K) :
    ∀ (ds : List (Diff K X H P)) (ss : List (PState X H)),
      (∀ d ∈ ds, ∀ m p x h, EP p → EX x → (d m p x h).dT = 0) →
      (∀ s ∈ ss, EX s.prev ∧ s.T = s.prev ∧ s.df0 = 0) → ds.length = ss.length →
      ∀ s ∈ correct ports h ds ss, EX s.prev ∧ s.T = s.prev ∧ s.res = s.prev ∧ s.df0 = 0 ∧ s.df1 = 0 := by
  intro ds
  induction ds with
  | nil =>
    intro ss _ _ hl
    cases ss with
    | nil => simp [correct]
    | cons => simp at hl
  | cons d ds ih =>
    intro ss hd hs hl
    cases ss with
    | nil => simp at hl
    | cons s ss =>
      obtain ⟨q1, q2, q3⟩ := hs s (by simp)
      have h0 := hd d (by simp) s.mem ports s.T h hp (by rw [q2]; exact q1)
      intro x hx
      rw [correct] at hx
      rcases List.mem_cons.1 hx with rfl | hx
      · simp [correct1, h0, q3, q1]
      · exact ih ss (fun d' hd' => hd d' (by simp [hd'])) (fun s' hs' => hs s' (by simp [hs']))
          (by simpa using hl) x hx

theorem predict_prev_mem {ports : P} {h : K} {ds : List (Diff K X H P)} {ss : List (PState X H)}
    (hs : ∀ s ∈ ss, EX s.prev) : ∀ s ∈ (predict ports h ds ss).1, EX s.prev := by
  intro s hm
  have : s.prev ∈ (predict ports h ds ss).1.map PState.prev := List.mem_map_of_mem hm
  rw [predict_prev] at this
  obtain ⟨s', h1, h2⟩ := List.mem_map.1 this
  rw [← h2]
  exact hs s' h1

/-- One attempt in a still system: the ports, non-numeric parts and starting temperatures stay as they were, and a
stable attempt returns the temperatures it started with, with vanishing differentials. -/
theorem attempt_still {sys : System K X H N P} (hy : sys.Still EX EN EP) (h : K) {s : State X H N P}
    (hx : ∀ p ∈ s.parts, EX p.prev) (hn : ∀ n ∈ s.nonnum, EN n) (hp : EP s.ports)
    (hl : sys.diffs.length = s.parts.length) :
    (∀ p ∈ (attempt sys h s).parts, EX p.prev) ∧ (∀ n ∈ (attempt sys h s).nonnum, EN n) ∧
      EP (attempt sys h s).ports ∧
      ((attempt sys h s).stable = true →
        ∀ p ∈ (attempt sys h s).parts, p.res = p.prev ∧ p.T = p.prev ∧ p.df0 = 0 ∧ p.df1 = 0) := by
  unfold attempt
  by_cases hst : (predict s.ports h sys.diffs s.parts).2 = true
  · rw [if_pos hst]
    have h1 := predict_still hp h sys.diffs s.parts hy.diff hx hl hst
    have h2 := solveAll_still hp h sys.solves s.nonnum hy.solve hn
    have h3 : EP (sys.interm ((predict s.ports h sys.diffs s.parts).1.map PState.T)
        (solveAll s.ports h sys.solves s.nonnum) s.ports) := by
      refine hy.interm _ _ _ ?_ h2 hp
      intro x hxm
      obtain ⟨p, hpm, rfl⟩ := List.mem_map.1 hxm
      rw [(h1 p hpm).2.1]
      exact (h1 p hpm).1
    have hlen : sys.diffs.length = (predict s.ports h sys.diffs s.parts).1.length := by
      have := congrArg List.length (predict_prev s.ports h sys.diffs s.parts)
      simp only [List.length_map] at this
      rw [this, hl]
    have h4 := correct_still h3 h sys.diffs _ hy.diff h1 hlen
    have h5 := solveAll_still h3 h sys.solves _ hy.solve h2
    simp only [finish]
    refine ⟨fun p hpm => (h4 p hpm).1, h5, ?_, fun _ p hpm => ?_⟩
    · refine hy.result _ _ _ ?_ h5 h3
      intro x hxm
      obtain ⟨p, hpm, rfl⟩ := List.mem_map.1 hxm
      obtain ⟨q1, _, q3, _⟩ := h4 p hpm
      rw [q3]
      exact q1
    · obtain ⟨_, q2, q3, q4, q5⟩ := h4 p hpm
      exact ⟨q3, q2, q4, q5⟩
  · rw [if_neg hst]
    refine ⟨predict_prev_mem hx, hn, hp, fun hc => ?_⟩
    simp at hc

/-- **C96** (solver): in a system at rest a solver call, after any rejected attempts, returns exactly the
temperatures of the step before, and the differentials whose difference is the estimated error vanish. -/
theorem C96_solver {sys : System K X H N P} (hy : sys.Still EX EN EP) (hs : List K) (h : K)
    {s : State X H N P} (hx : ∀ p ∈ s.parts, EX p.prev) (hn : ∀ n ∈ s.nonnum, EN n) (hp : EP s.ports)
    (hl : sys.diffs.length = s.parts.length) (hst : (call sys s hs h).stable = true) :
    (∀ p ∈ (call sys s hs h).parts, p.res = p.prev ∧ p.T = p.prev ∧ p.df1 - p.df0 = 0) ∧
      (∀ n ∈ (call sys s hs h).nonnum, EN n) ∧ EP (call sys s hs h).ports := by
  have key : ∀ (hs : List K) (st : State X H N P), (∀ p ∈ st.parts, EX p.prev) → (∀ n ∈ st.nonnum, EN n) →
      EP st.ports → sys.diffs.length = st.parts.length →
      let r := hs.foldl (fun st h' => rejected sys s.ports h' st) st
      (∀ p ∈ r.parts, EX p.prev) ∧ (∀ n ∈ r.nonnum, EN n) ∧ EP r.ports ∧
        sys.diffs.length = r.parts.length := by
    intro hs
    induction hs with
    | nil => intro st a b c d; exact ⟨a, b, c, d⟩
    | cons h' hs ih =>
      intro st a b c d
      obtain ⟨q1, q2, _, _⟩ := attempt_still hy h' a b c d
      refine ih _ q1 q2 hp ?_
      have := congrArg List.length (attempt_prev sys h' st)
      simp only [List.length_map] at this
      change _ = (attempt sys h' st).parts.length
      rw [this, d]
  obtain ⟨a, b, c, d⟩ := key hs s hx hn hp hl
  unfold call at hst ⊢
  obtain ⟨_, q2, q3, q4⟩ := attempt_still hy h a b c d
  refine ⟨fun p hpm => ?_, q2, q3⟩
  obtain ⟨r1, r2, r3, r4⟩ := q4 hst p hpm
  exact ⟨r1, r2, by rw [r3, r4, sub_self]⟩

/-- A part that exchanges heat with its port, at rest when both have 40 degrees. -/
example : (⟨[fun _ p x _ => ⟨p - x, (), true⟩], [fun n _ _ => n], fun _ _ p => p, fun _ _ p => p⟩ :
    System ℚ ℚ Unit ℚ ℚ).Still (· = 40) (· = 40) (· = 40) := by
  refine ⟨?_, ?_, ?_, ?_⟩
  · intro d hd m p x h hp hx
    simp only [List.mem_singleton] at hd
    subst hd
    simp [hp, hx]
  · intro f hf n p h _ hn
    simp only [List.mem_singleton] at hf
    subst hf
    exact hn
  · intro _ _ p _ _ hp; exact hp
  · intro _ _ p _ _ hp; exact hp

end Verif.Attempt
