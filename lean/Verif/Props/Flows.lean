import Verif.Model.Flows
import Verif.Spec.Flows
import Mathlib.Tactic.Linarith
import Mathlib.Tactic.Ring
import Mathlib.Tactic.NormNum

/-!
# C20, C21: mass flows inside parts
-/

namespace Verif.Flows

variable {K : Type*} [Field K] [LinearOrder K] [IsStrictOrderedRing K]

omit [IsStrictOrderedRing K] in
theorem pos_eq (x : K) : pos x = max x 0 := by
  unfold pos
  split_ifs with h
  · exact (max_eq_right h.le).symm
  · exact (max_eq_left (not_lt.1 h)).symm

omit [LinearOrder K] [IsStrictOrderedRing K] in
theorem above_cons (p : ℕ × K) (l : List (ℕ × K)) (k : ℕ) :
    above (p :: l) k = (if p.1 ≤ k then p.2 else 0) + above l k := by
  unfold above
  by_cases h : p.1 ≤ k <;> simp [h]

omit [LinearOrder K] [IsStrictOrderedRing K] in
/-- Ports below the cell do not count. -/
theorem above_eq_zero (l : List (ℕ × K)) (k : ℕ) (h : ∀ p ∈ l, k < p.1) : above l k = 0 := by
  induction l with
  | nil => rfl
  | cons p l ih =>
    rw [above_cons, if_neg (not_le.2 (h p List.mem_cons_self)),
      ih fun q hq => h q (List.mem_cons_of_mem _ hq), add_zero]

omit [LinearOrder K] [IsStrictOrderedRing K] in
theorem above_all (l : List (ℕ × K)) (k : ℕ) (h : ∀ p ∈ l, p.1 ≤ k) :
    above l k = (l.map Prod.snd).sum := by
  unfold above
  rw [List.filter_eq_self.2 (by simpa using h)]

omit [LinearOrder K] [IsStrictOrderedRing K] in
/-- The slices reproduce the sum of the flows above, as long as some port is below; otherwise nothing. -/
theorem slices_eq (acc : K) : ∀ (l : List (ℕ × K)) (k : ℕ), (l.map Prod.fst).Pairwise (· ≤ ·) →
    slices (l.map Prod.fst) (cumsumFrom acc (l.map Prod.snd)) k =
      if (∃ p ∈ l, p.1 ≤ k) ∧ ∃ p ∈ l, k < p.1 then acc + above l k else 0 := by
  intro l
  induction l generalizing acc with
  | nil => intro k _; simp [slices]
  | cons p l ih =>
    intro k hs
    cases l with
    | nil =>
      have : ¬ ((∃ q ∈ [p], q.1 ≤ k) ∧ ∃ q ∈ [p], k < q.1) := by
        rintro ⟨⟨q, hq, h1⟩, r, hr, h2⟩
        rw [List.mem_singleton.1 hq] at h1
        rw [List.mem_singleton.1 hr] at h2
        omega
      rw [if_neg this]
      rfl
    | cons q l =>
      have hs' : ((q :: l).map Prod.fst).Pairwise (· ≤ ·) := (List.pairwise_cons.1 hs).2
      have hpq : ∀ r ∈ q :: l, p.1 ≤ r.1 := by
        intro r hr
        exact (List.pairwise_cons.1 hs).1 _ (List.mem_map_of_mem hr)
      have hq : ∀ r ∈ q :: l, q.1 ≤ r.1 := by
        intro r hr
        rcases List.mem_cons.1 hr with rfl | hr
        · exact le_rfl
        · exact (List.pairwise_cons.1 hs').1 _ (List.mem_map_of_mem hr)
      have hih := ih (acc + p.2) k hs'
      have hstep : slices ((p :: q :: l).map Prod.fst) (cumsumFrom acc ((p :: q :: l).map Prod.snd)) k =
          (if p.1 ≤ k ∧ k < q.1 then acc + p.2 else 0) +
            slices ((q :: l).map Prod.fst) (cumsumFrom (acc + p.2) ((q :: l).map Prod.snd)) k := rfl
      rw [hstep, hih, above_cons p]
      by_cases h1 : p.1 ≤ k
      · by_cases h2 : k < q.1
        · have hA : above (q :: l) k = 0 := above_eq_zero _ _ fun r hr => h2.trans_le (hq r hr)
          have hB : ¬ ∃ r ∈ q :: l, r.1 ≤ k := by
            rintro ⟨r, hr, h⟩
            have := hq r hr
            omega
          rw [if_pos ⟨h1, h2⟩, if_neg fun h => hB h.1,
            if_pos ⟨⟨p, List.mem_cons_self, h1⟩, q, by simp, h2⟩, if_pos h1, hA]
          ring
        · rw [if_neg fun h => h2 h.2, if_pos h1, zero_add]
          have hB : ∃ r ∈ q :: l, r.1 ≤ k := ⟨q, List.mem_cons_self, not_lt.1 h2⟩
          have hB' : ∃ r ∈ p :: q :: l, r.1 ≤ k := ⟨p, List.mem_cons_self, h1⟩
          have hC : (∃ r ∈ p :: q :: l, k < r.1) ↔ ∃ r ∈ q :: l, k < r.1 := by
            constructor
            · rintro ⟨r, hr, h⟩
              rcases List.mem_cons.1 hr with rfl | hr
              · omega
              · exact ⟨r, hr, h⟩
            · rintro ⟨r, hr, h⟩; exact ⟨r, List.mem_cons_of_mem _ hr, h⟩
          by_cases h3 : ∃ r ∈ q :: l, k < r.1
          · rw [if_pos ⟨hB, h3⟩, if_pos ⟨hB', hC.2 h3⟩]; ring
          · rw [if_neg fun h => h3 h.2, if_neg fun h => h3 (hC.1 h.2)]
      · have h1' : k < p.1 := not_le.1 h1
        have hB : ¬ ∃ r ∈ q :: l, r.1 ≤ k := by
          rintro ⟨r, hr, h⟩
          have := hpq r hr
          omega
        have hB' : ¬ ∃ r ∈ p :: q :: l, r.1 ≤ k := by
          rintro ⟨r, hr, h⟩
          rcases List.mem_cons.1 hr with rfl | hr
          · exact h1 h
          · exact hB ⟨r, hr, h⟩
        rw [if_neg fun h => h1 h.1, if_neg fun h => hB h.1, if_neg fun h => hB' h.1, add_zero]

omit [LinearOrder K] [IsStrictOrderedRing K] in
/-- With balanced port flows the flow between cells `k` and `k + 1` is the sum of the flows above. -/
theorem slices_balanced (l : List (ℕ × K)) (hs : (l.map Prod.fst).Pairwise (· ≤ ·))
    (hb : (l.map Prod.snd).sum = 0) (k : ℕ) :
    slices (l.map Prod.fst) (cumsum (l.map Prod.snd)) k = above l k := by
  rw [cumsum, slices_eq 0 l k hs]
  split_ifs with h
  · exact zero_add _
  · rw [not_and_or] at h
    rcases h with h | h
    · push Not at h
      exact (above_eq_zero l k h).symm
    · push Not at h
      rw [above_all l k h, hb]

omit [LinearOrder K] [IsStrictOrderedRing K] in
theorem above_succ (l : List (ℕ × K)) (k : ℕ) :
    above l (k + 1) = above l k + ((l.filter (·.1 = k + 1)).map Prod.snd).sum := by
  induction l with
  | nil => simp [above]
  | cons p l ih =>
    rw [above_cons, above_cons, ih]
    by_cases h : p.1 = k + 1
    · rw [if_pos (by omega), if_neg (by omega)]
      simp only [h, List.filter_cons, decide_true, if_true, List.map_cons, List.sum_cons]
      ring
    · have : (p.1 ≤ k + 1) = (p.1 ≤ k) := by apply propext; omega
      simp only [this, List.filter_cons, h, decide_false]
      simp only [Bool.false_eq_true, if_false]
      ring

theorem port_net (l : List (ℕ × K)) (k : ℕ) :
    portInflow l k - portOutflow l k = ((l.filter (·.1 = k)).map Prod.snd).sum := by
  unfold portInflow portOutflow
  induction l.filter (·.1 = k) with
  | nil => simp
  | cons p l ih =>
    simp only [List.map_cons, List.sum_cons]
    rw [← ih]
    have : max p.2 0 - max (-p.2) 0 = p.2 := by
      rcases le_total p.2 0 with h | h
      · rw [max_eq_right h, max_eq_left (by linarith)]; ring
      · rw [max_eq_left h, max_eq_right (by linarith)]; ring
    linarith

omit [LinearOrder K] [IsStrictOrderedRing K] in
theorem above_zero (l : List (ℕ × K)) : above l 0 = ((l.filter (·.1 = 0)).map Prod.snd).sum := by
  unfold above
  congr 3
  funext p
  simp

/-! ## C20 -/

/-- **C20**: for every part with `n ≥ 2` cells, every sorted port table and every balanced set of port
flows,

* the flow between two neighbouring cells is the sum of the port flows at or above the upper cell,
* downward and upward flow are not negative and never both present at a face,
* what enters a cell leaves it, for every single cell,
* the port flows used for advection are the inflowing parts,
* the stored cell flow is the flow through the lower face, the last cell repeats its neighbour. -/
theorem C20_cells_balanced (n : ℕ) (hn : 2 ≤ n) (ports : List (ℕ × K))
    (hs : (ports.map Prod.fst).Pairwise (· ≤ ·)) (hr : ∀ p ∈ ports, p.1 < n)
    (hb : (ports.map Prod.snd).sum = 0) :
    let f := processVar n (ports.map Prod.fst) (ports.map Prod.snd)
    (∀ k, k + 1 < n → f.top (k + 1) - f.bot k = above ports k) ∧
    (∀ k, 0 ≤ f.top k ∧ 0 ≤ f.bot k) ∧
    (∀ k, k + 1 < n → f.top (k + 1) = 0 ∨ f.bot k = 0) ∧
    (∀ k, k < n → CellBalance n f.top f.bot ports k) ∧
    f.port = ports.map (fun p => max p.2 0) ∧
    (∀ k, k + 1 < n → f.dm k = above ports k) ∧ f.dm (n - 1) = above ports (n - 2) := by
  intro f
  have hdm : ∀ k, slices (ports.map Prod.fst) (cumsum (ports.map Prod.snd)) k = above ports k :=
    slices_balanced ports hs hb
  have htop : ∀ k, f.top (k + 1) = max (above ports k) 0 := by
    intro k
    show (if k + 1 = 0 then 0 else pos (slices _ _ (k + 1 - 1))) = _
    rw [if_neg (by omega), Nat.add_sub_cancel, hdm, pos_eq]
  have htop0 : f.top 0 = 0 := rfl
  have hbot : ∀ k, k + 1 < n → f.bot k = max (-above ports k) 0 := by
    intro k hk
    show (if k + 1 = n then 0 else pos (-slices _ _ k)) = _
    rw [if_neg (by omega), hdm, pos_eq]
  have hbotn : ∀ k, k + 1 = n → f.bot k = 0 := fun k hk => if_pos hk
  have hdiff : ∀ k, k + 1 < n → f.top (k + 1) - f.bot k = above ports k := by
    intro k hk
    rw [htop, hbot k hk]
    rcases le_total (above ports k) 0 with h | h
    · rw [max_eq_right h, max_eq_left (by linarith)]; ring
    · rw [max_eq_left h, max_eq_right (by linarith)]; ring
  refine ⟨hdiff, ?_, ?_, ?_, ?_, ?_, ?_⟩
  · intro k
    constructor
    · rcases k with _ | k
      · exact htop0.ge
      · rw [htop]; exact le_max_right _ _
    · show 0 ≤ (if k + 1 = n then 0 else pos (-slices _ _ k))
      split_ifs
      · exact le_rfl
      · rw [pos_eq]; exact le_max_right _ _
  · intro k hk
    rw [htop, hbot k hk]
    rcases le_total (above ports k) 0 with h | h
    · left; exact max_eq_right h
    · right; exact max_eq_right (by linarith)
  · intro k hk
    unfold CellBalance
    have hnet := port_net ports k
    rcases k with _ | k
    · have h1 := hdiff 0 (by omega)
      rw [above_zero] at h1
      rw [if_pos (by omega), if_neg (by omega), htop0]
      linarith
    · have hnet' := above_succ ports k
      have h0 := hdiff k (by omega)
      rw [if_pos (show 0 < k + 1 by omega), Nat.add_sub_cancel]
      by_cases h : k + 1 + 1 < n
      · rw [if_pos h]
        have h1 := hdiff (k + 1) h
        linarith
      · rw [if_neg h, hbotn (k + 1) (by omega)]
        have h2 : above ports (k + 1) = 0 := by
          rw [above_all ports (k + 1) fun p hp => by have := hr p hp; omega, hb]
        linarith
  · show (ports.map Prod.snd).map pos = _
    rw [List.map_map]
    congr 1
    funext p
    exact pos_eq _
  · intro k hk
    show (if k + 1 = n then _ else slices _ _ k) = _
    rw [if_neg (by omega), hdm]
  · show (if n - 1 + 1 = n then slices _ _ (n - 1 - 1) else _) = _
    rw [if_pos (by omega), hdm]
    rfl

/-- A storage with six cells and five ports, two of them at the same cell. -/
example : ∃ ports : List (ℕ × ℚ), (ports.map Prod.fst).Pairwise (· ≤ ·) ∧ (∀ p ∈ ports, p.1 < 6) ∧
    (ports.map Prod.snd).sum = 0 ∧ ports.length = 5 :=
  ⟨[(0, 2), (2, -1), (2, 3), (4, 1), (5, -5)], by decide, by decide, by decide +kernel, rfl⟩

/-- The sort order of the port table matters: with an unsorted table flow disappears. -/
theorem C20_fails_unsorted : ∃ ports : List (ℕ × ℚ), (∀ p ∈ ports, p.1 < 4) ∧
    (ports.map Prod.snd).sum = 0 ∧
    ¬ CellBalance 4 (processVar 4 (ports.map Prod.fst) (ports.map Prod.snd)).top
      (processVar 4 (ports.map Prod.fst) (ports.map Prod.snd)).bot ports 0 := by
  refine ⟨[(3, -1), (0, 1)], by decide, by decide +kernel, ?_⟩
  unfold CellBalance
  decide +kernel

/-! ## C21 -/

/-- **C21**: in a part with one flow, every cell passes on exactly the flow through the ports, the flow
enters at the end given by its sign and there is no flow in the other direction. -/
theorem C21_uniform_upwind (n : ℕ) (hn : 2 ≤ n) (io : K) :
    let f := processInvar n io
    (∀ k, k < n → CellBalance n f.top f.bot [(0, io), (n - 1, -io)] k) ∧
    (∀ k, 0 < k → k < n → f.top k = max io 0) ∧ f.top 0 = 0 ∧
    (∀ k, k + 1 < n → f.bot k = max (-io) 0) ∧ f.bot (n - 1) = 0 ∧
    f.portIn = max io 0 ∧ f.portOut = max (-io) 0 ∧
    (∀ k, k < n → f.top k + f.bot k + portInflow [(0, io), (n - 1, -io)] k = |io|) := by
  intro f
  have h1 : (if 0 ≤ io then io else 0) = max io 0 := by
    split_ifs with h
    · exact (max_eq_left h).symm
    · exact (max_eq_right (not_le.1 h).le).symm
  have h2 : (if 0 ≤ io then 0 else -io) = max (-io) 0 := by
    split_ifs with h
    · exact (max_eq_right (by linarith)).symm
    · exact (max_eq_left (by linarith [not_le.1 h])).symm
  have habs : max io 0 + max (-io) 0 = |io| := by
    rcases le_total io 0 with h | h
    · rw [max_eq_right h, max_eq_left (by linarith), abs_of_nonpos h]; ring
    · rw [max_eq_left h, max_eq_right (by linarith), abs_of_nonneg h]; ring
  have htop : ∀ k, 0 < k → f.top k = max io 0 := by
    intro k hk
    show (if k = 0 then 0 else if 0 ≤ io then io else 0) = _
    rw [if_neg (by omega), h1]
  have hbot : ∀ k, k + 1 < n → f.bot k = max (-io) 0 := by
    intro k hk
    show (if k + 1 = n then 0 else if 0 ≤ io then 0 else -io) = _
    rw [if_neg (by omega), h2]
  have htop0 : f.top 0 = 0 := rfl
  have hbotn : f.bot (n - 1) = 0 := if_pos (by omega)
  have hpi : ∀ k, k < n → portInflow [(0, io), (n - 1, -io)] k =
      (if k = 0 then max io 0 else 0) + (if k + 1 = n then max (-io) 0 else 0) := by
    intro k hk
    unfold portInflow
    by_cases ha : k = 0 <;> by_cases hb : k + 1 = n
    · omega
    · have h3 : ¬ n - 1 = 0 := by omega
      simp [ha, h3]
      intro h; omega
    · have h3 : n - 1 = k := by omega
      have h4 : ¬ 0 = k := by omega
      have h5 : ¬ k = 0 := ha
      simp [h3, h4, h5, hb]
    · have h3 : ¬ n - 1 = k := by omega
      have h4 : ¬ 0 = k := by omega
      simp [h3, h4, ha, hb]
  have hpo : ∀ k, k < n → portOutflow [(0, io), (n - 1, -io)] k =
      (if k = 0 then max (-io) 0 else 0) + (if k + 1 = n then max io 0 else 0) := by
    intro k hk
    unfold portOutflow
    by_cases ha : k = 0 <;> by_cases hb : k + 1 = n
    · omega
    · have h3 : ¬ n - 1 = 0 := by omega
      simp [ha, h3]
      intro h; omega
    · have h3 : n - 1 = k := by omega
      have h4 : ¬ 0 = k := by omega
      simp [h3, h4, ha, hb]
    · have h3 : ¬ n - 1 = k := by omega
      have h4 : ¬ 0 = k := by omega
      simp [h3, h4, ha, hb]
  refine ⟨?_, fun k hk _ => htop k hk, htop0, hbot, hbotn, h1, h2, ?_⟩
  · intro k hk
    unfold CellBalance
    rw [hpi k hk, hpo k hk]
    by_cases ha : k = 0
    · subst ha
      rw [if_pos rfl, if_pos rfl, if_pos (show 0 + 1 < n by omega), if_neg (lt_irrefl 0),
        if_neg (by omega), if_neg (by omega), htop0, htop 1 (by omega), hbot 0 (by omega)]
      ring
    · rw [if_neg ha, if_neg ha, if_pos (show 0 < k by omega), htop k (by omega),
        hbot (k - 1) (by omega)]
      by_cases hb : k + 1 = n
      · rw [if_neg (show ¬ k + 1 < n by omega), if_pos hb, if_pos hb, show k = n - 1 by omega, hbotn]; ring
      · rw [if_pos (show k + 1 < n by omega), if_neg hb, if_neg hb, htop (k + 1) (by omega), hbot k (by omega)]
  · intro k hk
    rw [hpi k hk, ← habs]
    by_cases ha : k = 0
    · subst ha
      rw [if_pos rfl, if_neg (by omega), htop0, hbot 0 (by omega)]; ring
    · rw [if_neg ha, htop k (by omega)]
      by_cases hb : k + 1 = n
      · rw [if_pos hb, show k = n - 1 by omega, hbotn]; ring
      · rw [if_neg hb, hbot k (by omega)]; ring

example : (processInvar 5 (-3 : ℚ)).bot 2 = 3 ∧ (processInvar 5 (-3 : ℚ)).portOut = 3 := by decide +kernel

end Verif.Flows
