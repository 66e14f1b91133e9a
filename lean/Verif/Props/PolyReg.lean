import Verif.Model.PolyReg
import Verif.Model.CondHex
import Mathlib.Algebra.MvPolynomial.Degrees
import Mathlib.Algebra.MvPolynomial.Eval
import Mathlib.Algebra.MvPolynomial.CommRing
import Mathlib.Algebra.MvPolynomial.Variables
import Mathlib.Data.List.Pairwise
import Mathlib.Data.List.Nodup
import Mathlib.Data.Multiset.Sort
import Mathlib.Data.Finsupp.Multiset
import Mathlib.Algebra.Field.Rat
import Mathlib.Tactic.Linarith
import Mathlib.Tactic.NormNum
import Mathlib.Tactic.Ring

/-!
# C156: the regression of the condensing heat exchanger
-/

namespace Verif.PolyReg

variable {K : Type*} [Field K]

/-- Specification: the monomials of the regression, as lists of variables in ascending order. -/
def IsMonomial (s : Feats) (c : List ℕ) : Prop :=
  (∀ i ∈ c, i < s.n) ∧ c.length ≤ s.degree ∧ (s.bias = false → c ≠ []) ∧
    if s.interaction then c.Pairwise (· < ·) else c.Pairwise (· ≤ ·)

theorem mem_withRepl {n : ℕ} : ∀ {r lo : ℕ} {c : List ℕ}, c ∈ withRepl n lo r ↔
    c.length = r ∧ (∀ i ∈ c, lo ≤ i ∧ i < n) ∧ c.Pairwise (· ≤ ·)
  | 0, lo, c => by
    rw [withRepl, List.mem_singleton, List.length_eq_zero_iff]
    constructor
    · rintro rfl; simp
    · exact fun h => h.1
  | r + 1, lo, c => by
    rw [withRepl, List.mem_flatMap]
    constructor
    · rintro ⟨a, ha, hc⟩
      rw [List.mem_map] at hc
      obtain ⟨t, ht, rfl⟩ := hc
      rw [mem_withRepl] at ht
      rw [List.mem_range'_1] at ha
      refine ⟨by simp [ht.1], ?_, List.pairwise_cons.2 ⟨fun i hi => (ht.2.1 i hi).1, ht.2.2⟩⟩
      intro i hi
      rcases List.mem_cons.1 hi with rfl | hi
      · omega
      · have := ht.2.1 i hi; omega
    · rintro ⟨h1, h2, h3⟩
      cases c with
      | nil => simp at h1
      | cons a t =>
        rw [List.pairwise_cons] at h3
        have ha := h2 a List.mem_cons_self
        refine ⟨a, by rw [List.mem_range'_1]; omega, List.mem_map.2 ⟨t, mem_withRepl.2 ⟨by simpa using h1, ?_, h3.2⟩, rfl⟩⟩
        intro i hi
        exact ⟨h3.1 i hi, (h2 i (List.mem_cons_of_mem _ hi)).2⟩

theorem mem_without {n : ℕ} : ∀ {r lo : ℕ} {c : List ℕ}, c ∈ without n lo r ↔
    c.length = r ∧ (∀ i ∈ c, lo ≤ i ∧ i < n) ∧ c.Pairwise (· < ·)
  | 0, lo, c => by
    rw [without, List.mem_singleton, List.length_eq_zero_iff]
    constructor
    · rintro rfl; simp
    · exact fun h => h.1
  | r + 1, lo, c => by
    rw [without, List.mem_flatMap]
    constructor
    · rintro ⟨a, ha, hc⟩
      rw [List.mem_map] at hc
      obtain ⟨t, ht, rfl⟩ := hc
      rw [mem_without] at ht
      rw [List.mem_range'_1] at ha
      refine ⟨by simp [ht.1], ?_, List.pairwise_cons.2 ⟨fun i hi => (ht.2.1 i hi).1, ht.2.2⟩⟩
      intro i hi
      rcases List.mem_cons.1 hi with rfl | hi
      · omega
      · have := ht.2.1 i hi; omega
    · rintro ⟨h1, h2, h3⟩
      cases c with
      | nil => simp at h1
      | cons a t =>
        rw [List.pairwise_cons] at h3
        have ha := h2 a List.mem_cons_self
        refine ⟨a, by rw [List.mem_range'_1]; omega, List.mem_map.2 ⟨t, mem_without.2 ⟨by simpa using h1, ?_, h3.2⟩, rfl⟩⟩
        intro i hi
        exact ⟨h3.1 i hi, (h2 i (List.mem_cons_of_mem _ hi)).2⟩

theorem nodup_heads {l : List ℕ} (hl : l.Nodup) {g : ℕ → List (List ℕ)} (hg : ∀ a, (g a).Nodup) :
    (l.flatMap fun a => (g a).map (a :: ·)).Nodup := by
  rw [List.nodup_flatMap]
  refine ⟨fun a _ => (hg a).map (List.cons_injective), ?_⟩
  refine hl.imp fun {a b} hab => ?_
  intro c h1 h2
  rw [List.mem_map] at h1 h2
  obtain ⟨t, -, rfl⟩ := h1
  obtain ⟨u, -, hu⟩ := h2
  exact hab (List.cons.inj hu).1.symm

theorem nodup_withRepl (n : ℕ) : ∀ r lo, (withRepl n lo r).Nodup
  | 0, lo => by simp [withRepl]
  | r + 1, lo => nodup_heads List.nodup_range' fun a => nodup_withRepl n r a

theorem nodup_without (n : ℕ) : ∀ r lo, (without n lo r).Nodup
  | 0, lo => by simp [without]
  | r + 1, lo => nodup_heads List.nodup_range' fun a => nodup_without n r (a + 1)

/-- **C156** (features): the columns of the regression are the monomials up to the degree, each of them once. -/
theorem C156_features (s : Feats) : (combos s).Nodup ∧ ∀ c, c ∈ combos s ↔ IsMonomial s c := by
  constructor
  · unfold combos
    rw [List.nodup_flatMap]
    refine ⟨fun r _ => ?_, ?_⟩
    · split_ifs
      · exact nodup_without _ _ _
      · exact nodup_withRepl _ _ _
    · refine (List.nodup_range' (step := 1)).imp fun {a b} hab => ?_
      intro c h1 h2
      have e1 : c.length = a := by
        split_ifs at h1
        · exact (mem_without.1 h1).1
        · exact (mem_withRepl.1 h1).1
      have e2 : c.length = b := by
        split_ifs at h2
        · exact (mem_without.1 h2).1
        · exact (mem_withRepl.1 h2).1
      exact hab (e1.symm.trans e2)
  · intro c
    unfold combos IsMonomial
    rw [List.mem_flatMap]
    simp only [List.mem_range'_1]
    constructor
    · rintro ⟨r, hr, hc⟩
      have key : c.length = r ∧ (∀ i ∈ c, i < s.n) ∧ if s.interaction then c.Pairwise (· < ·) else c.Pairwise (· ≤ ·) := by
        split_ifs at hc ⊢
        · have := mem_without.1 hc; exact ⟨this.1, fun i hi => (this.2.1 i hi).2, this.2.2⟩
        · have := mem_withRepl.1 hc; exact ⟨this.1, fun i hi => (this.2.1 i hi).2, this.2.2⟩
      refine ⟨key.2.1, by split_ifs at hr <;> omega, ?_, key.2.2⟩
      rintro hb rfl
      rw [if_neg (by simp [hb])] at hr
      simp at key
      omega
    · rintro ⟨h1, h2, h3, h4⟩
      refine ⟨c.length, ?_, ?_⟩
      · cases hb : s.bias with
        | true => simp; omega
        | false =>
          have := List.length_pos_iff.2 (h3 hb)
          simp
          omega
      · split_ifs at h4 ⊢
        · exact mem_without.2 ⟨rfl, fun i hi => ⟨Nat.zero_le _, h1 i hi⟩, h4⟩
        · exact mem_withRepl.2 ⟨rfl, fun i hi => ⟨Nat.zero_le _, h1 i hi⟩, h4⟩

/-- Value of a monomial. -/
def monom (X : ℕ → K) (c : List ℕ) : K := (c.map X).prod

theorem prodAt_eq {X : List K} {v : ℕ → K} (hX : ∀ i, i < X.length → X[i]? = some (v i)) :
    ∀ {c : List ℕ}, (∀ i ∈ c, i < X.length) → prodAt X (c.map Int.ofNat) = some (monom v c)
  | [], _ => rfl
  | i :: c, h => by
    have hi := h i List.mem_cons_self
    have ih := prodAt_eq hX (c := c) fun j hj => h j (List.mem_cons_of_mem _ hj)
    rw [List.map_cons, prodAt, lookup, if_pos (by simp), ih]
    simp [hX i hi, monom]

theorem transform_eq {X : List K} {v : ℕ → K} (hX : ∀ i, i < X.length → X[i]? = some (v i)) (w : ℕ) :
    ∀ {cs : List (List ℕ)}, (∀ c ∈ cs, ∀ i ∈ c, i < X.length) →
      transform X (cs.map fun c => c.map Int.ofNat ++ List.replicate (w - c.length) (-99)) (nvars cs) = some (cs.map (monom v))
  | [], _ => rfl
  | c :: cs, h => by
    have ih := transform_eq hX w (cs := cs) fun d hd => h d (List.mem_cons_of_mem _ hd)
    unfold nvars at ih ⊢
    rw [List.map_cons, List.map_cons, transform, ih, List.take_left' (by simp), prodAt_eq hX (h c List.mem_cons_self)]
    simp

theorem combos_sorted (s : Feats) : (combos s).Pairwise fun a b => a.length ≤ b.length := by
  have hl : ∀ r c, c ∈ (if s.interaction then without s.n 0 r else withRepl s.n 0 r) → c.length = r := by
    intro r c h1
    split_ifs at h1
    · exact (mem_without.1 h1).1
    · exact (mem_withRepl.1 h1).1
  unfold combos
  rw [List.pairwise_flatMap]
  refine ⟨fun r _ => List.pairwise_of_forall_mem_list fun a ha b hb => by rw [hl r a ha, hl r b hb], ?_⟩
  exact (List.pairwise_le_range' (step := 1)).imp fun {a b} hab c hc d hd => by rw [hl a c hc, hl b d hd]; exact hab

/-- The last combination is the longest one, so every combination fits into its row. -/
theorem table_eq {s : Feats} (hn : 0 < s.n) (hs : s.bias = true ∨ 0 < s.degree) :
    ∃ w, table (combos s) = some ((combos s).map fun c => c.map Int.ofNat ++ List.replicate (w - c.length) (-99)) := by
  have hne : combos s ≠ [] := by
    rcases hs with hs | hs
    · exact List.ne_nil_of_mem (((C156_features s).2 []).2 ⟨by simp, by simp, by simp [hs], by split_ifs <;> simp⟩)
    · refine List.ne_nil_of_mem (((C156_features s).2 [0]).2 ⟨by simpa using hn, by simp; omega, by simp, by split_ifs <;> simp⟩)
  obtain ⟨init, l, e⟩ := List.eq_nil_or_concat (combos s) |>.resolve_left hne
  refine ⟨l.length, ?_⟩
  have hsort := combos_sorted s
  unfold table
  have hlast : (combos s).getLast? = some l := by rw [e]; simp
  rw [hlast]
  dsimp only
  rw [if_pos]
  rw [List.all_eq_true]
  intro c hc
  rw [decide_eq_true_eq]
  rw [e] at hsort hc
  simp only [List.concat_eq_append] at hsort hc
  rw [List.pairwise_append] at hsort
  rcases List.mem_append.1 hc with hc | hc
  · exact hsort.2.2 c hc l (by simp)
  · rw [List.mem_singleton.1 hc]

/-- Values of the inputs. -/
def val (X : List K) (i : ℕ) : K := X.getD i 0

/-- No dummy entry is ever read: the regression is computed from the monomials. -/
theorem regression_eq {s : Feats} (hn : 0 < s.n) (hs : s.bias = true ∨ 0 < s.degree) (f : Fit K) {X : List K}
    (hX : X.length = s.n) :
    regression s f X = some (predict f (pca f.mean f.comps ((combos s).map (monom (val X))))) := by
  obtain ⟨w, hw⟩ := table_eq hn hs
  unfold regression
  rw [hw, Option.bind_some, transform_eq (v := val X) ?_ w ?_, Option.map_some]
  · intro i hi
    unfold val
    rw [List.getD_eq_getElem?_getD, List.getElem?_eq_getElem hi, Option.getD_some]
  · intro c hc i hi
    rw [hX]
    exact (((C156_features s).2 c).1 hc).1 i hi

theorem dot_eq : ∀ {a b : List K}, a.length = b.length → dot a b = ∑ i ∈ Finset.range a.length, a.getD i 0 * b.getD i 0
  | [], [], _ => rfl
  | x :: a, y :: b, h => by
    have ih := dot_eq (a := a) (b := b) (by simpa using h)
    unfold dot at ih ⊢
    rw [List.zipWith_cons_cons, List.sum_cons, ih, List.length_cons, Finset.sum_range_succ', add_comm]
    simp
  | [], _ :: _, h => by simp at h
  | _ :: _, [], h => by simp at h

/-- Specification: the arrays of the fit have the sizes which a fit to the features gives them. -/
structure Fit.Shaped (s : Feats) (f : Fit K) : Prop where
  mean : f.mean.length = (combos s).length
  comps : ∀ c ∈ f.comps, c.length = (combos s).length
  intercept : f.intercept.length = f.coef.length
  coef : ∀ c ∈ f.coef, c.length = f.comps.length

/-- **C156** (prediction): output `k` is `intercept + Σ coefficient · component · (monomial − mean)`, with the monomials of
`C156_features`. -/
theorem C156_prediction {s : Feats} (hn : 0 < s.n) (hs : s.bias = true ∨ 0 < s.degree) {f : Fit K} (hf : f.Shaped s) {X : List K}
    (hX : X.length = s.n) :
    ∃ ys, regression s f X = some ys ∧ ys.length = f.coef.length ∧ ∀ k < f.coef.length,
      ys.getD k 0 = f.intercept.getD k 0 + ∑ j ∈ Finset.range f.comps.length, (f.coef.getD k []).getD j 0 *
        ∑ i ∈ Finset.range (combos s).length, (f.comps.getD j []).getD i 0 *
          ((((combos s).getD i []).map fun v => X.getD v 0).prod - f.mean.getD i 0) := by
  refine ⟨_, regression_eq hn hs f hX, ?_, ?_⟩
  · simp [predict, hf.intercept]
  · intro k hk
    have hk' : k < f.intercept.length := by rw [hf.intercept]; exact hk
    have e1 : (predict f (pca f.mean f.comps ((combos s).map (monom (val X))))).getD k 0 =
        f.intercept.getD k 0 + dot (pca f.mean f.comps ((combos s).map (monom (val X)))) (f.coef.getD k []) := by
      simp [predict, List.getD_eq_getElem?_getD, List.getElem?_zipWith, List.getElem?_eq_getElem hk,
        List.getElem?_eq_getElem hk']
    have hm : f.coef.getD k [] ∈ f.coef := by
      rw [List.getD_eq_getElem?_getD, List.getElem?_eq_getElem hk, Option.getD_some]
      exact List.getElem_mem hk
    rw [e1, dot_eq (by rw [hf.coef _ hm]; simp [pca])]
    congr 1
    have hl : (pca f.mean f.comps ((combos s).map (monom (val X)))).length = f.comps.length := by simp [pca]
    rw [hl]
    refine Finset.sum_congr rfl fun j hj => ?_
    rw [Finset.mem_range] at hj
    rw [mul_comm]
    congr 1
    have hc : f.comps.getD j [] ∈ f.comps := by
      rw [List.getD_eq_getElem?_getD, List.getElem?_eq_getElem hj, Option.getD_some]
      exact List.getElem_mem hj
    have e2 : (pca f.mean f.comps ((combos s).map (monom (val X)))).getD j 0 =
        dot (List.zipWith (· - ·) ((combos s).map (monom (val X))) f.mean) (f.comps.getD j []) := by
      simp [pca, List.getD_eq_getElem?_getD, List.getElem?_eq_getElem hj]
    rw [e2, dot_eq (by rw [hf.comps _ hc]; simp [hf.mean])]
    have hl2 : (List.zipWith (· - ·) ((combos s).map (monom (val X))) f.mean).length = (combos s).length := by simp [hf.mean]
    rw [hl2]
    refine Finset.sum_congr rfl fun i hi => ?_
    rw [Finset.mem_range] at hi
    have hi' : i < f.mean.length := by rw [hf.mean]; exact hi
    rw [mul_comm]
    congr 1
    simp [List.getD_eq_getElem?_getD, List.getElem?_zipWith, List.getElem?_eq_getElem hi, List.getElem?_eq_getElem hi', monom]
    rfl

open MvPolynomial in
/-- **C156** (one polynomial for all inputs): each output is a polynomial of the inputs whose degree is at most the degree of the fit. -/
theorem C156_polynomial {s : Feats} (hn : 0 < s.n) (hs : s.bias = true ∨ 0 < s.degree) {f : Fit K} (hf : f.Shaped s) :
    ∃ ps : List (MvPolynomial ℕ K), ps.length = f.coef.length ∧ (∀ p ∈ ps, p.totalDegree ≤ s.degree) ∧
      ∀ X : List K, X.length = s.n → regression s f X = some (ps.map fun p => eval (fun i => X.getD i 0) p) := by
  refine ⟨(List.range f.coef.length).map fun k => C (f.intercept.getD k 0) +
    ∑ j ∈ Finset.range f.comps.length, C ((f.coef.getD k []).getD j 0) *
        ∑ i ∈ Finset.range (combos s).length, C ((f.comps.getD j []).getD i 0) *
          ((((combos s).getD i []).map fun v => X v).prod - C (f.mean.getD i 0)), by simp, ?_, ?_⟩
  · intro p hp
    rw [List.mem_map] at hp
    obtain ⟨k, -, rfl⟩ := hp
    have hC : ∀ (a : K) (q : MvPolynomial ℕ K), q.totalDegree ≤ s.degree → (C a * q).totalDegree ≤ s.degree := by
      intro a q hq
      refine (totalDegree_mul _ _).trans ?_
      rw [totalDegree_C, zero_add]
      exact hq
    refine (totalDegree_add _ _).trans (max_le (by rw [totalDegree_C]; exact Nat.zero_le _) ?_)
    refine totalDegree_finsetSum_le fun j _ => hC _ _ (totalDegree_finsetSum_le fun i hi => hC _ _ ?_)
    refine (totalDegree_sub_C_le _ _).trans ((totalDegree_list_prod _).trans ?_)
    rw [Finset.mem_range] at hi
    have hm : (combos s).getD i [] ∈ combos s := by
      rw [List.getD_eq_getElem?_getD, List.getElem?_eq_getElem hi, Option.getD_some]
      exact List.getElem_mem hi
    have h2 := (((C156_features s).2 _).1 hm).2.1
    rw [List.map_map]
    have : (totalDegree ∘ fun v : ℕ => (X v : MvPolynomial ℕ K)) = fun _ => 1 := by
      funext v
      exact totalDegree_X v
    rw [this]
    simpa using h2
  · intro Y hY
    obtain ⟨ys, h1, h2, h3⟩ := C156_prediction hn hs hf hY
    rw [h1, Option.some.injEq]
    refine List.ext_getElem (by simp [h2]) fun k hk hk' => ?_
    have := h3 k (h2 ▸ hk)
    rw [List.getD_eq_getElem?_getD, List.getElem?_eq_getElem hk, Option.getD_some] at this
    rw [this]
    simp only [List.getElem_map, List.getElem_range]
    simp only [map_add, eval_C, map_sum, map_mul, map_sub, map_list_prod, List.map_map]
    have : (⇑(eval fun i => Y.getD i 0) ∘ fun v : ℕ => (X v : MvPolynomial ℕ K)) = fun v => Y.getD v 0 := by
      funext v
      simp
    rw [this]

theorem dot_map (cs : List (List ℕ)) (g h : List ℕ → K) : dot (cs.map g) (cs.map h) = (cs.map fun c => g c * h c).sum := by
  induction cs with
  | nil => rfl
  | cons c cs ih =>
    unfold dot at ih ⊢
    simp

theorem sub_zeros (l : List K) : List.zipWith (· - ·) l (List.replicate l.length 0) = l := by
  induction l with
  | nil => rfl
  | cons a l ih => simp [List.replicate_succ, ih]

theorem monom_eq (v : ℕ → K) (c : List ℕ) :
    monom v c = ∏ i ∈ (Multiset.toFinsupp (c : Multiset ℕ)).support, v i ^ (Multiset.toFinsupp (c : Multiset ℕ)) i := by
  have := Finset.prod_multiset_map_count (c : Multiset ℕ) v
  rw [Multiset.map_coe, Multiset.prod_coe] at this
  exact this

open MvPolynomial in
/-- **C156** (every polynomial can be fitted): for every polynomial up to the degree there is a fit which predicts it. -/
theorem C156_complete {s : Feats} (hn : 0 < s.n) (hb : s.bias = true) (hi : s.interaction = false) (p : MvPolynomial ℕ K)
    (hd : p.totalDegree ≤ s.degree) (hv : ∀ i ∈ p.vars, i < s.n) :
    ∃ f : Fit K, f.Shaped s ∧ ∀ X : List K, X.length = s.n → regression s f X = some [eval (fun i => X.getD i 0) p] := by
  classical
  have hF := C156_features s
  refine ⟨⟨List.replicate (combos s).length 0, [(combos s).map fun c : List ℕ => p.coeff (Multiset.toFinsupp (c : Multiset ℕ))], [0], [[1]]⟩,
    ⟨by simp, by simp, rfl, by simp⟩, fun X hX => ?_⟩
  rw [regression_eq hn (Or.inl hb) _ hX, Option.some.injEq]
  have e0 : List.zipWith (· - ·) ((combos s).map (monom (val X))) (List.replicate (combos s).length 0) =
      (combos s).map (monom (val X)) := by
    have := sub_zeros ((combos s).map (monom (val X)))
    rwa [List.length_map] at this
  have e1 : predict (⟨List.replicate (combos s).length 0, [(combos s).map fun c : List ℕ => p.coeff (Multiset.toFinsupp (c : Multiset ℕ))],
      [0], [[1]]⟩ : Fit K) (pca (List.replicate (combos s).length 0)
        [(combos s).map fun c : List ℕ => p.coeff (Multiset.toFinsupp (c : Multiset ℕ))] ((combos s).map (monom (val X)))) =
      [((combos s).map fun c : List ℕ => monom (val X) c * p.coeff (Multiset.toFinsupp (c : Multiset ℕ))).sum] := by
    unfold pca
    rw [List.map_cons, List.map_nil, e0, dot_map]
    simp [predict, dot]
  refine e1.trans ?_
  congr 1
  rw [← List.sum_toFinset _ hF.1, eval_eq]
  have inj : Set.InjOn (fun c : List ℕ => Multiset.toFinsupp (c : Multiset ℕ)) ((combos s).toFinset : Set (List ℕ)) := by
    intro a ha b hb' h
    have hp : List.Perm a b := Multiset.coe_eq_coe.1 (Multiset.toFinsupp.injective h)
    have ha' := ((hF.2 a).1 (by simpa using ha)).2.2.2
    have hb'' := ((hF.2 b).1 (by simpa using hb')).2.2.2
    rw [hi] at ha' hb''
    exact hp.eq_of_pairwise (fun a b _ _ h1 h2 => le_antisymm h1 h2) (by simpa using ha') (by simpa using hb'')
  have e2 := Finset.sum_image (s := (combos s).toFinset) (g := fun c : List ℕ => Multiset.toFinsupp (c : Multiset ℕ))
    (f := fun d : ℕ →₀ ℕ => p.coeff d * ∏ i ∈ d.support, X.getD i 0 ^ d i) inj
  have e3 : ∑ c ∈ (combos s).toFinset, monom (val X) c * p.coeff (Multiset.toFinsupp (c : Multiset ℕ)) =
      ∑ c ∈ (combos s).toFinset, p.coeff (Multiset.toFinsupp (c : Multiset ℕ)) *
        ∏ i ∈ (Multiset.toFinsupp (c : Multiset ℕ)).support, X.getD i 0 ^ (Multiset.toFinsupp (c : Multiset ℕ)) i := by
    refine Finset.sum_congr rfl fun c _ => ?_
    rw [monom_eq, mul_comm]
    rfl
  rw [e3, ← e2]
  symm
  refine Finset.sum_subset ?_ ?_
  · intro m hm
    rw [Finset.mem_image]
    refine ⟨(Finsupp.toMultiset m).sort (· ≤ ·), ?_, ?_⟩
    · rw [List.mem_toFinset, hF.2]
      refine ⟨fun i hi' => ?_, ?_, by simp [hb], by rw [hi]; simp⟩
      · rw [Multiset.mem_sort, Finsupp.mem_toMultiset] at hi'
        exact hv i ((mem_vars_iff_mem_support i).2 ⟨m, hm, hi'⟩)
      · rw [Multiset.length_sort, Finsupp.card_toMultiset]
        exact (le_totalDegree hm).trans hd
    · rw [Multiset.sort_eq, Finsupp.toMultiset_toFinsupp]
  · intro m _ hm
    rw [notMem_support_iff.1 hm, zero_mul]

/-- The characteristic which a regression gives the condensing heat exchanger, `precomp_funs.py:2944-2956` and `5755-5768`. -/
def hexChar (s : Feats) (f : Fit K) (tw tg w g : K) : CondHex.Out K :=
  match regression s f [tw, tg, w, g] with
  | some (a :: b :: _) => ⟨a, b⟩
  | _ => ⟨0, 0⟩

open MvPolynomial in
/-- **C156** (heat exchanger): within its range of flows, both outlet temperatures of the condensing heat exchanger are polynomials of the
two inlet temperatures and the two scaled flows, the same ones at every step. -/
theorem C156_hex [LinearOrder K] [IsStrictOrderedRing K] [FloorRing K] {s : Feats} (hn : s.n = 4)
    (hs : s.bias = true ∨ 0 < s.degree) {f : Fit K} (hf : f.Shaped s) (h2 : f.coef.length = 2) (cp : K → K) (rw rg : CondHex.Range K) :
    ∃ pw pg : MvPolynomial ℕ K, pw.totalDegree ≤ s.degree ∧ pg.totalDegree ≤ s.degree ∧
      ∀ tw tg w g, rw.lo ≤ w → w ≤ rw.hi → 1 / 10 < w → rg.lo ≤ g → g ≤ rg.hi → g ≠ 0 →
        CondHex.solve cp (hexChar s f) rw rg tw tg w g =
          some ⟨eval (fun i => [tw, tg, w, g].getD i 0) pw, eval (fun i => [tw, tg, w, g].getD i 0) pg⟩ := by
  obtain ⟨ps, hl, hd, he⟩ := C156_polynomial (by omega) hs hf
  rw [h2] at hl
  obtain ⟨pw, pg, rfl⟩ := List.length_eq_two.1 hl
  refine ⟨pw, pg, hd _ (by simp), hd _ (by simp), ?_⟩
  intro tw tg w g w1 w2 w3 g1 g2 g3
  have hchar : hexChar s f tw tg w g =
      ⟨eval (fun i => [tw, tg, w, g].getD i 0) pw, eval (fun i => [tw, tg, w, g].getD i 0) pg⟩ := by
    unfold hexChar
    rw [he [tw, tg, w, g] (by simp [hn])]
    rfl
  have hw0 : w ≠ 0 := by
    have : (0 : K) < 1 / 10 := by norm_num
    exact (this.trans w3).ne'
  have hgas : CondHex.gas rg g = some g := by
    unfold CondHex.gas
    rw [if_neg (fun h => absurd h.2 (not_lt.2 g1)), if_neg (not_lt.2 g2)]
  have hwater : CondHex.water rw w = (w, none) := by
    unfold CondHex.water
    rw [if_neg (fun h => absurd h.2 (not_lt.2 w1)), if_neg (not_lt.2 w2)]
  unfold CondHex.solve
  rw [hgas, hwater]
  dsimp only
  rw [CondHex.core, if_pos ⟨hw0, g3⟩, if_pos (show CondHex.thresh < w from w3), hchar]

/-- Without features there is nothing to take the width of the table from: degree 0 without bias raises. -/
theorem C156_fails_empty {s : Feats} (hb : s.bias = false) (hd : s.degree = 0) (f : Fit K) (X : List K) : regression s f X = none := by
  simp [regression, combos, hb, hd, table]

/-! ## Witnesses -/

/-- The settings of the plants: four inputs, polynomial of degree two. -/
def plant : Feats := ⟨4, 2, false, true⟩

example : (combos plant).length = 15 ∧ table (combos plant) ≠ none := by decide

/-- A fit of the right shape. -/
example : (⟨List.replicate 15 1, [List.replicate 15 2, List.replicate 15 3], [5, 6], [[1, 2], [3, 4]]⟩ : Fit ℚ).Shaped plant :=
  ⟨by decide, by decide, rfl, by decide⟩

example : regression ⟨2, 2, false, true⟩
    (⟨[0, 0, 0, 1, 1, 1], [[1, 2, 3, 4, 5, 6], [0, 0, 0, 1, 0, 0]], [5, 6], [[1, 2], [3, 4]]⟩ : Fit ℚ) [3, 2] = some [109, 302] := by
  decide +kernel

end Verif.PolyReg
