import Verif.Model.Fit
import Verif.Props.Perf
import Verif.Props.Resample

/-!
# Comparing uneven series (C157)

The specification speaks of readings: `InForce l t v` says that `v` is the last reading of `l` up to the time `t`,
`Next l t v` that it is the first one from `t` on, `OnGrid f a b ts` that `ts` are the multiples of `f` of the intervals
from `a` to `b`.
-/

namespace Verif.Fit

open Verif.Resample

/-- Specification: `v` is the last reading up to the time `t`. -/
def InForce {K : Type*} (l : List (ℕ × K)) (t : ℕ) (v : K) : Prop :=
  ∃ s, (s, v) ∈ l ∧ s ≤ t ∧ ∀ q ∈ l, q.1 ≤ t → q.1 ≤ s

/-- Specification: `v` is the first reading from the time `t` on. -/
def Next {K : Type*} (l : List (ℕ × K)) (t : ℕ) (v : K) : Prop :=
  ∃ s, (s, v) ∈ l ∧ t ≤ s ∧ ∀ q ∈ l, t ≤ q.1 → s ≤ q.1

/-- Specification: the times in ascending order of the grid with period `f` for readings from `a` to `b`: the last one up
to `a`, the last one up to `b` and all between. -/
def OnGrid (f a b : ℕ) (ts : List ℕ) : Prop :=
  ts.Pairwise (· < ·) ∧ ∀ t, t ∈ ts ↔ f ∣ t ∧ a < t + f ∧ t ≤ b

/-- Specification: the readings are in the order of their times. -/
abbrev Ordered {K : Type*} (l : List (ℕ × K)) : Prop := l.Pairwise fun p q => p.1 < q.1

/-- Specification: `a` is the time of the first and `b` that of the last reading. -/
def Ends {K : Type*} (l : List (ℕ × K)) (a b : ℕ) : Prop := l.head?.map Prod.fst = some a ∧ l.getLast?.map Prod.fst = some b

variable {K : Type*} [Field K]

omit [Field K] in
theorem ordered_unique {l : List (ℕ × K)} (h : Ordered l) {p q : ℕ × K} (hp : p ∈ l) (hq : q ∈ l) (e : p.1 = q.1) :
    p = q := by
  obtain ⟨i, hi, rfl⟩ := List.getElem_of_mem hp
  obtain ⟨j, hj, rfl⟩ := List.getElem_of_mem hq
  rcases lt_trichotomy i j with h1 | h1 | h1
  · have := List.pairwise_iff_getElem.1 h i j hi hj h1; omega
  · subst h1; rfl
  · have := List.pairwise_iff_getElem.1 h j i hj hi h1; omega

omit [Field K] in
theorem lastAt_iff {l : List (ℕ × K)} (h : Ordered l) (t : ℕ) (v : K) : lastAt l t = some v ↔ InForce l t v := by
  have key : ∀ p, (l.filter fun p => p.1 ≤ t).getLast? = some p → p ∈ l ∧ p.1 ≤ t ∧ ∀ q ∈ l, q.1 ≤ t → q.1 ≤ p.1 := by
    intro p hp
    have hm := List.mem_of_getLast? hp
    have ho : Ordered (l.filter fun p => p.1 ≤ t) := h.filter _
    obtain ⟨ys, e⟩ := List.getLast?_eq_some_iff.1 hp
    simp only [List.mem_filter, decide_eq_true_eq] at hm
    refine ⟨hm.1, hm.2, fun q hq ht => ?_⟩
    have hq' : q ∈ l.filter fun p => p.1 ≤ t := by simp [hq, ht]
    rw [e] at hq' ho
    simp only [List.mem_append, List.mem_singleton] at hq'
    rcases hq' with hq' | rfl
    · exact ((List.pairwise_append.1 ho).2.2 q hq' p (by simp)).le
    · exact le_rfl
  unfold lastAt
  constructor
  · intro e
    obtain ⟨p, hp, rfl⟩ := Option.map_eq_some_iff.1 e
    exact ⟨p.1, (key p hp).1, (key p hp).2⟩
  · rintro ⟨s, hs, ht, hmax⟩
    have hne : l.filter (fun p => p.1 ≤ t) ≠ [] := List.ne_nil_of_mem (a := (s, v)) (by simp [hs, ht])
    have e := List.getLast?_eq_some_getLast hne
    obtain ⟨k1, k2, k3⟩ := key _ e
    have : (l.filter fun p => p.1 ≤ t).getLast hne = (s, v) :=
      ordered_unique h k1 hs (le_antisymm (hmax _ k1 k2) (k3 _ hs ht))
    rw [e, this]; rfl

omit [Field K] in
theorem firstFrom_iff {l : List (ℕ × K)} (h : Ordered l) (t : ℕ) (v : K) : firstFrom l t = some v ↔ Next l t v := by
  have key : ∀ p, (l.filter fun p => t ≤ p.1).head? = some p → p ∈ l ∧ t ≤ p.1 ∧ ∀ q ∈ l, t ≤ q.1 → p.1 ≤ q.1 := by
    intro p hp
    have hm := List.mem_of_head? hp
    have ho : Ordered (l.filter fun p => t ≤ p.1) := h.filter _
    obtain ⟨ys, e⟩ := List.head?_eq_some_iff.1 hp
    simp only [List.mem_filter, decide_eq_true_eq] at hm
    refine ⟨hm.1, hm.2, fun q hq ht => ?_⟩
    have hq' : q ∈ l.filter fun p => t ≤ p.1 := by simp [hq, ht]
    rw [e] at hq' ho
    rcases List.mem_cons.1 hq' with rfl | hq'
    · exact le_rfl
    · exact (List.rel_of_pairwise_cons ho hq').le
  unfold firstFrom
  constructor
  · intro e
    obtain ⟨p, hp, rfl⟩ := Option.map_eq_some_iff.1 e
    exact ⟨p.1, (key p hp).1, (key p hp).2⟩
  · rintro ⟨s, hs, ht, hmin⟩
    have hne : l.filter (fun p => t ≤ p.1) ≠ [] := List.ne_nil_of_mem (a := (s, v)) (by simp [hs, ht])
    have e := List.head?_eq_some_head hne
    obtain ⟨k1, k2, k3⟩ := key _ e
    have : (l.filter fun p => t ≤ p.1).head hne = (s, v) :=
      ordered_unique h k1 hs (le_antisymm (k3 _ hs ht) (hmin _ k1 k2))
    rw [e, this]; rfl

omit [Field K] in
theorem ends_range {l : List (ℕ × K)} (h : Ordered l) {a b : ℕ} (e : Ends l a b) : ∀ p ∈ l, a ≤ p.1 ∧ p.1 ≤ b := by
  obtain ⟨e1, e2⟩ := e
  obtain ⟨x, hx, rfl⟩ := Option.map_eq_some_iff.1 e1
  obtain ⟨y, hy, rfl⟩ := Option.map_eq_some_iff.1 e2
  intro p hp
  obtain ⟨xs, ex⟩ := List.head?_eq_some_iff.1 hx
  obtain ⟨ys, ey⟩ := List.getLast?_eq_some_iff.1 hy
  constructor
  · rw [ex] at hp h
    rcases List.mem_cons.1 hp with rfl | hp
    · exact le_rfl
    · exact (List.rel_of_pairwise_cons h hp).le
  · rw [ey] at hp h
    rcases List.mem_append.1 hp with hp | hp
    · exact ((List.pairwise_append.1 h).2.2 p hp y (by simp)).le
    · rw [List.mem_singleton.1 hp]

omit [Field K] in
theorem labels_eq {f : ℕ} {l : List (ℕ × K)} {a b : ℕ} (e : Ends l a b) :
    labels f l = (List.range (b / f + 1 - a / f)).map fun i => (a / f + i) * f := by
  unfold labels Resample.first Resample.last
  rw [e.1, e.2]
  rfl

/-- The times of the grid. -/
theorem grid_onGrid {f : ℕ} (hf : 0 < f) (a b : ℕ) :
    OnGrid f a b ((List.range (b / f + 1 - a / f)).map fun i => (a / f + i) * f) := by
  refine ⟨?_, fun t => ?_⟩
  · rw [List.pairwise_map]
    refine List.pairwise_lt_range.imp fun {i j} hij => ?_
    exact Nat.mul_lt_mul_of_pos_right (by omega) hf
  · simp only [List.mem_map, List.mem_range]
    constructor
    · rintro ⟨i, hi, rfl⟩
      refine ⟨Dvd.intro_left _ rfl, ?_, ?_⟩
      · have := Nat.lt_mul_div_succ a hf
        have h2 : f * (a / f + 1) ≤ (a / f + i) * f + f := by nlinarith
        omega
      · have h2 : (a / f + i) * f ≤ b / f * f := Nat.mul_le_mul_right _ (by omega)
        exact h2.trans (Nat.div_mul_le_self b f)
    · rintro ⟨⟨k, rfl⟩, h1, h2⟩
      have h3 : a / f ≤ k := by
        have : a / f < k + 1 := (Nat.div_lt_iff_lt_mul hf).2 (by nlinarith)
        omega
      have h4 : k ≤ b / f := (Nat.le_div_iff_mul_le hf).2 (by nlinarith)
      exact ⟨k - a / f, by omega, by rw [Nat.add_sub_cancel' h3, Nat.mul_comm]⟩

omit [Field K] in
theorem labels_onGrid {f : ℕ} (hf : 0 < f) {l : List (ℕ × K)} {a b : ℕ} (e : Ends l a b) :
    OnGrid f a b (labels f l) := by
  rw [labels_eq e]
  exact grid_onGrid hf a b

omit [Field K] in
theorem chain_get {f a : ℕ} {l : List (ℕ × K)} (hc : (l.map Prod.fst).IsChain fun a b => b = a + f)
    (ha : l.head?.map Prod.fst = some a) (i : ℕ) (hi : i < l.length) : l[i].1 = a + i * f := by
  induction i with
  | zero =>
    obtain ⟨x, hx, rfl⟩ := Option.map_eq_some_iff.1 ha
    obtain ⟨xs, rfl⟩ := List.head?_eq_some_iff.1 hx
    simp
  | succ n ih =>
    have h1 := List.isChain_iff_getElem.1 hc n (by simpa using hi)
    simp only [List.getElem_map] at h1
    rw [h1, ih (by omega)]
    ring

omit [Field K] in
/-- A series that already has the grid is the same as what is read off it at the grid. -/
theorem even_plain {f : ℕ} (hf : 0 < f) {l : List (ℕ × K)} {a b : ℕ} (e : Ends l a b)
    (hc : (l.map Prod.fst).IsChain fun a b => b = a + f) :
    (labels f l).length = l.length ∧ (f ∣ a → labels f l = l.map Prod.fst) := by
  have hl : l ≠ [] := by rintro rfl; simp [Ends] at e
  have hlen : 0 < l.length := List.length_pos_of_ne_nil hl
  have hb : b = a + (l.length - 1) * f := by
    have := e.2
    rw [List.getLast?_eq_getElem?, List.getElem?_eq_getElem (by omega)] at this
    simp only [Option.map_some, Option.some.injEq] at this
    rw [← this, chain_get hc e.1]
  have hn : b / f + 1 - a / f = l.length := by
    rw [hb, Nat.add_mul_div_right _ _ hf]; omega
  refine ⟨by rw [labels_eq e]; simp [hn], fun hd => ?_⟩
  rw [labels_eq e, hn]
  refine List.ext_getElem (by simp) fun i h1 h2 => ?_
  simp only [List.getElem_map, List.getElem_range]
  rw [chain_get hc e.1 i (by simpa using h2), Nat.add_mul, Nat.div_mul_cancel hd]

omit [Field K] in
theorem read_plain {l : List (ℕ × K)} {ts : List ℕ} (ht : ts = l.map Prod.fst) {r : ℕ → Option K}
    (hr : ∀ p ∈ l, r p.1 = some p.2) : (l.map fun p => (p.1, some p.2)) = ts.map fun t => (t, r t) := by
  subst ht
  rw [List.map_map]
  refine List.map_congr_left fun p hp => ?_
  simp [hr p hp]

omit [Field K] in
theorem lastAt_self {l : List (ℕ × K)} (h : Ordered l) : ∀ p ∈ l, lastAt l p.1 = some p.2 := fun p hp =>
  (lastAt_iff h _ _).2 ⟨p.1, hp, le_rfl, fun _ _ h => h⟩

omit [Field K] in
theorem firstFrom_self {l : List (ℕ × K)} (h : Ordered l) : ∀ p ∈ l, firstFrom l p.1 = some p.2 := fun p hp =>
  (firstFrom_iff h _ _).2 ⟨p.1, hp, le_rfl, fun _ _ h => h⟩

/-- Specification: at least three readings, each taken `f` after the one before. -/
def EvenBy {V : Type*} (f : ℕ) (l : List (ℕ × V)) : Prop :=
  3 ≤ l.length ∧ (l.map Prod.fst).IsChain fun a b => b = a + f

theorem inferred_iff {V : Type*} (f : ℕ) (l : List (ℕ × V)) : Inferred f l ↔ EvenBy f l := Iff.rfl

theorem upsample_eq {f : ℕ} (hf : 0 < f) {l : List (ℕ × K)} {a b : ℕ} (e : Ends l a b)
    {read : List (ℕ × K) → ℕ → Option K} (hr : ∀ p ∈ l, read l p.1 = some p.2) (hd : EvenBy f l → f ∣ a) :
    upsample read f l = (labels f l).map fun t => (t, read l t) := by
  unfold upsample
  split_ifs with hi
  · have hp := (even_plain hf e hi.1.2).2 (hd hi.1)
    rw [← read_plain hp hr, hp, List.zip_map']
  · rfl

/-- **C157**: `forward_fill` gives a series at the times of the grid, with the last reading up to each of them; only before
the first reading there is none, so only the first time of the grid can be without value.  Series that already have the
period are assumed to begin at a time of the grid; for others see `C157_fails_shifted`. -/
theorem C157_forward {f : ℕ} (hf : 0 < f) {l : List (ℕ × K)} (h : Ordered l) {a b : ℕ} (e : Ends l a b)
    (hd : EvenBy f l → f ∣ a) :
    OnGrid f a b ((process f .forwardFill l).map Prod.fst) ∧
    ∀ x ∈ process f .forwardFill l, (∀ v, x.2 = some v ↔ InForce l x.1 v) ∧ (x.2 = none ↔ x.1 < a) := by
  simp only [process]
  rw [upsample_eq hf e (lastAt_self h) hd]
  refine ⟨by simpa [List.map_map, Function.comp_def] using labels_onGrid hf e, fun x hx => ?_⟩
  obtain ⟨t, ht, rfl⟩ := List.mem_map.1 hx
  refine ⟨fun v => lastAt_iff h t v, ?_⟩
  obtain ⟨x, hx, rfl⟩ := Option.map_eq_some_iff.1 e.1
  have hr := ends_range h e
  constructor
  · intro hn
    by_contra hlt
    push Not at hlt
    have : l.filter (fun p => p.1 ≤ t) = [] := by
      simpa [lastAt] using hn
    have hm : x ∈ l.filter fun p => p.1 ≤ t := by
      simp only [List.mem_filter, decide_eq_true_eq]
      exact ⟨List.mem_of_head? hx, hlt⟩
    rw [this] at hm
    simp at hm
  · intro hlt
    cases hv : lastAt l t with
    | none => rfl
    | some v =>
      obtain ⟨s, hs, hst, -⟩ := (lastAt_iff h t v).1 hv
      have := (hr _ hs).1
      simp only at this hlt
      omega

/-- The hypotheses are met by four uneven readings, of which the second is replaced before the next time of the grid. -/
example : process 10 .forwardFill [(3, (7 : ℚ)), (14, 8), (18, 9), (32, 5)] =
    [(0, none), (10, some 7), (20, some 9), (30, some 9)] := by decide +kernel

/-- **C157**: `backward_fill` gives the first reading from each time of the grid on, without gaps. -/
theorem C157_backward {f : ℕ} (hf : 0 < f) {l : List (ℕ × K)} (h : Ordered l) {a b : ℕ} (e : Ends l a b)
    (hd : EvenBy f l → f ∣ a) :
    OnGrid f a b ((process f .backwardFill l).map Prod.fst) ∧
    ∀ x ∈ process f .backwardFill l, ∃ v, x.2 = some v ∧ Next l x.1 v := by
  simp only [process]
  rw [upsample_eq hf e (firstFrom_self h) hd]
  have hg := labels_onGrid hf e
  refine ⟨by simpa [List.map_map, Function.comp_def] using hg, fun x hx => ?_⟩
  obtain ⟨t, ht, rfl⟩ := List.mem_map.1 hx
  obtain ⟨y, hy, rfl⟩ := Option.map_eq_some_iff.1 e.2
  cases hv : firstFrom l t with
  | some v => exact ⟨v, rfl, (firstFrom_iff h t v).1 hv⟩
  | none =>
    have : l.filter (fun p => t ≤ p.1) = [] := by simpa [firstFrom] using hv
    have hm : y ∈ l.filter fun p => t ≤ p.1 := by
      simp only [List.mem_filter, decide_eq_true_eq]
      exact ⟨List.mem_of_getLast? hy, ((hg.2 t).1 ht).2.2⟩
    rw [this] at hm
    simp at hm

/-- The hypotheses are met by the same readings. -/
example : process 10 .backwardFill [(3, (7 : ℚ)), (14, 8), (18, 9), (32, 5)] =
    [(0, some 7), (10, some 8), (20, some 5), (30, some 5)] := by decide +kernel

/-- **C157** is wrong for every series which has the period of the grid but does not begin at one of its times: all values
are kept in their order, with new times which are before the reading was taken, with `forward_fill` as with
`backward_fill`. -/
theorem C157_fails_shifted {f : ℕ} (hf : 0 < f) {l : List (ℕ × K)} {a b : ℕ} (e : Ends l a b) (hi : EvenBy f l)
    (hd : ¬ f ∣ a) :
    process f .backwardFill l = process f .forwardFill l ∧
    List.Forall₂ (fun x p => x.2 = some p.2 ∧ x.1 < p.1) (process f .forwardFill l) l := by
  have hlen := (even_plain hf e hi.2).1
  simp only [process, upsample]
  rw [if_pos ⟨hi, hlen.symm⟩, if_pos ⟨hi, hlen.symm⟩]
  refine ⟨rfl, List.forall₂_iff_get.2 ⟨by simp [hlen], fun i h1 h2 => ?_⟩⟩
  simp only [List.get_eq_getElem, List.getElem_zip, List.getElem_map, true_and]
  rw [chain_get hi.2 e.1 i h2]
  simp only [labels_eq e, List.getElem_map, List.getElem_range]
  have h3 : a / f * f < a := by
    have h3 := Nat.div_mul_le_self a f
    rcases h3.lt_or_eq with h3 | h3
    · exact h3
    · exact absurd (Dvd.intro_left _ h3) hd
  rw [Nat.add_mul]
  omega

/-- The hypotheses are met by three readings every 10, the first one at 5. -/
example : process 10 .forwardFill [(5, (7 : ℚ)), (15, 8), (25, 9)] = [(0, some 7), (10, some 8), (20, some 9)] := by
  decide +kernel

/-! ### Comparing two series -/

/-- Specification: what a value `v` at time `t` of a series fitted to the period `f` has to do with the readings `l`. -/
def Fits (f : ℕ) : How → List (ℕ × ℝ) → ℕ → ℝ → Prop
  | .forwardFill, l, t, v => InForce l t v
  | .backwardFill, l, t, v => Next l t v
  | .interpolate, l, t, v =>
    (∀ r, r = (l.filter fun p => t ≤ p.1 ∧ p.1 < t + f).map Prod.snd → r ≠ [] → v * r.length = r.sum) ∧
    ∀ m M, (∀ p ∈ l, m ≤ p.2 ∧ p.2 ≤ M) → m ≤ v ∧ v ≤ M

/-- Specification: a series which may be compared at the times of the grid with period `f`: readings in order, the first
one in the interval of `a` and the last one in that of `b`; if it is even with this period, it has the times of the grid;
for `forward_fill` it begins at a time of the grid. -/
structure Comparable (f a b : ℕ) (how : How) (s : Ser ℝ) : Prop where
  ordered : Ordered s.data
  ends : ∃ a' b', Ends s.data a' b' ∧ a' / f = a / f ∧ b' / f = b / f ∧ (how = .forwardFill → f ∣ a') ∧
    (EvenBy f s.data → f ∣ a') ∧
    (s.freq = some f → f ∣ a' ∧ (s.data.map Prod.fst).IsChain fun a b => b = a + f)

theorem bin_filter {f : ℕ} (hf : 0 < f) (l : List (ℕ × ℝ)) (j : ℕ) :
    bin f l j = (l.filter fun p => j * f ≤ p.1 ∧ p.1 < j * f + f).map Prod.snd := by
  unfold bin
  congr 1
  refine List.filter_congr fun p _ => ?_
  simp only [decide_eq_decide]
  rw [Nat.div_eq_iff hf]
  omega

theorem fits_self {f : ℕ} (hf : 0 < f) {l : List (ℕ × ℝ)} (h : Ordered l) {a b : ℕ} (e : Ends l a b)
    (hc : (l.map Prod.fst).IsChain fun a b => b = a + f) (how : How) {p : ℕ × ℝ} (hp : p ∈ l) :
    Fits f how l p.1 p.2 := by
  cases how with
  | forwardFill => exact ⟨p.1, hp, le_rfl, fun _ _ h => h⟩
  | backwardFill => exact ⟨p.1, hp, le_rfl, fun _ _ h => h⟩
  | interpolate =>
    refine ⟨?_, fun m M hm => hm p hp⟩
    rintro r rfl -
    have : ∀ x ∈ (l.filter fun q => p.1 ≤ q.1 ∧ q.1 < p.1 + f).map Prod.snd, x = p.2 := by
      intro x hx
      obtain ⟨q, hq, rfl⟩ := List.mem_map.1 hx
      simp only [List.mem_filter, decide_eq_true_eq] at hq
      obtain ⟨hq, h1, h2⟩ := hq
      suffices q = p by rw [this]
      refine ordered_unique h hq hp ?_
      obtain ⟨i, hi, rfl⟩ := List.getElem_of_mem hp
      obtain ⟨j, hj, rfl⟩ := List.getElem_of_mem hq
      rw [chain_get hc e.1 i hi, chain_get hc e.1 j hj] at h1 h2
      have h3 : i ≤ j := Nat.le_of_mul_le_mul_right (by omega : i * f ≤ j * f) hf
      have h4 : j < i + 1 := Nat.lt_of_mul_lt_mul_right (a := f) (by rw [Nat.add_mul]; omega)
      have : i = j := by omega
      subst this; rfl
    rw [List.eq_replicate_of_mem this]
    simp [mul_comm]

theorem fits_resample {f : ℕ} (hf : 0 < f) {l : List (ℕ × ℝ)} (h : Ordered l) {a b : ℕ} (e : Ends l a b) :
    ∃ v : ℕ → ℝ, (labels f l).zip (resample f l) = (labels f l).map (fun t => (t, some (v t))) ∧
      ∀ t ∈ labels f l, Fits f .interpolate l t (v t) := by
  have hl : l ≠ [] := by rintro rfl; simp [Ends] at e
  have hs : (l.map Prod.fst).Pairwise (· ≤ ·) := by
    rw [List.pairwise_map]
    exact h.imp fun h => h.le
  have hln : (labels f l).length = (means f l).length := by simp [labels, means]
  have hrn : (resample f l).length = (means f l).length := by simp [resample]
  -- every value is known and in the range of the data
  have hk : ∀ m M, (∀ p ∈ l, m ≤ p.2 ∧ p.2 ≤ M) → ∀ i < (means f l).length,
      ∃ x, interp (means f l) i = some x ∧ m ≤ x ∧ x ≤ M := by
    intro m M hm i hi
    exact (C114_range_partial f hl hs hm).2 _ (List.mem_map.2 ⟨i, List.mem_range.2 hi, rfl⟩)
  obtain ⟨m0, M0, h0⟩ : ∃ m M : ℝ, ∀ p ∈ l, m ≤ p.2 ∧ p.2 ≤ M := by
    refine ⟨-(l.map fun p => |p.2|).sum, (l.map fun p => |p.2|).sum, fun p hp => ?_⟩
    have : |p.2| ≤ (l.map fun p => |p.2|).sum :=
      List.single_le_sum (by simp only [List.mem_map]; rintro _ ⟨_, _, rfl⟩; positivity) _ (List.mem_map_of_mem (f := fun p : ℕ × ℝ => |p.2|) hp)
    exact abs_le.1 this
  refine ⟨fun t => (interp (means f l) (t / f - first f l)).getD 0, ?_, ?_⟩
  · refine List.ext_getElem (by simp [hln, hrn]) fun i h1 h2 => ?_
    have hi : i < (means f l).length := by simpa [hln] using h2
    obtain ⟨x, hx, -⟩ := hk m0 M0 h0 i hi
    simp only [List.getElem_zip, List.getElem_map, resample, List.getElem_range, labels, Nat.mul_div_cancel _ hf,
      Nat.add_sub_cancel_left, hx, Option.getD_some]
  · intro t ht
    obtain ⟨i, hi, rfl⟩ := List.mem_map.1 ht
    have hi' : i < (means f l).length := by simpa [means] using hi
    simp only [Nat.mul_div_cancel _ hf, Nat.add_sub_cancel_left]
    refine ⟨?_, fun m M hm => ?_⟩
    · rintro r rfl hr
      rw [← bin_filter hf] at hr ⊢
      have e1 : interp (means f l) i = mean (bin f l (first f l + i)) := by
        have := means_at f l i hi'
        unfold interp
        rw [this]
        unfold mean
        rw [if_neg hr]
        rfl
      rw [e1]
      unfold mean
      rw [if_neg hr, Option.getD_some, div_mul_cancel₀]
      exact_mod_cast (List.length_pos_of_ne_nil hr).ne'
    · obtain ⟨x, hx, h2⟩ := hk m M hm i hi'
      rw [hx]
      exact h2

theorem adapt_spec {f : ℕ} (hf : 0 < f) {a b : ℕ} {how : How} {s : Ser ℝ} (h : Comparable f a b how s) :
    ∃ v : ℕ → ℝ, adapt (some f) (some f) (some how) s =
      some (((List.range (b / f + 1 - a / f)).map fun i => (a / f + i) * f).map fun t => (t, some (v t))) ∧
      ∀ t ∈ (List.range (b / f + 1 - a / f)).map (fun i => (a / f + i) * f), Fits f how s.data t (v t) := by
  obtain ⟨ho, a', b', e, ha, hb, hff, hi, hfr⟩ := h
  rw [← ha, ← hb, ← labels_eq e]
  have hg := labels_onGrid hf e
  unfold adapt
  by_cases hs : s.freq = some f
  · obtain ⟨hd, hc⟩ := hfr hs
    have hp := (even_plain hf e hc).2 hd
    rw [if_neg (by simp [hs])]
    refine ⟨fun t => (lastAt s.data t).getD 0, ?_, ?_⟩
    · unfold Ser.plain
      rw [hp, List.map_map]
      congr 1
      refine List.map_congr_left fun p hp => ?_
      simp [lastAt_self ho p hp]
    · intro t ht
      rw [hp] at ht
      obtain ⟨p, hpm, rfl⟩ := List.mem_map.1 ht
      simp only [lastAt_self ho p hpm, Option.getD_some]
      exact fits_self hf ho e hc how hpm
  · rw [if_pos (Or.inr hs)]
    simp only [Option.bind_some, Option.map_some]
    cases how with
    | interpolate =>
      obtain ⟨v, h1, h2⟩ := fits_resample hf ho e
      exact ⟨v, by simp only [process]; rw [h1], h2⟩
    | forwardFill =>
      obtain ⟨-, h2⟩ := C157_forward hf ho e hi
      have hk : ∀ t ∈ labels f s.data, ∃ x, lastAt s.data t = some x := by
        intro t ht
        have hm : (t, lastAt s.data t) ∈ process f .forwardFill s.data := by
          simp only [process]
          rw [upsample_eq hf e (lastAt_self ho) hi]
          exact List.mem_map.2 ⟨t, ht, rfl⟩
        cases hv : lastAt s.data t with
        | some x => exact ⟨x, rfl⟩
        | none =>
          have h3 := (h2 _ hm).2.1 hv
          obtain ⟨⟨c, rfl⟩, h5, -⟩ := (hg.2 t).1 ht
          obtain ⟨d, rfl⟩ := hff rfl
          simp only at h3
          have h6 : c < d := Nat.lt_of_mul_lt_mul_left h3
          have : f * (c + 1) ≤ f * d := Nat.mul_le_mul_left _ h6
          rw [Nat.mul_add] at this
          omega
      refine ⟨fun t => (lastAt s.data t).getD 0, ?_, fun t ht => ?_⟩
      · simp only [process]
        rw [upsample_eq hf e (lastAt_self ho) hi]
        congr 1
        refine List.map_congr_left fun t ht => ?_
        obtain ⟨x, hx⟩ := hk t ht
        rw [hx]; rfl
      · obtain ⟨x, hx⟩ := hk t ht
        simp only [hx, Option.getD_some]
        exact (lastAt_iff ho t x).1 hx
    | backwardFill =>
      obtain ⟨-, h2⟩ := C157_backward hf ho e hi
      have hk : ∀ t ∈ labels f s.data, ∃ x, firstFrom s.data t = some x := by
        intro t ht
        have hm : (t, firstFrom s.data t) ∈ process f .backwardFill s.data := by
          simp only [process]
          rw [upsample_eq hf e (firstFrom_self ho) hi]
          exact List.mem_map.2 ⟨t, ht, rfl⟩
        obtain ⟨x, hx, -⟩ := h2 _ hm
        exact ⟨x, hx⟩
      refine ⟨fun t => (firstFrom s.data t).getD 0, ?_, fun t ht => ?_⟩
      · simp only [process]
        rw [upsample_eq hf e (firstFrom_self ho) hi]
        congr 1
        refine List.map_congr_left fun t ht => ?_
        obtain ⟨x, hx⟩ := hk t ht
        rw [hx]; rfl
      · obtain ⟨x, hx⟩ := hk t ht
        simp only [hx, Option.getD_some]
        exact (firstFrom_iff ho t x).1 hx

/-- **C157**, partial: two series which begin in the same interval of the grid with period `f` and end in the same one are
accepted with `freq` and `how` and compared at the times of this grid, with a value of each at every time, and the
indicators are the measures of C56 and C124 over these rows (with the restriction of C133 on zeros).  Missing: series with
different begin (`C157_fails_disjoint`), `forward_fill` from a begin between two times of the grid (`C157_fails_gap`) and
series with the period of the grid, but other times (`C157_fails_shifted`). -/
theorem C157_compare_partial {f : ℕ} (hf : 0 < f) {a b : ℕ} {how : How} {pred rlz : Ser ℝ}
    (hp : Comparable f a b how pred) (hr : Comparable f a b how rlz) :
    ∃ l : List (ℕ × ℝ × ℝ),
      fit true (some f) (some how) pred rlz = some (l.map fun e => (e.1, some e.2.1), l.map fun e => (e.1, some e.2.2)) ∧
      OnGrid f a b (l.map Prod.fst) ∧
      (∀ e ∈ l, Fits f how pred.data e.1 e.2.1 ∧ Fits f how rlz.data e.1 e.2.2) ∧
      ∀ (excludeZeros : Bool) (w : List (ℤ × ℝ × ℝ)),
        w = Perf.wanted excludeZeros (l.map fun e => ((e.1 : ℤ), e.2)) → w ≠ [] →
        (excludeZeros = true → ∀ e ∈ l, (e.2.1 = 0 ↔ e.2.2 = 0)) →
        ∃ i, perf excludeZeros true (some f) (some how) pred rlz = some i ∧
          Perf.Right (fun k => (w.get k).2.2) (fun k => (w.get k).2.1) i := by
  obtain ⟨v, hv, hv'⟩ := adapt_spec hf hp
  obtain ⟨w, hw, hw'⟩ := adapt_spec hf hr
  have hg := grid_onGrid hf a b
  set ts := (List.range (b / f + 1 - a / f)).map fun i => (a / f + i) * f with hts
  have hfit : fit true (some f) (some how) pred rlz =
      some (ts.map fun t => (t, some (v t)), ts.map fun t => (t, some (w t))) := by
    unfold fit
    simp only [Option.some_or, if_true]
    split_ifs with hc
    · rw [hv, hw]
      simp
    · push Not at hc
      unfold adapt at hv hw
      rw [if_neg (by rw [hc.2.2.1]; simp), Option.some.injEq] at hv
      rw [if_neg (by rw [hc.2.2.2]; simp), Option.some.injEq] at hw
      rw [hv, hw]
      simp
  refine ⟨ts.map fun t => (t, v t, w t), ?_, ?_, ?_, ?_⟩
  · rw [hfit]
    simp [List.map_map, Function.comp_def]
  · simpa [List.map_map, Function.comp_def] using hg
  · intro e he
    obtain ⟨t, ht, rfl⟩ := List.mem_map.1 he
    exact ⟨hv' t ht, hw' t ht⟩
  · rintro ez _ rfl hne hz
    obtain ⟨i, h1, h2⟩ := Perf.C133_measures_partial ez _ (by
      intro hez e he
      obtain ⟨x, hx, rfl⟩ := List.mem_map.1 he
      exact hz hez x hx) hne
    refine ⟨i, ?_, h2⟩
    unfold Perf.perf at h1
    rw [if_pos (by simp [Perf.seriesOf]), Perf.concat_same] at h1
    unfold perf
    rw [hfit, Option.map_some, ← h1]
    have hc : concat (ts.map fun t => (t, some (v t))) (ts.map fun t => (t, some (w t))) =
        ts.map fun t => (some (v t), some (w t)) := by
      unfold concat
      rw [if_pos (by simp [List.map_map, Function.comp_def])]
      generalize ts = xs
      induction xs with
      | nil => rfl
      | cons x xs ih => simp [ih]
    simp only [hc, List.map_map, Function.comp_def]

/-- The hypotheses are met by an uneven and an even series. -/
example : Comparable 10 0 25 .backwardFill ⟨none, [(3, 7), (14, 8), (18, 9), (22, 5)]⟩ ∧
    Comparable 10 0 25 .backwardFill ⟨some 10, [(0, 6), (10, 8), (20, 9)]⟩ := by
  refine ⟨⟨by simp [Ordered], 3, 22, ⟨rfl, rfl⟩, by decide, by decide, by simp, ?_, by simp⟩,
    ⟨by simp [Ordered], 0, 20, ⟨rfl, rfl⟩, by decide, by decide, by simp, by simp, by simp⟩⟩
  simp [EvenBy]

omit [Field K] in
theorem look_none {s : List (ℕ × Option K)} {t : ℕ} (h : t ∉ s.map Prod.fst) : look s t = none := by
  unfold look
  rw [List.find?_eq_none.2 ?_]
  · rfl
  · intro x hx
    simp only [decide_eq_true_eq]
    rintro rfl
    exact h (List.mem_map_of_mem hx)

/-- **C157** is wrong for two series which are accepted, but have no time in common after they were fitted (one of them is
even with the period asked for, but has other times than the grid; or they begin on different days): whatever the values
are, the indicators are those of a perfect prediction. -/
theorem C157_fails_disjoint {excludeZeros resampleUneven : Bool} {freq : Option ℕ} {how : Option How} {pred rlz : Ser ℝ}
    {p q : List (ℕ × Option ℝ)} (h : fit resampleUneven freq how pred rlz = some (p, q))
    (hd : ∀ t ∈ p.map Prod.fst, t ∉ q.map Prod.fst) :
    ∃ i, perf excludeZeros resampleUneven freq how pred rlz = some i ∧
      (i.n ≠ 0 → i.mbe = some 0 ∧ i.mae = some 0 ∧ i.rmse = some 0 ∧ ∀ R, i.r2 = some R → R = 1) := by
  obtain ⟨rows, hrows⟩ : ∃ rows, rows = if excludeZeros then (concat p q).filter Perf.keep else concat p q := ⟨_, rfl⟩
  refine ⟨Perf.indicators rows, by unfold perf; rw [h, hrows]; rfl, ?_⟩
  have hsub : ∀ x ∈ rows, x ∈ concat p q := by
    intro x hx
    rw [hrows] at hx
    split_ifs at hx
    · exact (List.mem_filter.1 hx).1
    · exact hx
  have hres : rows.filterMap Perf.residual = [] := by
    refine List.filterMap_eq_nil_iff.2 fun x hx => ?_
    have hx := hsub x hx
    unfold concat at hx
    split_ifs at hx with he
    · have hp : p = [] := by
        rcases p with _ | ⟨y, p⟩
        · rfl
        · exact absurd (he ▸ List.mem_map_of_mem (List.mem_cons_self)) (hd y.1 (by simp))
      subst hp
      simp at hx
    · obtain ⟨t, ht, rfl⟩ := List.mem_map.1 hx
      by_cases hp : t ∈ p.map Prod.fst
      · unfold Perf.residual
        simp only [look_none (hd t hp), Option.map_none, Option.bind_fun_none]
      · unfold Perf.residual
        simp only [look_none hp, Option.bind_none]
  intro hn
  have hn' : (rows.length : ℝ) ≠ 0 := by exact_mod_cast hn
  refine ⟨?_, ?_, ?_, ?_⟩
  · simp [Perf.indicators, hres, Perf.quot, hn']
  · simp [Perf.indicators, hres, Perf.quot, hn']
  · simp [Perf.indicators, hres, Perf.quot, hn']
  · intro R hR
    simp only [Perf.indicators, hres, List.map_nil, List.sum_nil, Perf.quot, zero_div] at hR
    obtain ⟨t, -, h2⟩ := Option.bind_eq_some_iff.1 hR
    obtain ⟨u, h3, rfl⟩ := Option.map_eq_some_iff.1 h2
    split_ifs at h3
    simp only [Option.some.injEq] at h3
    rw [← h3, sub_zero]

/-- The hypotheses are met: readings at 5, 15 and 25 with this frequency, compared at the same frequency with uneven ones,
which are brought to 0, 10 and 20. -/
example : fit true (some 10) (some .backwardFill) ⟨some 10, [(5, (7 : ℚ)), (15, 8), (25, 9)]⟩
    ⟨none, [(0, 70), (14, -80), (18, 90), (22, 50)]⟩ =
    some ([(5, some 7), (15, some 8), (25, some 9)], [(0, some 70), (10, some (-80)), (20, some 50)]) := by
  decide +kernel

/-- **C157** is wrong for `forward_fill` from a begin between two times of the grid: the time before the first reading
has no value but counts.  The prediction is 2 too high at all times and the mean bias is reported as 4/3. -/
theorem C157_fails_gap : ∃ i, perf false true (some 10) (some .forwardFill) ⟨none, [(3, 5), (8, 5), (22, 5)]⟩
    ⟨none, [(0, 3), (8, 3), (22, 3)]⟩ = some i ∧ i.n = 3 ∧ i.mbe = some (4 / 3) := by
  have e : fit true (some 10) (some .forwardFill) (⟨none, [(3, 5), (8, 5), (22, 5)]⟩ : Ser ℝ)
      ⟨none, [(0, 3), (8, 3), (22, 3)]⟩ =
      some ([(0, none), (10, some 5), (20, some 5)], [(0, some 3), (10, some 3), (20, some 3)]) := by
    have l1 : labels 10 [(3, (5 : ℝ)), (8, 5), (22, 5)] = [0, 10, 20] := by simp [labels, first, last, List.range_succ]
    have l2 : labels 10 [(0, (3 : ℝ)), (8, 3), (22, 3)] = [0, 10, 20] := by simp [labels, first, last, List.range_succ]
    simp [fit, adapt, process, upsample, l1, l2, Inferred, lastAt]
  refine ⟨_, by unfold perf; rw [e]; rfl, ?_, ?_⟩
  · simp [concat, Perf.indicators]
  · simp [concat, Perf.indicators, Perf.residual, Perf.quot]
    norm_num

end Verif.Fit
