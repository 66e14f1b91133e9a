import Verif.Props.Extremes

/-!
# Two plants that correspond to each other

If the differentials, non-numeric parts and port updates of two plants keep a correspondence between their
temperatures, memories and port arrays, the simulations of both correspond.
-/

set_option linter.unusedSectionVars false

namespace Verif.Attempt

variable {K X H N P X' H' N' P' : Type*} [Field K] [AddCommGroup X] [Module K X] [AddCommGroup X'] [Module K X']

/-- All differentials of a plant at once. -/
def evals (p : P) (h : K) : List (Diff K X H P) → List H → List X → List (Eval X H)
  | d :: ds, m :: ms, x :: xs => d m p x h :: evals p h ds ms xs
  | _, _, _ => []

/-- `x + a * d` for all parts. -/
def along (a : K) (xs ds : List X) : List X := List.zipWith (fun x d => x + a • d) xs ds

theorem predict_lists (p : P) (h : K) : ∀ (ds : List (Diff K X H P)) (ss : List (PState X H)),
    ss.length = ds.length → (predict p h ds ss).2 = true →
    (predict p h ds ss).1.length = ds.length ∧
    (predict p h ds ss).1.map PState.prev = ss.map PState.prev ∧
    (predict p h ds ss).1.map PState.T =
      along h (ss.map PState.prev) ((evals p h ds (ss.map PState.mem) (ss.map PState.prev)).map Eval.dT) ∧
    (predict p h ds ss).1.map PState.df0 = (evals p h ds (ss.map PState.mem) (ss.map PState.prev)).map Eval.dT ∧
    (predict p h ds ss).1.map PState.mem = (evals p h ds (ss.map PState.mem) (ss.map PState.prev)).map Eval.mem := by
  intro ds
  induction ds with
  | nil =>
    intro ss hl _
    have : ss = [] := List.length_eq_zero_iff.mp hl
    subst this
    exact ⟨rfl, rfl, rfl, rfl, rfl⟩
  | cons d ds ih =>
    intro ss hl hst
    cases ss with
    | nil => simp at hl
    | cons s ss =>
      rw [predict] at hst ⊢
      split_ifs at hst with hd
      rw [if_pos hd]
      obtain ⟨i1, i2, i3, i4, i5⟩ := ih ss (by simpa using hl) hst
      simp only [List.map_cons, List.length_cons, i1, i2, i3, i4, i5, evals, along, List.zipWith_cons_cons]
      exact ⟨trivial, rfl, rfl, rfl, rfl⟩

theorem correct_lists (p : P) (h : K) : ∀ (ds : List (Diff K X H P)) (ss : List (PState X H)),
    ss.length = ds.length →
    (correct p h ds ss).length = ds.length ∧
    (correct p h ds ss).map PState.res = along (h / 2) (along (h / 2) (ss.map PState.prev) (ss.map PState.df0))
      ((evals p h ds (ss.map PState.mem) (ss.map PState.T)).map Eval.dT) ∧
    (correct p h ds ss).map PState.mem = (evals p h ds (ss.map PState.mem) (ss.map PState.T)).map Eval.mem := by
  intro ds
  induction ds with
  | nil =>
    intro ss hl
    have : ss = [] := List.length_eq_zero_iff.mp hl
    subst this
    exact ⟨rfl, rfl, rfl⟩
  | cons d ds ih =>
    intro ss hl
    cases ss with
    | nil => simp at hl
    | cons s ss =>
      obtain ⟨i1, i2, i3⟩ := ih ss (by simpa using hl)
      rw [correct]
      simp only [List.map_cons, List.length_cons, i1, i2, i3, evals, along, List.zipWith_cons_cons]
      refine ⟨trivial, ?_, rfl⟩
      congr 1
      show s.prev + (h / 2) • (s.df0 + _) = _
      rw [smul_add, add_assoc]

/-- Specification: with step length `h` the two plants keep a correspondence. -/
structure Twins (sys : System K X H N P) (sys' : System K X' H' N' P') (Rx : List X → List X' → Prop)
    (Rm : List H → List H' → Prop) (Rn : List N → List N' → Prop) (Rp : List X' → P → P' → Prop) (h : K) : Prop where
  evaluation : ∀ ms ms' p p' xs xs', Rm ms ms' → Rp xs' p p' → Rx xs xs' → ms.length = sys.diffs.length →
    xs.length = sys.diffs.length → ms'.length = sys'.diffs.length → xs'.length = sys'.diffs.length →
    Rx ((evals p h sys.diffs ms xs).map Eval.dT) ((evals p' h sys'.diffs ms' xs').map Eval.dT) ∧
      Rm ((evals p h sys.diffs ms xs).map Eval.mem) ((evals p' h sys'.diffs ms' xs').map Eval.mem)
  combine : ∀ (a : K) xs xs' ds ds', Rx xs xs' → Rx ds ds' → Rx (along a xs ds) (along a xs' ds')
  solves : ∀ ns ns' ys p p', Rn ns ns' → Rp ys p p' → Rn (solveAll p h sys.solves ns) (solveAll p' h sys'.solves ns')
  interm : ∀ xs xs' ns ns' ys p p', Rx xs xs' → Rn ns ns' → Rp ys p p' →
    Rp xs' (sys.interm xs ns p) (sys'.interm xs' ns' p')
  result : ∀ xs xs' ns ns' ys p p', Rx xs xs' → Rn ns ns' → Rp ys p p' →
    Rp xs' (sys.result xs ns p) (sys'.result xs' ns' p')

/-- Specification: the states of two plants correspond at the beginning of a step. -/
structure Corresponds (sys : System K X H N P) (sys' : System K X' H' N' P') (Rx : List X → List X' → Prop)
    (Rm : List H → List H' → Prop) (Rn : List N → List N' → Prop) (Rp : List X' → P → P' → Prop) (s : State X H N P)
    (s' : State X' H' N' P') : Prop where
  count : s.parts.length = sys.diffs.length
  count' : s'.parts.length = sys'.diffs.length
  temps : Rx (s.parts.map PState.prev) (s'.parts.map PState.prev)
  mems : Rm (s.parts.map PState.mem) (s'.parts.map PState.mem)
  nonnum : Rn s.nonnum s'.nonnum
  ports : Rp (s'.parts.map PState.prev) s.ports s'.ports

variable {sys : System K X H N P} {sys' : System K X' H' N' P'} {Rx : List X → List X' → Prop}
  {Rm : List H → List H' → Prop} {Rn : List N → List N' → Prop} {Rp : List X' → P → P' → Prop} {h : K}

theorem call_twins (hk : Twins sys sys' Rx Rm Rn Rp h) {s : State X H N P} {s' : State X' H' N' P'}
    (hs : Corresponds sys sys' Rx Rm Rn Rp s s') (s1 : (call sys s [] h).stable = true)
    (s2 : (call sys' s' [] h).stable = true) :
    Corresponds sys sys' Rx Rm Rn Rp (advance (call sys s [] h)) (advance (call sys' s' [] h)) := by
  simp only [call, List.foldl_nil] at s1 s2 ⊢
  unfold attempt at s1 s2 ⊢
  split_ifs at s1 with p1
  split_ifs at s2 with p2
  rw [if_pos p1, if_pos p2]
  obtain ⟨a1, a2, a3, a4, a5⟩ := predict_lists s.ports h sys.diffs s.parts hs.count p1
  obtain ⟨b1, b2, b3, b4, b5⟩ := predict_lists s'.ports h sys'.diffs s'.parts hs.count' p2
  obtain ⟨e1, e2⟩ := hk.evaluation _ _ _ _ _ _ hs.mems hs.ports hs.temps (by simp [hs.count]) (by simp [hs.count])
    (by simp [hs.count']) (by simp [hs.count'])
  have n1 := hk.solves _ _ _ _ _ hs.nonnum hs.ports
  have t1 : Rx ((predict s.ports h sys.diffs s.parts).1.map PState.T)
      ((predict s'.ports h sys'.diffs s'.parts).1.map PState.T) := by
    rw [a3, b3]; exact hk.combine _ _ _ _ _ hs.temps e1
  have q1 := hk.interm _ _ _ _ _ _ _ t1 n1 hs.ports
  have n2 := hk.solves _ _ _ _ _ n1 q1
  obtain ⟨c1, c2, c3⟩ := correct_lists (sys.interm ((predict s.ports h sys.diffs s.parts).1.map PState.T)
    (solveAll s.ports h sys.solves s.nonnum) s.ports) h sys.diffs _ a1
  obtain ⟨d1, d2, d3⟩ := correct_lists (sys'.interm ((predict s'.ports h sys'.diffs s'.parts).1.map PState.T)
    (solveAll s'.ports h sys'.solves s'.nonnum) s'.ports) h sys'.diffs _ b1
  obtain ⟨f1, f2⟩ := hk.evaluation _ _ _ _ _ _ (by rw [a5, b5]; exact e2 : Rm
    ((predict s.ports h sys.diffs s.parts).1.map PState.mem) ((predict s'.ports h sys'.diffs s'.parts).1.map PState.mem))
    q1 t1 (by simp [a1]) (by simp [a1]) (by simp [b1]) (by simp [b1])
  have r1 : Rx ((correct (sys.interm ((predict s.ports h sys.diffs s.parts).1.map PState.T)
      (solveAll s.ports h sys.solves s.nonnum) s.ports) h sys.diffs (predict s.ports h sys.diffs s.parts).1).map
        PState.res)
      ((correct (sys'.interm ((predict s'.ports h sys'.diffs s'.parts).1.map PState.T)
        (solveAll s'.ports h sys'.solves s'.nonnum) s'.ports) h sys'.diffs
          (predict s'.ports h sys'.diffs s'.parts).1).map PState.res) := by
    rw [c2, d2, a2, b2, a4, b4]
    exact hk.combine _ _ _ _ _ (hk.combine _ _ _ _ _ hs.temps e1) f1
  refine ⟨by simpa [advance, finish] using c1, by simpa [advance, finish] using d1, ?_, ?_, n2, ?_⟩
  · simp only [advance, finish, List.map_map]
    exact r1
  · simp only [advance, finish, List.map_map]
    have := f2
    rw [← c3, ← d3] at this
    exact this
  · simp only [advance, finish, List.map_map]
    exact hk.result _ _ _ _ _ _ _ r1 n2 q1

theorem simulate_twins (l : List K) {s : State X H N P} {s' : State X' H' N' P'}
    (hs : Corresponds sys sys' Rx Rm Rn Rp s s') (hh : ∀ h ∈ l, Twins sys sys' Rx Rm Rn Rp h)
    (hst : ∀ l₁ h l₂, l = l₁ ++ h :: l₂ →
      (call sys (simulate sys s (l₁.map fun h => ([], h))) [] h).stable = true ∧
        (call sys' (simulate sys' s' (l₁.map fun h => ([], h))) [] h).stable = true) :
    Corresponds sys sys' Rx Rm Rn Rp (simulate sys s (l.map fun h => ([], h)))
      (simulate sys' s' (l.map fun h => ([], h))) := by
  induction l generalizing s s' with
  | nil => exact hs
  | cons a l ih =>
    obtain ⟨t1, t2⟩ := hst [] a l rfl
    have hc := call_twins (hh a List.mem_cons_self) hs t1 t2
    exact ih hc (fun c' hc' => hh c' (List.mem_cons_of_mem _ hc'))
      (fun l₁ c' l₂ e => hst (a :: l₁) c' l₂ (by rw [e]; rfl))

/-! ## Some parts of a plant are replaced -/

section Replace

variable {K X H N P P' : Type*} [Field K] [AddCommGroup X] [Module K X]

/-- The lists agree except for a segment after the first `i` elements, which is related by `Q`. -/
def Around {α : Type*} (i j j' : ℕ) (Q : List α → List α → Prop) (l l' : List α) : Prop :=
  ∃ a b b' r, l = a ++ (b ++ r) ∧ l' = a ++ (b' ++ r) ∧ a.length = i ∧ b.length = j ∧ b'.length = j' ∧ Q b b'

/-- The two differentials are the same with related port arrays. -/
def Same (Rp : P → P' → Prop) (h : K) (d : Diff K X H P) (d' : Diff K X H P') : Prop :=
  ∀ m x p p', Rp p p' → d m p x h = d' m p' x h

theorem evals_length (p : P) (h : K) : ∀ {ds : List (Diff K X H P)} {ms : List H} {xs : List X},
    ms.length = ds.length → xs.length = ds.length → (evals p h ds ms xs).length = ds.length := by
  intro ds
  induction ds with
  | nil => intro ms xs _ _; rfl
  | cons d ds ih =>
    intro ms xs h1 h2
    cases ms with
    | nil => simp at h1
    | cons m ms =>
      cases xs with
      | nil => simp at h2
      | cons x xs =>
        rw [evals, List.length_cons, ih (by simpa using h1) (by simpa using h2), List.length_cons]

theorem evals_append (p : P) (h : K) : ∀ {da : List (Diff K X H P)} {ma : List H} {xa : List X}
    (dr : List (Diff K X H P)) (mr : List H) (xr : List X), ma.length = da.length → xa.length = da.length →
    evals p h (da ++ dr) (ma ++ mr) (xa ++ xr) = evals p h da ma xa ++ evals p h dr mr xr := by
  intro da
  induction da with
  | nil =>
    intro ma xa dr mr xr h1 h2
    rw [List.length_eq_zero_iff.1 h1, List.length_eq_zero_iff.1 h2]
    rfl
  | cons d da ih =>
    intro ma xa dr mr xr h1 h2
    cases ma with
    | nil => simp at h1
    | cons m ma =>
      cases xa with
      | nil => simp at h2
      | cons x xa =>
        simp only [List.cons_append, evals]
        rw [ih dr mr xr (by simpa using h1) (by simpa using h2)]

theorem evals_same {Rp : P → P' → Prop} {h : K} {p : P} {p' : P'} (hp : Rp p p') :
    ∀ {ds : List (Diff K X H P)} {ds' : List (Diff K X H P')} (ms : List H) (xs : List X),
    List.Forall₂ (Same Rp h) ds ds' → evals p h ds ms xs = evals p' h ds' ms xs := by
  intro ds ds' ms xs hd
  induction hd generalizing ms xs with
  | nil => rfl
  | cons h1 _ ih =>
    cases ms with
    | nil => rfl
    | cons m ms =>
      cases xs with
      | nil => rfl
      | cons x xs => rw [evals, evals, ih, h1 m x p p' hp]

theorem along_length (a : K) {xs ds : List X} (h : ds.length = xs.length) : (along a xs ds).length = xs.length := by
  simp [along, h]

/-- The port arrays are related for some temperatures. -/
def Sometimes (Rp : List X → P → P' → Prop) (p : P) (p' : P') : Prop := ∃ ys, Rp ys p p'

/-- If a segment of the parts of a plant is replaced by another that corresponds to it, the plants correspond. -/
theorem replace_twins {sys : System K X H N P} {sys' : System K X H N P'} {Qx : List X → List X → Prop}
    {Qm : List H → List H → Prop} {Rp : List X → P → P' → Prop} {h : K} {da db dr : List (Diff K X H P)}
    {da' db' dr' : List (Diff K X H P')} (hd : sys.diffs = da ++ (db ++ dr)) (hd' : sys'.diffs = da' ++ (db' ++ dr'))
    (ha : List.Forall₂ (Same (Sometimes Rp) h) da da') (hr : List.Forall₂ (Same (Sometimes Rp) h) dr dr')
    (hev : ∀ ms ms' p p' xs xs' ya yr, Qm ms ms' → Rp (ya ++ (xs' ++ yr)) p p' → ya.length = da.length → Qx xs xs' → ms.length = db.length → xs.length = db.length →
      ms'.length = db'.length → xs'.length = db'.length →
      Qx ((evals p h db ms xs).map Eval.dT) ((evals p' h db' ms' xs').map Eval.dT) ∧
        Qm ((evals p h db ms xs).map Eval.mem) ((evals p' h db' ms' xs').map Eval.mem))
    (hco : ∀ (a : K) xs xs' ds ds', Qx xs xs' → Qx ds ds' → Qx (along a xs ds) (along a xs' ds'))
    (hso : List.Forall₂ (fun f f' => ∀ n p p', Sometimes Rp p p' → f n p h = f' n p' h) sys.solves sys'.solves)
    (hin : ∀ xs xs' ns ys p p', Around da.length db.length db'.length Qx xs xs' → Rp ys p p' →
      Rp xs' (sys.interm xs ns p) (sys'.interm xs' ns p'))
    (hre : ∀ xs xs' ns ys p p', Around da.length db.length db'.length Qx xs xs' → Rp ys p p' →
      Rp xs' (sys.result xs ns p) (sys'.result xs' ns p')) :
    Twins sys sys' (Around da.length db.length db'.length Qx) (Around da.length db.length db'.length Qm) Eq Rp h := by
  refine ⟨?_, ?_, ?_, ?_, ?_⟩
  · rintro _ _ p p' _ _ ⟨ma, mb, mb', mr, rfl, rfl, m1, m2, m3, m4⟩ hp ⟨xa, xb, xb', xr, rfl, rfl, x1, x2, x3, x4⟩ l1 l2 l3
      l4
    have e1 := ha.length_eq
    rw [hd, hd', evals_append _ _ _ _ _ m1 x1, evals_append _ _ _ _ _ m2 x2,
      evals_append _ _ _ _ _ (m1.trans e1) (x1.trans e1), evals_append _ _ _ _ _ m3 x3, evals_same (Rp := Sometimes Rp) ⟨_, hp⟩ ma xa ha,
      evals_same (Rp := Sometimes Rp) ⟨_, hp⟩ mr xr hr]
    obtain ⟨q1, q2⟩ := hev mb mb' p p' xb xb' xa xr m4 hp x1 x4 m2 x2 m3 x3
    have f1 := evals_length p' h (ds := da') (ms := ma) (xs := xa) (m1.trans e1) (x1.trans e1)
    have f2 := evals_length p h (ds := db) (ms := mb) (xs := xb) m2 x2
    have f3 := evals_length p' h (ds := db') (ms := mb') (xs := xb') m3 x3
    simp only [List.map_append]
    exact ⟨⟨_, _, _, _, rfl, rfl, by simp [f1, e1], by simp [f2], by simp [f3], q1⟩,
      ⟨_, _, _, _, rfl, rfl, by simp [f1, e1], by simp [f2], by simp [f3], q2⟩⟩
  · rintro a _ _ _ _ ⟨xa, xb, xb', xr, rfl, rfl, x1, x2, x3, x4⟩ ⟨ya, yb, yb', yr, rfl, rfl, y1, y2, y3, y4⟩
    have z : ∀ u v w t : List X, u.length = v.length → along a (u ++ w) (v ++ t) = along a u v ++ along a w t := by
      intro u v w t huv
      exact List.zipWith_append huv
    rw [z _ _ _ _ (x1.trans y1.symm), z _ _ _ _ (x2.trans y2.symm), z _ _ _ _ (x1.trans y1.symm),
      z _ _ _ _ (x3.trans y3.symm)]
    exact ⟨_, _, _, _, rfl, rfl, (along_length a (y1.trans x1.symm)).trans x1, (along_length a (y2.trans x2.symm)).trans x2,
      (along_length a (y3.trans x3.symm)).trans x3, hco a _ _ _ _ x4 y4⟩
  · rintro ns _ ys p p' rfl hp
    clear hin hre hd hd'
    generalize sys.solves = fs at hso
    generalize sys'.solves = fs' at hso
    induction hso generalizing ns with
    | nil => rfl
    | cons h1 _ ih =>
      cases ns with
      | nil => rfl
      | cons n ns => rw [solveAll, solveAll, ih, h1 n p p' ⟨ys, hp⟩]
  · rintro xs xs' ns _ ys p p' hx rfl hp
    exact hin xs xs' ns ys p p' hx hp
  · rintro xs xs' ns _ ys p p' hx rfl hp
    exact hre xs xs' ns ys p p' hx hp

end Replace

end Verif.Attempt
