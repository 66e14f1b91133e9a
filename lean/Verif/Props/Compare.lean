import Verif.Props.Extremes

/-!
# C112: two simulations of a plant do not drift apart
-/

set_option linter.unusedSectionVars false

namespace Verif.Cells

open Verif.Flows

variable {K : Type*} [Field K] [LinearOrder K] [IsStrictOrderedRing K]

/-- Material whose properties do not depend on temperature. -/
def constMat (c r l : K) : Mat K := ⟨fun _ => c, fun _ => r, fun _ => l⟩

/-- Everything except temperatures is the same. -/
structure SameInp (s s' : Inp K) : Prop where
  uaAmb : s'.uaAmb = s.uaAmb
  lidTop : s'.lidTop = s.lidTop
  lidBot : s'.lidBot = s.lidBot
  buoy : s'.buoy = s.buoy

/-- Everything except the temperature is the same. -/
structure SamePort (p p' : Port K) : Prop where
  idx : p'.idx = p.idx
  area : p'.area = p.area
  gsp : p'.gsp = p.gsp
  uaWll : p'.uaWll = p.uaWll
  io : p'.io = p.io

def diffInp (s s' : Inp K) : Inp K :=
  { s with T := fun k => s'.T k - s.T k, edgeTop := s'.edgeTop - s.edgeTop, edgeBot := s'.edgeBot - s.edgeBot,
           Tamb := s'.Tamb - s.Tamb }

def diffPort (q : Port K × Port K) : Port K := { q.1 with T := q.2.T - q.1.T }

variable {c r l : K} {g : Geo K} {s s' : Inp K}

theorem tExt_diff (j : ℕ) : tExt g (diffInp s s') j = tExt g s' j - tExt g s j := by
  unfold tExt diffInp
  split_ifs <;> rfl

theorem uaTb_const (h : SameInp s s') (j : ℕ) : uaTb (constMat c r l) g s' j = uaTb (constMat c r l) g s j := by
  simp only [uaTb, constMat, h.buoy]

theorem uaTb_diff (j : ℕ) : uaTb (constMat c r l) g (diffInp s s') j = uaTb (constMat c r l) g s j := rfl

theorem mcp_const (s s' : Inp K) (k : ℕ) : mcp (constMat c r l) g s' k = mcp (constMat c r l) g s k := rfl

theorem sum_at_sub {ι : Type*} (ps : List ι) (F G D : ι → ℕ × K) (k : ℕ)
    (h : ∀ i ∈ ps, (D i).1 = (F i).1 ∧ (G i).1 = (F i).1 ∧ (D i).2 = (G i).2 - (F i).2) :
    (((ps.map D).filter (·.1 = k)).map Prod.snd).sum =
      (((ps.map G).filter (·.1 = k)).map Prod.snd).sum - (((ps.map F).filter (·.1 = k)).map Prod.snd).sum := by
  induction ps with
  | nil => simp
  | cons p ps ih =>
    have ih := ih fun i hi => h i (List.mem_cons_of_mem _ hi)
    obtain ⟨h1, h2, h3⟩ := h p List.mem_cons_self
    by_cases hp : (F p).1 = k
    · simp only [List.map_cons, List.filter_cons, h1, h2, hp, decide_true, if_true, List.sum_cons, ih, h3]
      ring
    · simp only [List.map_cons, List.filter_cons, h1, h2, hp, decide_false, Bool.false_eq_true, if_false]
      exact ih

theorem dTcond_diff (h : SameInp s s') (ps : List (Port K × Port K)) (hps : ∀ q ∈ ps, SamePort q.1 q.2) (k : ℕ) :
    dTcond (constMat c r l) g (diffInp s s') (ps.map diffPort) k =
      dTcond (constMat c r l) g s' (ps.map Prod.snd) k - dTcond (constMat c r l) g s (ps.map Prod.fst) k := by
  unfold dTcond
  rw [addAt_eq, addAt_eq, addAt_eq]
  simp only [List.map_map]
  rw [sum_at_sub ps
    ((fun p => (p.idx, uaPort (constMat c r l) g s p * (p.T - s.T p.idx) / mcp (constMat c r l) g s p.idx)) ∘ Prod.fst)
    ((fun p => (p.idx, uaPort (constMat c r l) g s' p * (p.T - s'.T p.idx) / mcp (constMat c r l) g s' p.idx)) ∘
      Prod.snd)]
  · simp only [tExt_diff, uaTb_diff, uaTb_const h, h.uaAmb, h.lidTop, h.lidBot]
    have e1 : (diffInp s s').uaAmb = s.uaAmb := rfl
    have e2 : (diffInp s s').lidTop = s.lidTop := rfl
    have e3 : (diffInp s s').lidBot = s.lidBot := rfl
    have e4 : (diffInp s s').Tamb = s'.Tamb - s.Tamb := rfl
    rw [e1, e2, e3, e4, mcp_const s (diffInp s s') k, mcp_const s s' k, mcp_const s (diffInp s s') 0, mcp_const s s' 0,
      mcp_const s (diffInp s s') (g.n - 1), mcp_const s s' (g.n - 1)]
    split_ifs <;> ring
  · intro q hq
    obtain ⟨h1, h2, h3, h4, h5⟩ := hps q hq
    have e : uaPort (constMat c r l) g s' q.2 = uaPort (constMat c r l) g s q.1 := by
      simp only [uaPort, constMat, h2, h3, h4]
    have e' : uaPort (constMat c r l) g (diffInp s s') (diffPort q) = uaPort (constMat c r l) g s q.1 := rfl
    refine ⟨rfl, h1, ?_⟩
    simp only [Function.comp, e, e']
    rw [h1, mcp_const s s', show mcp (constMat c r l) g (diffInp s s') (diffPort q).idx =
      mcp (constMat c r l) g s q.1.idx from rfl]
    simp only [diffPort, diffInp]
    ring

theorem dTadv_diff (top bot : ℕ → K) (ps : List (Port K × Port K)) (hps : ∀ q ∈ ps, SamePort q.1 q.2) (fl : List K)
    (k : ℕ) :
    dTadv (constMat c r l) g (diffInp s s') top bot (ps.map diffPort) fl k =
      dTadv (constMat c r l) g s' top bot (ps.map Prod.snd) fl k -
        dTadv (constMat c r l) g s top bot (ps.map Prod.fst) fl k := by
  have he : ∀ j, enth (constMat c r l) g (diffInp s s') j =
      enth (constMat c r l) g s' j - enth (constMat c r l) g s j := by
    intro j
    simp only [enth, tExt_diff, constMat]
    ring
  unfold dTadv
  rw [addAt_eq, addAt_eq, addAt_eq]
  have z : ∀ f : Port K × Port K → Port K, (ps.map f).zip fl = (ps.zip fl).map fun q => (f q.1, q.2) := by
    intro f
    rw [List.zip_map_left]
    rfl
  rw [z, z, z]
  simp only [List.map_map]
  rw [sum_at_sub (ps.zip fl)
    ((fun q : Port K × K => (q.1.idx, q.2 * ((constMat c r l).cp q.1.T * q.1.T - enth (constMat c r l) g s (q.1.idx + 1)) /
      mcp (constMat c r l) g s q.1.idx)) ∘ fun q => (q.1.1, q.2))
    ((fun q : Port K × K => (q.1.idx, q.2 * ((constMat c r l).cp q.1.T * q.1.T - enth (constMat c r l) g s' (q.1.idx + 1)) /
      mcp (constMat c r l) g s' q.1.idx)) ∘ fun q => (q.1.2, q.2))]
  · simp only [he]
    rw [mcp_const s (diffInp s s') k, mcp_const s s' k]
    ring
  · intro q hq
    obtain ⟨h1, h2, h3, h4, h5⟩ := hps q.1 (List.of_mem_zip hq).1
    refine ⟨rfl, h1, ?_⟩
    simp only [Function.comp, he, h1]
    rw [mcp_const s s', show mcp (constMat c r l) g (diffInp s s') (diffPort q.1).idx =
      mcp (constMat c r l) g s q.1.1.idx from rfl]
    simp only [diffPort, constMat]
    ring

theorem map_same {β : Type*} (ps : List (Port K × Port K)) (f : Port K → β) (hf : ∀ q ∈ ps, f q.2 = f q.1) :
    (ps.map Prod.snd).map f = (ps.map Prod.fst).map f := by
  rw [List.map_map, List.map_map]
  exact List.map_congr_left fun q hq => hf q hq

/-- The differential of a storage is linear in the temperatures. -/
theorem storageDT_diff (h : SameInp s s') (ps : List (Port K × Port K)) (hps : ∀ q ∈ ps, SamePort q.1 q.2) (k : ℕ) :
    storageDT (constMat c r l) g (diffInp s s') (ps.map diffPort) k =
      storageDT (constMat c r l) g s' (ps.map Prod.snd) k - storageDT (constMat c r l) g s (ps.map Prod.fst) k := by
  have e1 : (ps.map diffPort).map (·.idx) = (ps.map Prod.fst).map (·.idx) := by
    rw [List.map_map, List.map_map]; rfl
  have e2 : (ps.map diffPort).map (·.io) = (ps.map Prod.fst).map (·.io) := by
    rw [List.map_map, List.map_map]; rfl
  have e3 := map_same ps (·.idx) fun q hq => (hps q hq).idx
  have e4 := map_same ps (·.io) fun q hq => (hps q hq).io
  unfold storageDT
  simp only [e1, e2, e3, e4, dTcond_diff h ps hps, dTadv_diff _ _ ps hps]
  ring

/-- The differential of a pipe is linear in the temperatures. -/
theorem pipeDT_diff (h : SameInp s s') {io : K} {pin pout pin' pout' : Port K} (h1 : SamePort pin pin')
    (h2 : SamePort pout pout') (k : ℕ) :
    pipeDT (constMat c r l) g (diffInp s s') io (diffPort (pin, pin')) (diffPort (pout, pout')) k =
      pipeDT (constMat c r l) g s' io pin' pout' k - pipeDT (constMat c r l) g s io pin pout k := by
  have hps : ∀ q ∈ [(pin, pin'), (pout, pout')], SamePort q.1 q.2 := by
    intro q hq
    rcases List.mem_cons.mp hq with rfl | hq
    · exact h1
    · rw [List.mem_singleton.mp hq]; exact h2
  have a := dTcond_diff (c := c) (r := r) (l := l) (g := g) h _ hps k
  have b := dTadv_diff (c := c) (r := r) (l := l) (g := g) (s := s) (s' := s') (processInvar g.n io).top
    (processInvar g.n io).bot _ hps [(processInvar g.n io).portIn, (processInvar g.n io).portOut] k
  simp only [List.map_cons, List.map_nil] at a b
  unfold pipeDT
  simp only [a, b]
  ring

/-- Specification: every temperature the part sees is by at least `a` and at most `b` higher in the second case. -/
structure Apart (g : Geo K) (s s' : Inp K) (ps : List (Port K × Port K)) (a b : K) : Prop where
  cells : ∀ k < g.n, a ≤ s'.T k - s.T k ∧ s'.T k - s.T k ≤ b
  ambient : a ≤ s'.Tamb - s.Tamb ∧ s'.Tamb - s.Tamb ≤ b
  ports : ∀ q ∈ ps, a ≤ q.2.T - q.1.T ∧ q.2.T - q.1.T ≤ b

theorem Apart.within {ps : List (Port K × Port K)} {a b : K} (h : Apart g s s' ps a b) :
    Within g (diffInp s s') (ps.map diffPort) a b := by
  refine ⟨h.cells, h.ambient, ?_⟩
  intro p hp
  obtain ⟨q, hq, rfl⟩ := List.mem_map.mp hp
  exact h.ports q hq

theorem physical_diff {ps : List (Port K × Port K)} (h : Physical (constMat c r l) g s (ps.map Prod.fst)) :
    Physical (constMat c r l) g (diffInp s s') (ps.map diffPort) := by
  refine ⟨h.lam, h.gs, h.aCell, h.uaTbWll, h.buoy, h.uaAmb, h.lidTop, h.lidBot, ?_, h.cap⟩
  intro p hp
  obtain ⟨q, hq, rfl⟩ := List.mem_map.mp hp
  exact h.ports q.1 (List.mem_map_of_mem hq)

theorem slope_const (hc : 0 ≤ c) (a b : K) : EnthalpySlope (constMat c r l) a b c := by
  intro x y _ hxy _
  simp only [enthalpy, constMat]
  have := mul_nonneg hc (sub_nonneg.2 hxy)
  constructor <;> nlinarith

theorem filter_map_diff {β : Type*} (ps : List (Port K × Port K)) (k : ℕ) (f : Port K → β)
    (hf : ∀ q ∈ ps, f (diffPort q) = f q.1) :
    ((ps.map diffPort).filter (·.idx = k)).map f = ((ps.map Prod.fst).filter (·.idx = k)).map f := by
  induction ps with
  | nil => rfl
  | cons q ps ih =>
    have ih := ih fun q hq => hf q (List.mem_cons_of_mem _ hq)
    have e : (diffPort q).idx = q.1.idx := rfl
    by_cases hk : q.1.idx = k
    · simp only [List.map_cons, List.filter_cons, e, hk, decide_true, if_true, ih, hf q List.mem_cons_self]
    · simp only [List.map_cons, List.filter_cons, e, hk, decide_false, Bool.false_eq_true, if_false, ih]

theorem totalConductance_diff (ps : List (Port K × Port K)) (k : ℕ) :
    totalConductance (constMat c r l) g (diffInp s s') (ps.map diffPort) k =
      totalConductance (constMat c r l) g s (ps.map Prod.fst) k := by
  have e := filter_map_diff (β := K) ps k (portConductance (constMat c r l) g s) fun _ _ => rfl
  unfold totalConductance
  rw [← e]
  rfl

/-- **C112**, partial (storages and branched pipes): if everything around and inside the part is in a second
case by at least `a` and at most `b` hotter, so is the part after an explicit Euler step with the same step length,
flows and coefficients, if material properties are constant and the step is at most the heat capacity of each cell
divided by everything connected to it.  With `a = 0`: what starts hotter does not become colder.  With `a = -b`:
differences do not grow. -/
theorem C112_storage_partial (hc : 0 ≤ c) {ps : List (Port K × Port K)} {a b h : K} (hn : 2 ≤ g.n)
    (hsame : SameInp s s') (hps : ∀ q ∈ ps, SamePort q.1 q.2)
    (hph : Physical (constMat c r l) g s (ps.map Prod.fst)) (hab : Apart g s s' ps a b)
    (hsort : ((ps.map Prod.fst).map (·.idx)).Pairwise (· ≤ ·)) (hp : ∀ p ∈ ps.map Prod.fst, p.idx < g.n)
    (hb : ((ps.map Prod.fst).map (·.io)).sum = 0) (hh : 0 ≤ h)
    (hs : ∀ k < g.n,
      let f := processVar g.n ((ps.map Prod.fst).map (·.idx)) ((ps.map Prod.fst).map (·.io))
      h * (totalConductance (constMat c r l) g s (ps.map Prod.fst) k +
          c * (f.top k + f.bot k + inflowThroughPorts (ps.map Prod.fst) k)) ≤ heatCapacity (constMat c r l) g s k) :
    ∀ k < g.n,
      a ≤ (s'.T k + h * storageDT (constMat c r l) g s' (ps.map Prod.snd) k) -
          (s.T k + h * storageDT (constMat c r l) g s (ps.map Prod.fst) k) ∧
        (s'.T k + h * storageDT (constMat c r l) g s' (ps.map Prod.snd) k) -
          (s.T k + h * storageDT (constMat c r l) g s (ps.map Prod.fst) k) ≤ b := by
  intro k hk
  have e1 : (ps.map diffPort).map (·.idx) = (ps.map Prod.fst).map (·.idx) := by
    rw [List.map_map, List.map_map]; rfl
  have e2 : (ps.map diffPort).map (·.io) = (ps.map Prod.fst).map (·.io) := by
    rw [List.map_map, List.map_map]; rfl
  have e3 : ∀ k, inflowThroughPorts (ps.map diffPort) k = inflowThroughPorts (ps.map Prod.fst) k := fun k =>
    congrArg List.sum (filter_map_diff ps k (fun p => max p.io 0) fun _ _ => rfl)
  have := C24_storage_no_new_extreme_partial (s := diffInp s s') (ports := ps.map diffPort) (h := h) hn
    (physical_diff hph) hab.within (slope_const hc a b) hc (by rw [e1]; exact hsort)
    (by
      intro p hp'
      obtain ⟨q, hq, rfl⟩ := List.mem_map.mp hp'
      exact hp q.1 (List.mem_map_of_mem hq)) (by rw [e2]; exact hb) hh
    (by
      intro k hk
      simp only [e1, e2, e3, totalConductance_diff]
      exact hs k hk) k hk
  rw [storageDT_diff hsame ps hps] at this
  have e : (diffInp s s').T k = s'.T k - s.T k := rfl
  rw [e] at this
  constructor <;> nlinarith [this.1, this.2]

/-- **C112**, partial (pipes): the same for a pipe. -/
theorem C112_pipe_partial (hc : 0 ≤ c) {pin pout pin' pout' : Port K} {io a b h : K} (hn : 2 ≤ g.n)
    (hsame : SameInp s s') (hp1 : SamePort pin pin') (hp2 : SamePort pout pout')
    (hph : Physical (constMat c r l) g s [pin, pout]) (hab : Apart g s s' [(pin, pin'), (pout, pout')] a b)
    (h1 : pin.idx = 0) (h2 : pout.idx = g.n - 1) (h3 : pin.io = io) (h4 : pout.io = -io) (hh : 0 ≤ h)
    (hs : ∀ k < g.n, h * (totalConductance (constMat c r l) g s [pin, pout] k + c * |io|) ≤
      heatCapacity (constMat c r l) g s k) :
    ∀ k < g.n,
      a ≤ (s'.T k + h * pipeDT (constMat c r l) g s' io pin' pout' k) -
          (s.T k + h * pipeDT (constMat c r l) g s io pin pout k) ∧
        (s'.T k + h * pipeDT (constMat c r l) g s' io pin' pout' k) -
          (s.T k + h * pipeDT (constMat c r l) g s io pin pout k) ≤ b := by
  intro k hk
  have w := hab.within
  have ph := physical_diff (s' := s') (ps := [(pin, pin'), (pout, pout')]) (by simpa using hph)
  have tc := totalConductance_diff (c := c) (r := r) (l := l) (g := g) (s := s) (s' := s')
    [(pin, pin'), (pout, pout')]
  simp only [List.map_cons, List.map_nil] at w ph tc
  have := C24_pipe_no_new_extreme_partial (h := h) (io := io) hn ph w (slope_const hc a b) hc h1 h2 h3 h4 hh
    (by intro k hk; rw [tc]; exact hs k hk) k hk
  rw [pipeDT_diff hsame hp1 hp2] at this
  have e : (diffInp s s').T k = s'.T k - s.T k := rfl
  rw [e] at this
  constructor <;> nlinarith [this.1, this.2]

end Verif.Cells

namespace Verif.Attempt

section Simulation

variable {K X H N P : Type*} [Field K] [AddCommGroup X] [Module K X]

/-- Specification: with step length `h`, everything that belongs to the plant keeps a relation between two states: one
explicit Euler step of every part, the parts without differential equation, and what is handed on to the ports. -/
structure Compares (sys : System K X H N P) (Rx : X → X → Prop) (Rn : N → N → Prop) (Rp : P → P → Prop) (h : K) :
    Prop where
  diffs : ∀ d ∈ sys.diffs, ∀ m m' p p' x x', Rp p p' → Rx x x' →
    Rx (x + h • (d m p x h).dT) (x' + h • (d m' p' x' h).dT)
  solves : ∀ f ∈ sys.solves, ∀ n n' p p', Rn n n' → Rp p p' → Rn (f n p h) (f n' p' h)
  interm : ∀ xs xs' ns ns' p p', List.Forall₂ Rx xs xs' → List.Forall₂ Rn ns ns' → Rp p p' →
    Rp (sys.interm xs ns p) (sys.interm xs' ns' p')
  result : ∀ xs xs' ns ns' p p', List.Forall₂ Rx xs xs' → List.Forall₂ Rn ns ns' → Rp p p' →
    Rp (sys.result xs ns p) (sys.result xs' ns' p')

/-- Specification: two states of the plant are related at the beginning of a step. -/
structure Related (sys : System K X H N P) (Rx : X → X → Prop) (Rn : N → N → Prop) (Rp : P → P → Prop)
    (s s' : State X H N P) : Prop where
  count : s.parts.length = sys.diffs.length
  parts : List.Forall₂ (fun a b => Rx a.prev b.prev) s.parts s'.parts
  nonnum : List.Forall₂ Rn s.nonnum s'.nonnum
  ports : Rp s.ports s'.ports

variable {sys : System K X H N P} {Rx : X → X → Prop} {Rn : N → N → Prop} {Rp : P → P → Prop} {h : K}

theorem predict_rel {p p' : P} (hp : Rp p p') : ∀ {ds : List (Diff K X H P)} {ss ss' : List (PState X H)},
    (∀ d ∈ ds, ∀ m m' p p' x x', Rp p p' → Rx x x' → Rx (x + h • (d m p x h).dT) (x' + h • (d m' p' x' h).dT)) →
    ss.length = ds.length → List.Forall₂ (fun a b => Rx a.prev b.prev) ss ss' →
    (predict p h ds ss).2 = true → (predict p' h ds ss').2 = true →
    (predict p h ds ss).1.length = ds.length ∧
      List.Forall₂ (fun a b => Rx a.prev b.prev ∧ Rx a.T b.T ∧ a.T = a.prev + h • a.df0 ∧ b.T = b.prev + h • b.df0)
        (predict p h ds ss).1 (predict p' h ds ss').1 := by
  intro ds
  induction ds with
  | nil =>
    intro ss ss' _ hl hx _ _
    have : ss = [] := List.length_eq_zero_iff.mp hl
    subst this
    cases hx
    exact ⟨rfl, List.Forall₂.nil⟩
  | cons d ds ih =>
    intro ss ss' hd hl hx h1 h2
    cases hx with
    | nil => simp at hl
    | @cons a b l l' hab hx =>
      rw [predict] at h1 h2
      split_ifs at h1 with s1
      split_ifs at h2 with s2
      obtain ⟨i1, i2⟩ := ih (fun d' hd' => hd d' (List.mem_cons_of_mem _ hd')) (by simpa using hl) hx h1 h2
      rw [predict, predict, if_pos s1, if_pos s2]
      exact ⟨by simp [i1], List.Forall₂.cons
        ⟨hab, hd d List.mem_cons_self a.mem b.mem p p' a.prev b.prev hp hab, rfl, rfl⟩ i2⟩

theorem correct_rel {p p' : P} (hp : Rp p p') (h2 : (2 : K) ≠ 0)
    (hB : ∀ x x' y y', Rx x x' → Rx y y' → Rx ((1 / 2 : K) • (x + y)) ((1 / 2 : K) • (x' + y'))) :
    ∀ {ds : List (Diff K X H P)} {ss ss' : List (PState X H)},
    (∀ d ∈ ds, ∀ m m' p p' x x', Rp p p' → Rx x x' → Rx (x + h • (d m p x h).dT) (x' + h • (d m' p' x' h).dT)) →
    ss.length = ds.length →
    List.Forall₂ (fun a b => Rx a.prev b.prev ∧ Rx a.T b.T ∧ a.T = a.prev + h • a.df0 ∧ b.T = b.prev + h • b.df0)
      ss ss' →
    (correct p h ds ss).length = ds.length ∧
      List.Forall₂ (fun a b => Rx a.res b.res) (correct p h ds ss) (correct p' h ds ss') := by
  have key : ∀ (p : P) (d : Diff K X H P) (st : PState X H), st.T = st.prev + h • st.df0 →
      (correct1 p h d st).res = (1 / 2 : K) • (st.prev + (st.T + h • (d st.mem p st.T h).dT)) := by
    intro p d st x3
    show st.prev + (h / 2) • (st.df0 + (d st.mem p st.T h).dT) = _
    generalize (d st.mem p st.T h).dT = D
    rw [x3]
    match_scalars <;> field_simp
    norm_num
  intro ds
  induction ds with
  | nil =>
    intro ss ss' _ hl hx
    have : ss = [] := List.length_eq_zero_iff.mp hl
    subst this
    cases hx
    exact ⟨rfl, List.Forall₂.nil⟩
  | cons d ds ih =>
    intro ss ss' hd hl hx
    cases hx with
    | nil => simp at hl
    | @cons a b l l' hab hx =>
      obtain ⟨x1, x2, x3, x4⟩ := hab
      obtain ⟨i1, i2⟩ := ih (fun d' hd' => hd d' (List.mem_cons_of_mem _ hd')) (by simpa using hl) hx
      rw [correct, correct]
      refine ⟨by simp [i1], List.Forall₂.cons ?_ i2⟩
      rw [key p d a x3, key p' d b x4]
      exact hB _ _ _ _ x1 (hd d List.mem_cons_self a.mem b.mem p p' a.T b.T hp x2)

theorem solveAll_rel {p p' : P} (hp : Rp p p') : ∀ {fs : List (N → P → K → N)} {ns ns' : List N},
    (∀ f ∈ fs, ∀ n n' p p', Rn n n' → Rp p p' → Rn (f n p h) (f n' p' h)) → List.Forall₂ Rn ns ns' →
    List.Forall₂ Rn (solveAll p h fs ns) (solveAll p' h fs ns') := by
  intro fs
  induction fs with
  | nil => intro ns ns' _ hn; simpa [solveAll] using hn
  | cons f fs ih =>
    intro ns ns' hf hn
    cases hn with
    | nil => simp [solveAll]
    | @cons a b l l' hab hn =>
      rw [solveAll, solveAll]
      exact List.Forall₂.cons (hf f List.mem_cons_self a b p p' hab hp)
        (ih (fun f' hf' => hf f' (List.mem_cons_of_mem _ hf')) hn)

theorem call_rel (h2 : (2 : K) ≠ 0)
    (hB : ∀ x x' y y', Rx x x' → Rx y y' → Rx ((1 / 2 : K) • (x + y)) ((1 / 2 : K) • (x' + y')))
    (hk : Compares sys Rx Rn Rp h) {s s' : State X H N P} (hs : Related sys Rx Rn Rp s s')
    (s1 : (call sys s [] h).stable = true) (s2 : (call sys s' [] h).stable = true) :
    Related sys Rx Rn Rp (advance (call sys s [] h)) (advance (call sys s' [] h)) := by
  simp only [call, List.foldl_nil] at s1 s2 ⊢
  unfold attempt at s1 s2 ⊢
  split_ifs at s1 with p1
  split_ifs at s2 with p2
  rw [if_pos p1, if_pos p2]
  obtain ⟨q1, q2⟩ := predict_rel hs.ports hk.diffs hs.count hs.parts p1 p2
  have n1 := solveAll_rel hs.ports hk.solves hs.nonnum
  have m1 : List.Forall₂ Rx ((predict s.ports h sys.diffs s.parts).1.map PState.T)
      ((predict s'.ports h sys.diffs s'.parts).1.map PState.T) := by
    rw [List.forall₂_map_left_iff, List.forall₂_map_right_iff]
    exact q2.imp fun _ _ h => h.2.1
  have r1 := hk.interm _ _ _ _ _ _ m1 n1 hs.ports
  obtain ⟨c1, c2⟩ := correct_rel r1 h2 hB hk.diffs q1 q2
  have n2 := solveAll_rel r1 hk.solves n1
  refine ⟨by simpa [advance, finish] using c1, ?_, n2, ?_⟩
  · simp only [advance, finish]
    rw [List.forall₂_map_left_iff, List.forall₂_map_right_iff]
    exact c2
  · apply hk.result _ _ _ _ _ _ _ n2 r1
    rw [List.forall₂_map_left_iff, List.forall₂_map_right_iff]
    exact c2

/-- **C112**, partial: if a single explicit Euler step of every part and everything handed on to ports keeps a
relation between two states, so do two whole simulations with their predictors and correctors, over any number of
steps of the same lengths.  Missing: adaptive step lengths, which depend on the temperatures, and parts that do not
meet the condition (`C112_fails_heater`). -/
theorem C112_simulation_partial (h2 : (2 : K) ≠ 0)
    (hB : ∀ x x' y y', Rx x x' → Rx y y' → Rx ((1 / 2 : K) • (x + y)) ((1 / 2 : K) • (x' + y')))
    (l : List K) {s s' : State X H N P} (hs : Related sys Rx Rn Rp s s') (hh : ∀ h ∈ l, Compares sys Rx Rn Rp h)
    (hst : ∀ l₁ h l₂, l = l₁ ++ h :: l₂ →
      (call sys (simulate sys s (l₁.map fun h => ([], h))) [] h).stable = true ∧
        (call sys (simulate sys s' (l₁.map fun h => ([], h))) [] h).stable = true) :
    Related sys Rx Rn Rp (simulate sys s (l.map fun h => ([], h))) (simulate sys s' (l.map fun h => ([], h))) := by
  induction l generalizing s s' with
  | nil => exact hs
  | cons a l ih =>
    obtain ⟨t1, t2⟩ := hst [] a l rfl
    have hc := call_rel h2 hB (hh a List.mem_cons_self) hs t1 t2
    exact ih hc (fun c' hc' => hh c' (List.mem_cons_of_mem _ hc'))
      (fun l₁ c' l₂ e => hst (a :: l₁) c' l₂ (by rw [e]; rfl))

end Simulation

section Plant

open Verif.Cells

variable {K : Type*} [Field K] [LinearOrder K] [IsStrictOrderedRing K]

/-- Every temperature is by at least `a` and at most `b` higher in the second case. -/
def Hotter (a b : K) (x x' : ℕ → K) : Prop := ∀ k, a ≤ x' k - x k ∧ x' k - x k ≤ b

theorem hotter_mid {a b : K} (x x' y y' : ℕ → K) (h1 : Hotter a b x x') (h2 : Hotter a b y y') :
    Hotter a b ((1 / 2 : K) • (x + y)) ((1 / 2 : K) • (x' + y')) := by
  intro k
  obtain ⟨p1, p2⟩ := h1 k
  obtain ⟨p3, p4⟩ := h2 k
  simp only [Pi.smul_apply, Pi.add_apply, smul_eq_mul]
  constructor <;> linarith

/-- The plant of one pipe meets the condition with a sixth of a second. -/
theorem testPlant_compares (a b : ℚ) (h0 : a ≤ 0) (h1 : 0 ≤ b) :
    Compares testPlant (Hotter a b) (fun _ _ => True) (fun p p' => a ≤ p' - p ∧ p' - p ≤ b) (1 / 6) := by
  refine ⟨?_, fun _ _ _ _ _ _ _ _ => trivial, fun _ _ _ _ _ _ _ _ h => h, fun _ _ _ _ _ _ _ _ h => h⟩
  intro d hd m m' p p' x x' hp hx k
  simp only [testPlant, List.mem_singleton] at hd
  subst hd
  by_cases hk : k < 3
  · have := C112_pipe_partial (c := 1) (r := 1) (l := 1) (g := testPipe.g) (s := testPipe.inp m p x)
      (s' := testPipe.inp m' p' x') (pin := ⟨0, p, 1, 1, 0, 2⟩) (pin' := ⟨0, p', 1, 1, 0, 2⟩)
      (pout := ⟨2, 0, 1, 1, 0, -2⟩) (pout' := ⟨2, 0, 1, 1, 0, -2⟩) (io := 2) (a := a) (b := b) (h := 1 / 6)
      (by norm_num) (by decide) ⟨rfl, rfl, rfl, rfl⟩ ⟨rfl, rfl, rfl, rfl, rfl⟩ ⟨rfl, rfl, rfl, rfl, rfl⟩
      ⟨fun _ => by norm_num [constMat], by norm_num [testPipe], by norm_num [testPipe], by norm_num [testPipe],
        fun _ => by norm_num [testPipe, hotCell], fun _ => by norm_num [testPipe, hotCell],
        by norm_num [testPipe, hotCell], by norm_num [testPipe, hotCell], by simp [constMat],
        fun _ _ => by norm_num [testPipe, heatCapacity, constMat]⟩
      ⟨fun k _ => hx k, by simpa [testPipe] using And.intro h0 h1, by simpa using ⟨⟨hp.1, by linarith [hp.2]⟩, h0, h1⟩⟩
      rfl rfl rfl rfl (by norm_num)
      (by
        intro k hk
        have e : totalConductance (constMat 1 1 1) testPipe.g (testPipe.inp m p x)
            [⟨0, p, 1, 1, 0, 2⟩, ⟨2, 0, 1, 1, 0, -2⟩] k = 2 := by
          have : k < 3 := hk
          interval_cases k <;>
            norm_num [totalConductance, testPipe, hotCell, faceConductance, portConductance, constMat]
        rw [e]
        norm_num [testPipe, heatCapacity, constMat]) k hk
    have e1 : k < testPipe.g.n := hk
    simp only [Pi.add_apply, Pi.smul_apply, smul_eq_mul, Vessel.pipe, if_pos e1]
    exact this
  · have e1 : ¬ k < testPipe.g.n := hk
    simp only [Pi.add_apply, Pi.smul_apply, smul_eq_mul, Vessel.pipe, if_neg e1, mul_zero, add_zero]
    exact hx k

/-- A state of the plant of one pipe. -/
def pipeState (x : ℕ → ℚ) (p : ℚ) : State (ℕ → ℚ) Unit Unit ℚ :=
  ⟨[⟨x, fun _ => 0, fun _ => 0, fun _ => 0, fun _ => 0, ()⟩], [], p, true⟩

/-- The conclusion is about something: two simulations of this pipe that start with temperatures between 0 and 5
degrees apart stay between 0 and 5 degrees apart, for any number of steps. -/
example (n : ℕ) (x x' : ℕ → ℚ) (p : ℚ) (hx : Hotter 0 5 x x') :
    Related testPlant (Hotter 0 5) (fun _ _ => True) (fun p p' => 0 ≤ p' - p ∧ p' - p ≤ 5)
      (simulate testPlant (pipeState x p) ((List.replicate n (1 / 6)).map fun h => ([], h)))
      (simulate testPlant (pipeState x' p) ((List.replicate n (1 / 6)).map fun h => ([], h))) := by
  have stab : ∀ s : State (ℕ → ℚ) Unit Unit ℚ, (call testPlant s [] (1 / 6)).stable = true := by
    intro s
    obtain ⟨parts, nn, p, st⟩ := s
    cases parts with
    | nil => rfl
    | cons a l =>
      have e : ((testPipe.pipe (fun _ => 2) (fun p => ⟨0, p, 1, 1, 0, 2⟩) (fun _ => ⟨2, 0, 1, 1, 0, -2⟩)) a.mem p a.prev
          (1 / 6)).stable = true := testPipe_stable p a.prev
      simp only [call, attempt, testPlant, predict, e, List.foldl_nil, if_true, predict1, finish]
  refine C112_simulation_partial (by norm_num) hotter_mid _ ⟨rfl, ?_, List.Forall₂.nil, by simp [pipeState]⟩ ?_ ?_
  · exact List.Forall₂.cons hx List.Forall₂.nil
  · intro h hh
    rw [List.eq_of_mem_replicate hh]
    exact testPlant_compares 0 5 le_rfl (by norm_num)
  · intro l₁ h l₂ e
    have hc : h ∈ List.replicate n (1 / 6 : ℚ) := by rw [e]; simp
    rw [List.eq_of_mem_replicate hc]
    exact ⟨stab _, stab _⟩

/-- **C112** is false of a heated pipe: of two pipes with shutdown at 100 degrees, the one that starts at 100 instead
of 99 is colder after the step (100 instead of 109), because its heater switches off. -/
theorem C112_fails_heater :
    let step := fun T : ℚ => T + 1 * (heatedDT (constMat 1 1 1) ⟨2, 1, 1, 1, 0, 0⟩
      { hotCell with T := fun _ => T } 100 (Heat.all 2 20) 0 ⟨0, T, 0, 1, 0, 0⟩ ⟨1, T, 0, 1, 0, 0⟩).1 0
    step 99 = 109 ∧ step 100 = 100 := by
  decide +kernel

end Plant

end Verif.Attempt
