import Verif.Props.Heun
import Verif.Props.MaxPrinciple
import Mathlib.Tactic.IntervalCases

/-!
# C108: a simulation creates no new temperature extremes
-/

set_option linter.unusedSectionVars false

namespace Verif.Attempt

variable {K X H N P : Type*} [Field K] [AddCommGroup X] [Module K X]

/-- Specification: with step length `h`, everything that belongs to the plant keeps its values in a given range: one
explicit Euler step of every part, the parts without differential equation, and what is handed on to the ports. -/
structure Keeps (sys : System K X H N P) (Bx : X → Prop) (Bn : N → Prop) (Bp : P → Prop) (h : K) : Prop where
  diffs : ∀ d ∈ sys.diffs, ∀ m p x, Bp p → Bx x → Bx (x + h • (d m p x h).dT)
  solves : ∀ f ∈ sys.solves, ∀ n p, Bn n → Bp p → Bn (f n p h)
  interm : ∀ xs ns p, (∀ x ∈ xs, Bx x) → (∀ n ∈ ns, Bn n) → Bp p → Bp (sys.interm xs ns p)
  result : ∀ xs ns p, (∀ x ∈ xs, Bx x) → (∀ n ∈ ns, Bn n) → Bp p → Bp (sys.result xs ns p)

/-- Specification: all values of the plant are in the range at the beginning of a step. -/
structure InRange (sys : System K X H N P) (Bx : X → Prop) (Bn : N → Prop) (Bp : P → Prop) (s : State X H N P) :
    Prop where
  count : s.parts.length = sys.diffs.length
  parts : ∀ st ∈ s.parts, Bx st.prev
  nonnum : ∀ n ∈ s.nonnum, Bn n
  ports : Bp s.ports

/-- The beginning of the next step: `stepnum` is increased, so `res[stepnum - 1]` is the result of this one. -/
def advance (s : State X H N P) : State X H N P :=
  { s with parts := s.parts.map fun st => { st with prev := st.res } }

/-- A simulation: solver calls, each with its rejected step lengths and the accepted one. -/
def simulate (sys : System K X H N P) (s : State X H N P) : List (List K × K) → State X H N P
  | [] => s
  | (hs, h) :: l => simulate sys (advance (call sys s hs h)) l

variable {sys : System K X H N P} {Bx : X → Prop} {Bn : N → Prop} {Bp : P → Prop} {h : K}

theorem predict_range {p : P} (hp : Bp p) : ∀ {ds : List (Diff K X H P)} {ss : List (PState X H)},
    (∀ d ∈ ds, ∀ m p x, Bp p → Bx x → Bx (x + h • (d m p x h).dT)) → ss.length = ds.length →
    (∀ st ∈ ss, Bx st.prev) →
    (predict p h ds ss).1.length = ds.length ∧ (∀ st ∈ (predict p h ds ss).1, Bx st.prev) ∧
      ((predict p h ds ss).2 = true → ∀ st ∈ (predict p h ds ss).1,
        Bx st.T ∧ st.T = st.prev + h • st.df0) := by
  intro ds
  induction ds with
  | nil =>
    intro ss _ hl hx
    have : ss = [] := List.length_eq_zero_iff.mp hl
    subst this
    exact ⟨rfl, by simp [predict], by simp [predict]⟩
  | cons d ds ih =>
    intro ss hd hl hx
    cases ss with
    | nil => simp at hl
    | cons st ss =>
      have hst := hx st List.mem_cons_self
      have hT := hd d List.mem_cons_self st.mem p st.prev hp hst
      obtain ⟨i1, i2, i3⟩ := ih (fun d' hd' => hd d' (List.mem_cons_of_mem _ hd')) (by simpa using hl)
        (fun s' hs' => hx s' (List.mem_cons_of_mem _ hs'))
      rw [predict]
      split_ifs with hs
      · refine ⟨by simp [i1], ?_, ?_⟩
        · intro s' hs'
          rcases List.mem_cons.mp hs' with rfl | hs'
          · exact hst
          · exact i2 s' hs'
        · intro hf s' hs'
          rcases List.mem_cons.mp hs' with rfl | hs'
          · exact ⟨hT, rfl⟩
          · exact i3 hf s' hs'
      · refine ⟨by simpa using hl, ?_, fun hf => by cases hf⟩
        intro s' hs'
        rcases List.mem_cons.mp hs' with rfl | hs'
        · exact hst
        · exact hx s' (List.mem_cons_of_mem _ hs')

theorem correct_range {p : P} (hp : Bp p) (h2 : (2 : K) ≠ 0)
    (hB : ∀ x y, Bx x → Bx y → Bx ((1 / 2 : K) • (x + y))) : ∀ {ds : List (Diff K X H P)} {ss : List (PState X H)},
    (∀ d ∈ ds, ∀ m p x, Bp p → Bx x → Bx (x + h • (d m p x h).dT)) → ss.length = ds.length →
    (∀ st ∈ ss, Bx st.prev ∧ Bx st.T ∧ st.T = st.prev + h • st.df0) →
    (correct p h ds ss).length = ds.length ∧ ∀ st ∈ correct p h ds ss, Bx st.prev ∧ Bx st.res := by
  intro ds
  induction ds with
  | nil =>
    intro ss _ hl hx
    have : ss = [] := List.length_eq_zero_iff.mp hl
    subst this
    exact ⟨rfl, by simp [correct]⟩
  | cons d ds ih =>
    intro ss hd hl hx
    cases ss with
    | nil => simp at hl
    | cons st ss =>
      obtain ⟨x1, x2, x3⟩ := hx st List.mem_cons_self
      have hT := hd d List.mem_cons_self st.mem p st.T hp x2
      obtain ⟨i1, i2⟩ := ih (fun d' hd' => hd d' (List.mem_cons_of_mem _ hd')) (by simpa using hl)
        (fun s' hs' => hx s' (List.mem_cons_of_mem _ hs'))
      rw [correct]
      refine ⟨by simp [i1], ?_⟩
      intro s' hs'
      rcases List.mem_cons.mp hs' with rfl | hs'
      · refine ⟨x1, ?_⟩
        have e : (correct1 p h d st).res = (1 / 2 : K) • (st.prev + (st.T + h • (d st.mem p st.T h).dT)) := by
          show st.prev + (h / 2) • (st.df0 + (d st.mem p st.T h).dT) = _
          generalize (d st.mem p st.T h).dT = D
          rw [x3]
          match_scalars <;> field_simp
          norm_num
        rw [e]
        exact hB _ _ x1 hT
      · exact i2 s' hs'

theorem solveAll_range {p : P} (hp : Bp p) : ∀ {fs : List (N → P → K → N)} {ns : List N},
    (∀ f ∈ fs, ∀ n p, Bn n → Bp p → Bn (f n p h)) → (∀ n ∈ ns, Bn n) → ∀ n ∈ solveAll p h fs ns, Bn n := by
  intro fs
  induction fs with
  | nil => intro ns _ hn; simpa [solveAll] using hn
  | cons f fs ih =>
    intro ns hf hn
    cases ns with
    | nil => simp [solveAll]
    | cons n ns =>
      rw [solveAll]
      intro n' hn'
      rcases List.mem_cons.mp hn' with rfl | hn'
      · exact hf f List.mem_cons_self n p (hn n List.mem_cons_self) hp
      · exact ih (fun f' hf' => hf f' (List.mem_cons_of_mem _ hf')) (fun n' hn' => hn n' (List.mem_cons_of_mem _ hn'))
          n' hn'

/-- An attempt leaves the values from which the next attempt starts in range; if it is stable, its results are in
range as well. -/
theorem attempt_range (h2 : (2 : K) ≠ 0) (hB : ∀ x y, Bx x → Bx y → Bx ((1 / 2 : K) • (x + y)))
    (hk : Keeps sys Bx Bn Bp h) {s : State X H N P} (hs : InRange sys Bx Bn Bp s) :
    InRange sys Bx Bn Bp (attempt sys h s) ∧
      ((attempt sys h s).stable = true → ∀ st ∈ (attempt sys h s).parts, Bx st.res) := by
  obtain ⟨p1, p2, p3⟩ := predict_range hs.ports hk.diffs hs.count hs.parts
  unfold attempt
  split_ifs with hst
  · have hn1 := solveAll_range hs.ports hk.solves hs.nonnum
    have hp1 := hk.interm ((predict s.ports h sys.diffs s.parts).1.map PState.T) _ s.ports
      (by
        intro x hx
        obtain ⟨st, h1, rfl⟩ := List.mem_map.mp hx
        exact (p3 hst st h1).1) hn1 hs.ports
    obtain ⟨c1, c2⟩ := correct_range hp1 h2 hB hk.diffs p1 (fun st h1 => ⟨p2 st h1, p3 hst st h1⟩)
    have hn2 := solveAll_range hp1 hk.solves hn1
    refine ⟨⟨c1, fun st h1 => (c2 st h1).1, hn2, ?_⟩, fun _ st h1 => (c2 st h1).2⟩
    apply hk.result _ _ _ _ hn2 hp1
    intro x hx
    obtain ⟨st, h1, rfl⟩ := List.mem_map.mp hx
    exact (c2 st h1).2
  · exact ⟨⟨p1, p2, hs.nonnum, hs.ports⟩, fun hf => by cases hf⟩

/-- A step length is harmless in an attempt that is rejected: it keeps the range or is found unstable. -/
def Harmless (sys : System K X H N P) (Bx : X → Prop) (Bn : N → Prop) (Bp : P → Prop) (h : K) : Prop :=
  Keeps sys Bx Bn Bp h ∨ ∀ s, InRange sys Bx Bn Bp s → (attempt sys h s).stable = false

theorem unstable_range {s : State X H N P} (hs : InRange sys Bx Bn Bp s) (hf : (attempt sys h s).stable = false) :
    InRange sys Bx Bn Bp (attempt sys h s) := by
  have key : ∀ (ds : List (Diff K X H P)) (ss : List (PState X H)), ss.length = ds.length →
      (∀ st ∈ ss, Bx st.prev) → (predict s.ports h ds ss).1.length = ds.length ∧
        ∀ st ∈ (predict s.ports h ds ss).1, Bx st.prev := by
    intro ds
    induction ds with
    | nil =>
      intro ss hl hx
      have : ss = [] := List.length_eq_zero_iff.mp hl
      subst this
      exact ⟨rfl, by simp [predict]⟩
    | cons d ds ih =>
      intro ss hl hx
      cases ss with
      | nil => simp at hl
      | cons st ss =>
        obtain ⟨i1, i2⟩ := ih ss (by simpa using hl) (fun s' hs' => hx s' (List.mem_cons_of_mem _ hs'))
        rw [predict]
        split_ifs with hs
        · refine ⟨by simp [i1], ?_⟩
          intro s' hs'
          rcases List.mem_cons.mp hs' with rfl | hs'
          · exact hx st List.mem_cons_self
          · exact i2 s' hs'
        · refine ⟨by simpa using hl, ?_⟩
          intro s' hs'
          rcases List.mem_cons.mp hs' with rfl | hs'
          · exact hx st List.mem_cons_self
          · exact hx s' (List.mem_cons_of_mem _ hs')
  obtain ⟨k1, k2⟩ := key sys.diffs s.parts hs.count hs.parts
  unfold attempt at hf ⊢
  split_ifs at hf ⊢ with hst
  · cases hf
  · exact ⟨k1, k2, hs.nonnum, hs.ports⟩

theorem rejected_range (h2 : (2 : K) ≠ 0) (hB : ∀ x y, Bx x → Bx y → Bx ((1 / 2 : K) • (x + y)))
    (hh : Harmless sys Bx Bn Bp h) {bkp : P} (hb : Bp bkp) {s : State X H N P} (hs : InRange sys Bx Bn Bp s) :
    InRange sys Bx Bn Bp (rejected sys bkp h s) := by
  have : InRange sys Bx Bn Bp (attempt sys h s) := by
    rcases hh with hk | hu
    · exact (attempt_range h2 hB hk hs).1
    · exact unstable_range hs (hu s hs)
  exact ⟨this.count, this.parts, this.nonnum, hb⟩

/-- One solver call. -/
theorem call_range (h2 : (2 : K) ≠ 0) (hB : ∀ x y, Bx x → Bx y → Bx ((1 / 2 : K) • (x + y)))
    {s : State X H N P} (hs : InRange sys Bx Bn Bp s) {hs' : List K} (hh : ∀ h' ∈ hs', Harmless sys Bx Bn Bp h')
    (hk : Keeps sys Bx Bn Bp h) (hst : (call sys s hs' h).stable = true) :
    InRange sys Bx Bn Bp (advance (call sys s hs' h)) := by
  have key : ∀ (l : List K) (t : State X H N P), (∀ h' ∈ l, Harmless sys Bx Bn Bp h') → InRange sys Bx Bn Bp t →
      InRange sys Bx Bn Bp (l.foldl (fun st h' => rejected sys s.ports h' st) t) := by
    intro l
    induction l with
    | nil => intro t _ ht; exact ht
    | cons a l ih =>
      intro t hl ht
      exact ih _ (fun h' hh' => hl h' (List.mem_cons_of_mem _ hh'))
        (rejected_range h2 hB (hl a List.mem_cons_self) hs.ports ht)
  have h0 := key hs' s hh hs
  obtain ⟨a1, a2⟩ := attempt_range h2 hB hk h0
  refine ⟨by simpa [advance, call] using a1.count, ?_, a1.nonnum, a1.ports⟩
  intro st hst'
  obtain ⟨st', h1, rfl⟩ := List.mem_map.mp hst'
  exact a2 hst st' h1

/-- **C108**, partial: if a single explicit Euler step of every part and everything handed on to ports keeps values
in a convex range, so does the whole simulation with its predictors, correctors and rejected attempts, over any number
of steps.  Missing: the code does not ensure the condition for the Euler step (`C108_fails_checked_pipe`). -/
theorem C108_simulation_partial (h2 : (2 : K) ≠ 0) (hB : ∀ x y, Bx x → Bx y → Bx ((1 / 2 : K) • (x + y)))
    (l : List (List K × K)) {s : State X H N P} (hs : InRange sys Bx Bn Bp s)
    (hh : ∀ c ∈ l, (∀ h' ∈ c.1, Harmless sys Bx Bn Bp h') ∧ Keeps sys Bx Bn Bp c.2)
    (hst : ∀ (l₁ : List (List K × K)) c l₂, l = l₁ ++ c :: l₂ → (call sys (simulate sys s l₁) c.1 c.2).stable = true) :
    InRange sys Bx Bn Bp (simulate sys s l) := by
  induction l generalizing s with
  | nil => exact hs
  | cons c l ih =>
    obtain ⟨h1, h3⟩ := hh c List.mem_cons_self
    have hc := call_range h2 hB hs h1 h3 (hst [] c l rfl)
    exact ih hc (fun c' hc' => hh c' (List.mem_cons_of_mem _ hc'))
      (fun l₁ c' l₂ e => hst (c :: l₁) c' l₂ (by rw [e]; rfl))


/-! ## Plants of storages and pipes -/

section Vessel

open Verif.Cells
open Verif.Flows

variable {K H P : Type*} [Field K] [LinearOrder K] [IsStrictOrderedRing K]

/-- A one-dimensional part: material, geometry, what enters its differential (this may depend on its memory, the
ports and its temperatures, such as the film coefficients and the buoyancy), its ports, what it remembers and its
stability check. -/
structure Vessel (K H P : Type*) where
  mat : Mat K
  g : Geo K
  inp : H → P → (ℕ → K) → Inp K
  ports : P → List (Port K)
  upd : H → P → (ℕ → K) → H
  check : H → P → (ℕ → K) → K → Bool

/-- A storage or a branched pipe as part of a plant. -/
def Vessel.storage (v : Vessel K H P) : Diff K (ℕ → K) H P := fun m p x h =>
  ⟨fun k => if k < v.g.n then storageDT v.mat v.g (v.inp m p x) (v.ports p) k else 0, v.upd m p x, v.check m p x h⟩

/-- A pipe as part of a plant. -/
def Vessel.pipe (v : Vessel K H P) (io : P → K) (pin pout : P → Port K) : Diff K (ℕ → K) H P := fun m p x h =>
  ⟨fun k => if k < v.g.n then pipeDT v.mat v.g (v.inp m p x) (io p) (pin p) (pout p) k else 0, v.upd m p x,
    v.check m p x h⟩

/-- All temperatures are between two bounds. -/
def Between (a b : K) (x : ℕ → K) : Prop := ∀ k, a ≤ x k ∧ x k ≤ b

theorem between_mid {a b : K} (x y : ℕ → K) (hx : Between a b x) (hy : Between a b y) :
    Between a b ((1 / 2 : K) • (x + y)) := by
  intro k
  obtain ⟨h1, h2⟩ := hx k
  obtain ⟨h3, h4⟩ := hy k
  simp only [Pi.smul_apply, Pi.add_apply, smul_eq_mul]
  constructor <;> linarith

/-- **C108**, partial (storages and branched pipes): what the simulation theorem asks of a part holds of a storage
whose step is at most the heat capacity of each cell divided by everything connected to it. -/
theorem C108_storage_partial (v : Vessel K H P) {Bp : P → Prop} {a b L h : K} (hn : 2 ≤ v.g.n) (hh : 0 ≤ h)
    (hL : EnthalpySlope v.mat a b L) (hL0 : 0 ≤ L) (hT : ∀ m p x, (v.inp m p x).T = x)
    (hph : ∀ m p x, Bp p → Between a b x → Physical v.mat v.g (v.inp m p x) (v.ports p))
    (hw : ∀ m p x, Bp p → Between a b x → Within v.g (v.inp m p x) (v.ports p) a b)
    (hsort : ∀ p, Bp p → ((v.ports p).map (·.idx)).Pairwise (· ≤ ·))
    (hp : ∀ p, Bp p → ∀ q ∈ v.ports p, q.idx < v.g.n) (hb : ∀ p, Bp p → ((v.ports p).map (·.io)).sum = 0)
    (hs : ∀ m p x, Bp p → Between a b x → ∀ k < v.g.n,
      let f := processVar v.g.n ((v.ports p).map (·.idx)) ((v.ports p).map (·.io))
      h * (totalConductance v.mat v.g (v.inp m p x) (v.ports p) k +
          L * (f.top k + f.bot k + inflowThroughPorts (v.ports p) k)) ≤ heatCapacity v.mat v.g (v.inp m p x) k) :
    ∀ m p x, Bp p → Between a b x → Between a b (x + h • (v.storage m p x h).dT) := by
  intro m p x hbp hx k
  have e : (x + h • (v.storage m p x h).dT) k =
      x k + h * (if k < v.g.n then storageDT v.mat v.g (v.inp m p x) (v.ports p) k else 0) := rfl
  rw [e]
  by_cases hk : k < v.g.n
  · rw [if_pos hk]
    have := C24_storage_no_new_extreme_partial hn (hph m p x hbp hx) (hw m p x hbp hx) hL hL0 (hsort p hbp) (hp p hbp)
      (hb p hbp) hh (hs m p x hbp hx) k hk
    rwa [hT] at this
  · rw [if_neg hk, mul_zero, add_zero]
    exact hx k

/-- **C108**, partial (pipes): the same for a pipe. -/
theorem C108_pipe_partial (v : Vessel K H P) {io : P → K} {pin pout : P → Port K} {Bp : P → Prop} {a b L h : K}
    (hn : 2 ≤ v.g.n) (hh : 0 ≤ h) (hL : EnthalpySlope v.mat a b L) (hL0 : 0 ≤ L)
    (hT : ∀ m p x, (v.inp m p x).T = x)
    (hph : ∀ m p x, Bp p → Between a b x → Physical v.mat v.g (v.inp m p x) [pin p, pout p])
    (hw : ∀ m p x, Bp p → Between a b x → Within v.g (v.inp m p x) [pin p, pout p] a b)
    (h1 : ∀ p, (pin p).idx = 0 ∧ (pout p).idx = v.g.n - 1 ∧ (pin p).io = io p ∧ (pout p).io = -io p)
    (hs : ∀ m p x, Bp p → Between a b x → ∀ k < v.g.n,
      h * (totalConductance v.mat v.g (v.inp m p x) [pin p, pout p] k + L * |io p|) ≤
        heatCapacity v.mat v.g (v.inp m p x) k) :
    ∀ m p x, Bp p → Between a b x → Between a b (x + h • (v.pipe io pin pout m p x h).dT) := by
  intro m p x hbp hx k
  have e : (x + h • (v.pipe io pin pout m p x h).dT) k =
      x k + h * (if k < v.g.n then pipeDT v.mat v.g (v.inp m p x) (io p) (pin p) (pout p) k else 0) := rfl
  rw [e]
  obtain ⟨i1, i2, i3, i4⟩ := h1 p
  by_cases hk : k < v.g.n
  · rw [if_pos hk]
    have := C24_pipe_no_new_extreme_partial hn (hph m p x hbp hx) (hw m p x hbp hx) hL hL0 i1 i2 i3 i4 hh
      (hs m p x hbp hx) k hk
    rwa [hT] at this
  · rw [if_neg hk, mul_zero, add_zero]
    exact hx k

end Vessel

/-! ## A pipe -/

section Pipe

open Verif.Cells

/-- A perfectly insulated pipe of three cells with the stability check of the code; the port array holds the
temperature of the water flowing in. -/
def testPipe : Vessel ℚ Unit ℚ where
  mat := ⟨fun _ => 1, fun _ => 1, fun _ => 1⟩
  g := ⟨3, 1, 1, 1, 0, 0⟩
  inp _ _ x := { hotCell with T := x }
  ports p := [⟨0, p, 1, 1, 0, 2⟩, ⟨2, 0, 1, 1, 0, -2⟩]
  upd _ _ _ := ()
  check _ p x h := (Stability.check (pipeCheck ⟨fun _ => 1, fun _ => 1, fun _ => 1⟩ ⟨3, 1, 1, 1, 0, 0⟩
    { hotCell with T := x } 1 1 2 ⟨0, p, 1, 1, 0, 2⟩ ⟨2, 0, 1, 1, 0, -2⟩) h).isNone

/-- A plant of this pipe only; the temperature of the water flowing in is constant. -/
def testPlant : System ℚ (ℕ → ℚ) Unit Unit ℚ where
  diffs := [testPipe.pipe (fun _ => 2) (fun p => ⟨0, p, 1, 1, 0, 2⟩) (fun _ => ⟨2, 0, 1, 1, 0, -2⟩)]
  solves := []
  interm _ _ p := p
  result _ _ p := p

/-- The pipe with a hot cell between two cold ones and cold water flowing in. -/
def testStart : State (ℕ → ℚ) Unit Unit ℚ :=
  ⟨[⟨hotCell.T, fun _ => 0, fun _ => 0, fun _ => 0, fun _ => 0, ()⟩], [], 0, true⟩

/-- **C108** is false of the code: the stability check accepts a step of half a second, after which the hottest cell
(175) is hotter than anything was before (100) and the other two are colder (-50, -150) than anything was (0). -/
theorem C108_fails_checked_pipe :
    InRange testPlant (Between 0 100) (fun _ => True) (fun p => 0 ≤ p ∧ p ≤ 100) testStart ∧
      (call testPlant testStart [] (1 / 2)).stable = true ∧
      (call testPlant testStart [] (1 / 2)).parts.map (fun st => [st.res 0, st.res 1, st.res 2]) =
        [[-50, 175, -150]] := by
  refine ⟨⟨rfl, ?_, fun _ _ => trivial, by norm_num [testStart]⟩, by decide +kernel, by decide +kernel⟩
  intro st hst
  simp only [testStart, List.mem_singleton] at hst
  subst hst
  intro k
  simp only [hotCell]
  split_ifs <;> norm_num

/-- With a sixth of a second the pipe keeps its temperatures in range. -/
theorem testPlant_keeps :
    Keeps testPlant (Between 0 100) (fun _ => True) (fun p => 0 ≤ p ∧ p ≤ 100) (1 / 6) := by
  refine ⟨?_, fun _ _ _ _ _ _ => trivial, fun _ _ _ _ _ h => h, fun _ _ _ _ _ h => h⟩
  intro d hd
  simp only [testPlant, List.mem_singleton] at hd
  subst hd
  refine C108_pipe_partial testPipe (L := 1) (Bp := fun p => 0 ≤ p ∧ p ≤ 100) (by decide) (by norm_num) ?_
    (by norm_num) (fun _ _ _ => rfl) ?_ ?_ (fun _ => ⟨rfl, rfl, rfl, rfl⟩) ?_
  · intro a b _ hab _
    have e : ∀ T, enthalpy testPipe.mat T = T := fun T => by simp [enthalpy, testPipe]
    rw [e, e]
    constructor <;> linarith
  · intro m p x _ _
    exact ⟨fun _ _ => by norm_num [testPipe], by norm_num [testPipe], by norm_num [testPipe], by norm_num [testPipe],
      fun _ => by norm_num [testPipe, hotCell], fun _ => by norm_num [testPipe, hotCell],
      by norm_num [testPipe, hotCell], by norm_num [testPipe, hotCell], by simp [testPipe],
      fun _ _ => by norm_num [testPipe, heatCapacity]⟩
  · intro m p x hp hx
    exact ⟨fun k _ => hx k, by norm_num [testPipe, hotCell], by simpa using hp⟩
  · intro m p x _ _ k hk
    have e : totalConductance testPipe.mat testPipe.g (testPipe.inp m p x) [⟨0, p, 1, 1, 0, 2⟩, ⟨2, 0, 1, 1, 0, -2⟩] k =
        2 := by
      have : k < 3 := hk
      interval_cases k <;> norm_num [totalConductance, testPipe, hotCell, faceConductance, portConductance]
    show 1 / 6 * (totalConductance testPipe.mat testPipe.g (testPipe.inp m p x)
      [⟨0, p, 1, 1, 0, 2⟩, ⟨2, 0, 1, 1, 0, -2⟩] k + 1 * |(2 : ℚ)|) ≤ _
    rw [e]
    norm_num [testPipe, heatCapacity]

theorem testPipe_stable (p : ℚ) (x : ℕ → ℚ) : testPipe.check () p x (1 / 6) = true := by
  have : testPipe.check () p x (1 / 6) = testPipe.check () 0 (fun _ => 0) (1 / 6) := rfl
  rw [this]
  decide +kernel

/-- The conclusion is about something: with this step length the pipe stays in range for any number of steps. -/
example (n : ℕ) : InRange testPlant (Between 0 100) (fun _ => True) (fun p => 0 ≤ p ∧ p ≤ 100)
    (simulate testPlant testStart (List.replicate n ([], 1 / 6))) := by
  refine C108_simulation_partial (by norm_num) between_mid _ C108_fails_checked_pipe.1 ?_ ?_
  · intro c hc
    rw [List.eq_of_mem_replicate hc]
    exact ⟨by simp, testPlant_keeps⟩
  · intro l₁ c l₂ e
    have hc : c ∈ List.replicate n (([] : List ℚ), (1 / 6 : ℚ)) := by rw [e]; simp
    rw [List.eq_of_mem_replicate hc]
    generalize simulate testPlant testStart l₁ = s
    obtain ⟨parts, nn, p, st⟩ := s
    cases parts with
    | nil => rfl
    | cons a l =>
      have e : ((testPipe.pipe (fun _ => 2) (fun p => ⟨0, p, 1, 1, 0, 2⟩) (fun _ => ⟨2, 0, 1, 1, 0, -2⟩)) a.mem p a.prev
          (1 / 6)).stable = true := testPipe_stable p a.prev
      simp only [call, attempt, testPlant, predict, e, List.foldl_nil, if_true, predict1, finish]

end Pipe

end Verif.Attempt
