import Verif.Props.Equilibrium
import Verif.Props.Converge
import Verif.Lemmas.Diffuse
import Mathlib.Analysis.SpecificLimits.Basic
import Mathlib.Analysis.Calculus.Deriv.Pow

/-!
# C167: an insulated storage that is not used evens out its temperatures and keeps its energy
-/

set_option linter.unusedSectionVars false

namespace Verif.Idle

open Finset Filter Topology Verif.Cells Verif.Flows Verif.Attempt Verif.Diffuse

/-! ## The differential of a storage that is not used -/

theorem cumsumFrom_zero {l : List ℝ} (h : ∀ c ∈ l, c = 0) : ∀ c ∈ cumsumFrom 0 l, c = 0 := by
  induction l with
  | nil => simp [cumsumFrom]
  | cons a l ih =>
    have ha : a = 0 := h a List.mem_cons_self
    subst ha
    intro c hc
    simp only [cumsumFrom, add_zero, List.mem_cons] at hc
    rcases hc with rfl | hc
    · rfl
    · exact ih (fun c hc => h c (List.mem_cons_of_mem _ hc)) c hc

theorem slices_zero (k : ℕ) : ∀ (idx : List ℕ) {l : List ℝ}, (∀ c ∈ l, c = 0) → slices idx l k = 0 := by
  intro idx
  induction idx with
  | nil => intro l _; simp [slices]
  | cons i idx ih =>
    intro l h
    cases idx with
    | nil => simp [slices]
    | cons j idx =>
      cases l with
      | nil => simp [slices]
      | cons a l =>
        rw [slices, h a List.mem_cons_self, ih fun c hc => h c (List.mem_cons_of_mem _ hc)]
        simp

/-- Specification: nothing goes through a port, neither water nor heat. -/
def Shut (q : Port ℝ) : Prop := q.area = 0 ∧ q.uaWll = 0 ∧ q.io = 0

theorem storageDT_idle {mat : Mat ℝ} {g : Geo ℝ} {s : Inp ℝ} {ports : List (Port ℝ)} (hp : ∀ q ∈ ports, Shut q)
    (hamb : ∀ k < g.n, s.uaAmb k = 0) (hl : s.lidTop = 0 ∧ s.lidBot = 0) {k : ℕ} (hk : k < g.n) :
    storageDT mat g s ports k = net (uaTb mat g s) s.T k / mcp mat g s k := by
  have hio : ∀ c ∈ ports.map (·.io), c = 0 := by
    intro c hc
    obtain ⟨q, hq, rfl⟩ := List.mem_map.1 hc
    exact (hp q hq).2.2
  have hdm : ∀ j, slices (ports.map (·.idx)) (cumsum (ports.map (·.io))) j = 0 := fun j =>
    slices_zero j _ (cumsumFrom_zero hio)
  have hadv : dTadv mat g s (processVar g.n (ports.map (·.idx)) (ports.map (·.io))).top
      (processVar g.n (ports.map (·.idx)) (ports.map (·.io))).bot ports
      (processVar g.n (ports.map (·.idx)) (ports.map (·.io))).port k = 0 := by
    unfold dTadv
    apply addAt_zero
    · simp [processVar, hdm, pos]
    · intro e he
      obtain ⟨q, hq, rfl⟩ := List.mem_map.1 he
      have h1 := (List.of_mem_zip hq).2
      simp only [processVar, List.mem_map] at h1
      obtain ⟨c, ⟨q', hq', rfl⟩, h2⟩ := h1
      have h3 : q.2 = 0 := by rw [← h2, (hp q' hq').2.2]; simp [pos]
      simp [h3]
  have hcond : dTcond mat g s ports k = net (uaTb mat g s) s.T k / mcp mat g s k := by
    unfold dTcond
    rw [addAt_eq, List.sum_eq_zero, add_zero]
    · have h1 : uaTb mat g s k * (tExt g s k - tExt g s (k + 1)) = -flux (uaTb mat g s) s.T k := by
        rw [tExt_cell g s hk, flux]
        rcases Nat.eq_zero_or_pos k with h0 | h0
        · subst h0; simp [uaTb]
        · obtain ⟨j, rfl⟩ : ∃ j, k = j + 1 := ⟨k - 1, by omega⟩
          rw [tExt_cell g s (by omega : j < g.n), Nat.add_sub_cancel]
          ring
      have h2 : uaTb mat g s (k + 1) * (tExt g s (k + 2) - tExt g s (k + 1)) = flux (uaTb mat g s) s.T (k + 1) := by
        rw [tExt_cell g s hk, flux]
        by_cases h0 : k + 1 = g.n
        · have : uaTb mat g s (k + 1) = 0 := by rw [uaTb, if_pos (Or.inr h0)]
          rw [this]; simp
        · rw [tExt_cell g s (by omega : k + 1 < g.n)]
          simp
      rw [h1, h2, hamb k hk, hl.1, hl.2, net]
      simp only [zero_mul, zero_div, ite_self, add_zero]
      ring
    · intro x hx
      obtain ⟨e, he, rfl⟩ := List.mem_map.1 hx
      obtain ⟨q, hq, rfl⟩ := List.mem_map.1 (List.mem_of_mem_filter he)
      simp [uaPort, (hp q hq).1, (hp q hq).2.1]
  unfold storageDT
  rw [hcond, hadv, add_zero]

/-! ## One part of a plant -/

section Part

variable {K X H N P : Type*} [Field K] [AddCommGroup X] [Module K X]

/-- A solver call does Heun's step in each part, with the ports of the beginning and those after the predictor. -/
theorem call_part {sys : System K X H N P} {s : State X H N P} {i : ℕ} {d : Diff K X H P} {x : X}
    (hd : sys.diffs[i]? = some d) (hx : (s.parts.map PState.prev)[i]? = some x) {hs : List K} {h : K}
    (hst : (call sys s hs h).stable = true) :
    ∃ m p m' p', ((advance (call sys s hs h)).parts.map PState.prev)[i]? =
      some (x + (h / 2) • ((d m p x h).dT + (d m' p' (x + h • (d m p x h).dT) h).dT)) := by
  have key : ∀ (l : List K) (t : State X H N P), (t.parts.map PState.prev)[i]? = some x →
      ((l.foldl (fun st h' => rejected sys s.ports h' st) t).parts.map PState.prev)[i]? = some x := by
    intro l
    induction l with
    | nil => intro t ht; exact ht
    | cons a l ih =>
      intro t ht
      apply ih
      rw [← ht]
      exact congrArg (fun l => l[i]?) (attempt_prev sys a t)
  have h0 := key hs s hx
  rw [call] at hst ⊢
  set t := hs.foldl (fun st h' => rejected sys s.ports h' st) s with ht
  rw [List.getElem?_map] at h0
  obtain ⟨st, h1, h2⟩ := Option.map_eq_some_iff.1 h0
  have hpred : (predict t.ports h sys.diffs t.parts).2 = true := by
    by_contra hb
    rw [attempt, if_neg hb] at hst
    cases hst
  have h3 := predict_getElem? hpred hd h1
  have hat : attempt sys h t = finish sys h (predict t.ports h sys.diffs t.parts).1 t.nonnum t.ports := by
    rw [attempt, if_pos hpred]
  set p' := sys.interm ((predict t.ports h sys.diffs t.parts).1.map PState.T)
    (solveAll t.ports h sys.solves t.nonnum) t.ports with hp'
  have h4 := correct_getElem? (ports := p') (h := h) hd h3
  refine ⟨st.mem, t.ports, (predict1 t.ports h d st).mem, p', ?_⟩
  have h5 : (advance (attempt sys h t)).parts.map PState.prev =
      (correct p' h sys.diffs (predict t.ports h sys.diffs t.parts).1).map PState.res := by
    rw [hat, advance, finish, List.map_map]
    rfl
  rw [h5, List.getElem?_map, h4]
  simp only [Option.map_some, correct1, predict1, h2]

end Part

/-! ## The storage -/

variable {H N P : Type*}

/-- Specification: the storage `v` is insulated and not used.  Its `n` cells have the same heat capacity `M` at all
temperatures, nothing goes through the ports, shell and lids, and at temperatures between `a` and `b` neighbouring
cells are connected by a conductance between `lo` and `hi`, which may change with the temperatures (conductivity,
buoyancy). -/
structure Unused (v : Vessel ℝ H P) (M lo hi a b : ℝ) : Prop where
  cells : 2 ≤ v.g.n
  cap : 0 < M ∧ ∀ T, v.g.vCell * (v.mat.rho T * v.mat.cp T) + v.g.mcpWll = M
  own : ∀ m p x, (v.inp m p x).T = x
  shut : ∀ p, ∀ q ∈ v.ports p, Shut q
  shell : ∀ m p x, ∀ k < v.g.n, (v.inp m p x).uaAmb k = 0
  lids : ∀ m p x, (v.inp m p x).lidTop = 0 ∧ (v.inp m p x).lidBot = 0
  lo_pos : 0 < lo
  conduct : ∀ m p x, (∀ k < v.g.n, a ≤ x k ∧ x k ≤ b) → ∀ j, 0 < j → j < v.g.n →
    lo ≤ uaTb v.mat v.g (v.inp m p x) j ∧ uaTb v.mat v.g (v.inp m p x) j ≤ hi

/-- Specification: the temperatures of part `i` at the beginning of a step. -/
def Temps (s : State (ℕ → ℝ) H N P) (i : ℕ) (x : ℕ → ℝ) : Prop := (s.parts.map PState.prev)[i]? = some x

/-- Specification: mean temperature of the cells. -/
noncomputable def meanTemp (n : ℕ) (x : ℕ → ℝ) : ℝ := (∑ k ∈ range n, x k) / n

/-- Specification: sum of the squared deviations from the mean temperature. -/
noncomputable def spread (n : ℕ) (x : ℕ → ℝ) : ℝ := ∑ k ∈ range n, (x k - meanTemp n x) ^ 2

variable {v : Vessel ℝ H P} {M lo hi a b : ℝ}

theorem euler_eq (hv : Unused v M lo hi a b) (m : H) (p : P) (x : ℕ → ℝ) (h : ℝ) {k : ℕ} (hk : k < v.g.n) :
    (x + h • (v.storage m p x h).dT) k = x k + h / M * net (uaTb v.mat v.g (v.inp m p x)) x k := by
  simp only [Vessel.storage, Pi.add_apply, Pi.smul_apply, smul_eq_mul, if_pos hk]
  rw [storageDT_idle (hv.shut p) (hv.shell m p x) (hv.lids m p x) hk, hv.own, mcp, hv.cap.2]
  ring

theorem sum_euler (hv : Unused v M lo hi a b) (m : H) (p : P) (x : ℕ → ℝ) (h : ℝ) :
    ∑ k ∈ range v.g.n, (v.storage m p x h).dT k = 0 := by
  have h1 : ∀ k ∈ range v.g.n, (v.storage m p x h).dT k = net (uaTb v.mat v.g (v.inp m p x)) x k / M := by
    intro k hk
    have hk := mem_range.1 hk
    simp only [Vessel.storage, if_pos hk]
    rw [storageDT_idle (hv.shut p) (hv.shell m p x) (hv.lids m p x) hk, hv.own, mcp, hv.cap.2]
  rw [sum_congr rfl h1, ← sum_div, sum_net (by simp [uaTb]) (by simp [uaTb]), zero_div]

theorem dev_congr {n : ℕ} {c : ℝ} {x y : ℕ → ℝ} (h : ∀ k < n, x k = y k) : dev n c x = dev n c y :=
  sum_congr rfl fun k hk => by rw [h k (mem_range.1 hk)]

/-- One step of Heun's method. -/
theorem heun_step (hv : Unused v M lo hi a b) {h r : ℝ} (hh : 0 ≤ h) (hr : 2 * h * hi ≤ r * M) (hr1 : r ≤ 1) {x : ℕ → ℝ}
    (hx : ∀ k < v.g.n, a ≤ x k ∧ x k ≤ b) (m m' : H) (p p' : P) :
    let y := x + h • (v.storage m p x h).dT
    let z := x + (h / 2) • ((v.storage m p x h).dT + (v.storage m' p' y h).dT)
    (∀ k < v.g.n, a ≤ z k ∧ z k ≤ b) ∧ ∑ k ∈ range v.g.n, z k = ∑ k ∈ range v.g.n, x k ∧
      spread v.g.n z ≤ (1 - h * lo * (1 - r) / (M * v.g.n ^ 2)) * spread v.g.n x := by
  intro y z
  have hM := hv.cap.1
  obtain ⟨n, hn⟩ : ∃ n, v.g.n = n + 1 := ⟨v.g.n - 1, by have := hv.cells; omega⟩
  have ht : 0 ≤ h / M := div_nonneg hh hM.le
  have hrt : 2 * (h / M) * hi ≤ r := by
    rw [← mul_div_assoc, div_mul_eq_mul_div, div_le_iff₀ hM]
    exact hr
  have hu0 : ∀ s, uaTb v.mat v.g s 0 = 0 := fun s => by simp [uaTb]
  have hun : ∀ s, uaTb v.mat v.g s (n + 1) = 0 := fun s => by simp [uaTb, hn]
  have hy : ∀ k < n + 1, y k = x k + h / M * net (uaTb v.mat v.g (v.inp m p x)) x k := fun k hk =>
    euler_eq hv m p x h (by omega)
  have hcx : ∀ j, 0 < j → j < n + 1 → lo ≤ uaTb v.mat v.g (v.inp m p x) j ∧ uaTb v.mat v.g (v.inp m p x) j ≤ hi :=
    fun j h1 h2 => hv.conduct m p x hx j h1 (by omega)
  have hx' : ∀ k < n + 1, a ≤ x k ∧ x k ≤ b := by rw [← hn]; exact hx
  have hyb : ∀ k < n + 1, a ≤ y k ∧ y k ≤ b := by
    intro k hk
    rw [hy k hk]
    exact step_between (hu0 _) (hun _) ht hv.lo_pos.le hcx (hrt.trans hr1) hx' k hk
  have hyb' : ∀ k < v.g.n, a ≤ y k ∧ y k ≤ b := by rw [hn]; exact hyb
  have hcy : ∀ j, 0 < j → j < n + 1 → lo ≤ uaTb v.mat v.g (v.inp m' p' y) j ∧ uaTb v.mat v.g (v.inp m' p' y) j ≤ hi :=
    fun j h1 h2 => hv.conduct m' p' y hyb' j h1 (by omega)
  set w := y + h • (v.storage m' p' y h).dT with hw
  have hwk : ∀ k < n + 1, w k = y k + h / M * net (uaTb v.mat v.g (v.inp m' p' y)) y k := fun k hk =>
    euler_eq hv m' p' y h (by omega)
  have hwb : ∀ k < n + 1, a ≤ w k ∧ w k ≤ b := by
    intro k hk
    rw [hwk k hk]
    exact step_between (hu0 _) (hun _) ht hv.lo_pos.le hcy (hrt.trans hr1) hyb k hk
  have hz : ∀ k, z k = (x k + w k) / 2 := by
    intro k
    simp only [z, hw, y, Pi.add_apply, Pi.smul_apply, smul_eq_mul]
    ring
  have hsum : ∑ k ∈ range v.g.n, z k = ∑ k ∈ range v.g.n, x k := by
    simp only [z, Pi.add_apply, Pi.smul_apply, smul_eq_mul]
    rw [sum_add_distrib, ← mul_sum, sum_add_distrib, sum_euler hv, sum_euler hv]
    ring
  refine ⟨?_, hsum, ?_⟩
  · intro k hk
    have h1 := hx k hk
    have h2 := hwb k (by omega)
    rw [hz]
    constructor <;> linarith [h1.1, h1.2, h2.1, h2.2]
  · set c := meanTemp v.g.n x with hc
    have hzc : meanTemp v.g.n z = c := by rw [hc, meanTemp, meanTemp, hsum]
    have hs1 : spread v.g.n z = dev (n + 1) c z := by rw [spread, hzc, dev, hn]
    have hs2 : spread v.g.n x = dev (n + 1) c x := by rw [spread, dev, hn, hc, hn]
    rw [hs1, hs2]
    have h1 : dev (n + 1) c z ≤ (dev (n + 1) c x + dev (n + 1) c w) / 2 := by
      rw [dev_congr (y := fun k => (x k + w k) / 2) fun k _ => hz k]
      exact dev_convex _ _ _ _
    have h2 : dev (n + 1) c w ≤ dev (n + 1) c y := by
      rw [dev_congr hwk]
      refine (dev_step (hu0 _) (hun _) ht hv.lo_pos.le hcy hrt hr1).trans ?_
      have : 0 ≤ 2 * (h / M) * (1 - r) * lo * ∑ k ∈ range n, (y (k + 1) - y k) ^ 2 :=
        mul_nonneg (mul_nonneg (mul_nonneg (by linarith) (by linarith)) hv.lo_pos.le)
          (sum_nonneg fun _ _ => sq_nonneg _)
      linarith
    have h3 : dev (n + 1) c y ≤ dev (n + 1) c x - 2 * (h / M) * (1 - r) * lo * ∑ k ∈ range n, (x (k + 1) - x k) ^ 2 := by
      rw [dev_congr hy]
      exact dev_step (hu0 _) (hun _) ht hv.lo_pos.le hcx hrt hr1
    have h4 : dev (n + 1) c x ≤ ((n + 1 : ℕ) : ℝ) ^ 2 * ∑ k ∈ range n, (x (k + 1) - x k) ^ 2 := by
      have : c = mean (n + 1) x := by rw [hc, meanTemp, mean, hn]
      rw [this]
      exact dev_mean_le_diff
    have hn0 : (0 : ℝ) < ((n + 1 : ℕ) : ℝ) ^ 2 := by positivity
    have h5 : h * lo * (1 - r) / (M * (v.g.n : ℝ) ^ 2) * dev (n + 1) c x ≤
        (h / M) * (1 - r) * lo * ∑ k ∈ range n, (x (k + 1) - x k) ^ 2 := by
      rw [hn]
      have h6 : h * lo * (1 - r) / (M * ((n + 1 : ℕ) : ℝ) ^ 2) = (h / M) * (1 - r) * lo / ((n + 1 : ℕ) : ℝ) ^ 2 := by
        field_simp
      rw [h6, div_mul_eq_mul_div, div_le_iff₀ hn0]
      calc h / M * (1 - r) * lo * dev (n + 1) c x
          ≤ h / M * (1 - r) * lo * (((n + 1 : ℕ) : ℝ) ^ 2 * ∑ k ∈ range n, (x (k + 1) - x k) ^ 2) :=
            mul_le_mul_of_nonneg_left h4 (mul_nonneg (mul_nonneg ht (by linarith)) hv.lo_pos.le)
        _ = _ := by ring
    nlinarith

theorem rate_le (hv : Unused v M lo hi a b) {h r : ℝ} (hh : 0 ≤ h) (hr : 2 * h * hi ≤ r * M) (hr1 : r ≤ 1) {x : ℕ → ℝ}
    (hx : ∀ k < v.g.n, a ≤ x k ∧ x k ≤ b) (m : H) (p : P) : h * lo * (1 - r) ≤ M * v.g.n ^ 2 := by
  have hM := hv.cap.1
  have h1 := hv.conduct m p x hx 1 (by omega) (by have := hv.cells; omega)
  have h2 : h * lo * (1 - r) ≤ h * hi * (1 - r) :=
    mul_le_mul_of_nonneg_right (mul_le_mul_of_nonneg_left (h1.1.trans h1.2) hh) (by linarith)
  have h3 : h * hi * (1 - r) ≤ r * M / 2 * (1 - r) := mul_le_mul_of_nonneg_right (by linarith) (by linarith)
  have h4 : r * M / 2 * (1 - r) ≤ M := by nlinarith [mul_nonneg hM.le (sq_nonneg (r - 1 / 2))]
  have h5 : (1 : ℝ) ≤ (v.g.n : ℝ) ^ 2 := by
    have : (2 : ℝ) ≤ v.g.n := by exact_mod_cast hv.cells
    nlinarith
  have h6 := mul_le_mul_of_nonneg_left h5 hM.le
  linarith

/-- Specification: the accepted steps `l` of a simulation that starts in `s`: stable, not shorter than `h₀`, and of a
length that changes a cell by at most the share `r` of the difference to its neighbours. -/
structure Steps (sys : System ℝ (ℕ → ℝ) H N P) (s : State (ℕ → ℝ) H N P) (l : List (List ℝ × ℝ)) (M hi h₀ r : ℝ) :
    Prop where
  len : ∀ c ∈ l, h₀ ≤ c.2 ∧ 2 * c.2 * hi ≤ r * M
  stable : ∀ (l₁ : List (List ℝ × ℝ)) c l₂, l = l₁ ++ c :: l₂ → (call sys (simulate sys s l₁) c.1 c.2).stable = true

theorem Steps.tail {sys : System ℝ (ℕ → ℝ) H N P} {s : State (ℕ → ℝ) H N P} {c : List ℝ × ℝ} {l : List (List ℝ × ℝ)}
    {h₀ r : ℝ} (hl : Steps sys s (c :: l) M hi h₀ r) : Steps sys (advance (call sys s c.1 c.2)) l M hi h₀ r :=
  ⟨fun c' hc => hl.len c' (List.mem_cons_of_mem _ hc), fun l₁ c' l₂ he => by
    have := hl.stable (c :: l₁) c' l₂ (by rw [he]; rfl)
    exact this⟩

/-- **C167**, partial: an insulated storage that is not used, in whatever plant, keeps the sum of its temperatures, and
so its energy, and its extremes, and evens out: with every step the deviations from the mean fall by a factor that
depends on the conductance, the capacity and the number of cells only.  Missing: the heat capacity has to be the same
at all temperatures (`C167_fails_capacity`), and the steps shorter than the limit of stability
(`C167_fails_long_step`). -/
theorem C167_evens_out_partial {sys : System ℝ (ℕ → ℝ) H N P} {i : ℕ} (hd : sys.diffs[i]? = some v.storage)
    (hv : Unused v M lo hi a b) {h₀ r : ℝ} (hh : 0 ≤ h₀) (hr1 : r ≤ 1) (l : List (List ℝ × ℝ)) :
    ∀ {s : State (ℕ → ℝ) H N P}, Steps sys s l M hi h₀ r → ∀ {x : ℕ → ℝ}, Temps s i x →
      (∀ k < v.g.n, a ≤ x k ∧ x k ≤ b) →
      ∃ y, Temps (simulate sys s l) i y ∧ (∀ k < v.g.n, a ≤ y k ∧ y k ≤ b) ∧
        ∑ k ∈ range v.g.n, M * y k = ∑ k ∈ range v.g.n, M * x k ∧
        spread v.g.n y ≤ (1 - h₀ * lo * (1 - r) / (M * v.g.n ^ 2)) ^ l.length * spread v.g.n x := by
  induction l with
  | nil => intro s _ x hx hb; exact ⟨x, hx, hb, rfl, by simp⟩
  | cons c l ih =>
    intro s hl x hx hb
    have hc := hl.len c List.mem_cons_self
    obtain ⟨m, p, m', p', h1⟩ := call_part hd hx (hl.stable [] c l rfl)
    obtain ⟨h2, h3, h4⟩ := heun_step hv (hh.trans hc.1) hc.2 hr1 hb m m' p p'
    obtain ⟨y, h5, h6, h7, h8⟩ := ih hl.tail h1 h2
    refine ⟨y, h5, h6, ?_, ?_⟩
    · rw [h7, ← mul_sum, ← mul_sum, h3]
    · refine h8.trans ?_
      rw [List.length_cons, pow_succ (n := l.length), mul_assoc (_ ^ l.length)]
      have hM := hv.cap.1
      have hn : (0 : ℝ) < v.g.n := by exact_mod_cast (by have := hv.cells; omega : 0 < v.g.n)
      have hden : 0 < M * (v.g.n : ℝ) ^ 2 := by positivity
      have hq0 : 0 ≤ 1 - h₀ * lo * (1 - r) / (M * (v.g.n : ℝ) ^ 2) := by
        rw [sub_nonneg, div_le_one hden]
        refine le_trans ?_ (rate_le hv (hh.trans hc.1) hc.2 hr1 hb m p)
        exact mul_le_mul_of_nonneg_right (mul_le_mul_of_nonneg_right hc.1 hv.lo_pos.le) (by linarith)
      apply mul_le_mul_of_nonneg_left _ (pow_nonneg hq0 _)
      refine h4.trans ?_
      apply mul_le_mul_of_nonneg_right _ (sum_nonneg fun _ _ => sq_nonneg _)
      apply sub_le_sub_left
      apply div_le_div_of_nonneg_right _ hden.le
      apply mul_le_mul_of_nonneg_right _ (by linarith)
      exact mul_le_mul_of_nonneg_right hc.1 hv.lo_pos.le

/-- **C167**, partial: with steps that do not become arbitrarily short and stay below the limit of stability by a fixed
share, all cells approach the mean of the temperatures at the beginning. -/
theorem C167_limit_partial {sys : System ℝ (ℕ → ℝ) H N P} {i : ℕ} (hd : sys.diffs[i]? = some v.storage)
    (hv : Unused v M lo hi a b) {h₀ r : ℝ} (hh : 0 < h₀) (hr1 : r < 1) {s : State (ℕ → ℝ) H N P} {x : ℕ → ℝ}
    (hx : Temps s i x) (hb : ∀ k < v.g.n, a ≤ x k ∧ x k ≤ b)
    (c : ℕ → List ℝ × ℝ) (hl : ∀ j, Steps sys s ((List.range j).map c) M hi h₀ r) :
    ∃ T : ℕ → ℕ → ℝ, (∀ j, Temps (simulate sys s ((List.range j).map c)) i (T j)) ∧
      ∀ k < v.g.n, Tendsto (fun j => T j k) atTop (𝓝 (meanTemp v.g.n x)) := by
  have h1 := fun j => C167_evens_out_partial hd hv hh.le hr1.le _ (hl j) hx hb
  choose T hT _ hsum hsp using h1
  refine ⟨T, hT, fun k hk => ?_⟩
  have hM := hv.cap.1
  have hn : (0 : ℝ) < v.g.n := by exact_mod_cast (by have := hv.cells; omega : 0 < v.g.n)
  have hden : 0 < M * (v.g.n : ℝ) ^ 2 := by positivity
  set q := 1 - h₀ * lo * (1 - r) / (M * (v.g.n : ℝ) ^ 2) with hqd
  have hq0 : 0 ≤ q := by
    obtain ⟨m, p, -, -, -⟩ := call_part hd hx ((hl 1).stable [] (c 0) [] (by simp))
    have hc := (hl 1).len (c 0) (by simp)
    rw [hqd, sub_nonneg, div_le_one hden]
    refine le_trans ?_ (rate_le hv (hh.le.trans hc.1) hc.2 hr1.le hb m p)
    exact mul_le_mul_of_nonneg_right (mul_le_mul_of_nonneg_right hc.1 hv.lo_pos.le) (by linarith)
  have hq1 : q < 1 := by
    have : 0 < h₀ * lo * (1 - r) / (M * (v.g.n : ℝ) ^ 2) :=
      div_pos (mul_pos (mul_pos hh hv.lo_pos) (by linarith)) hden
    linarith
  have hmean : ∀ j, meanTemp v.g.n (T j) = meanTemp v.g.n x := by
    intro j
    have := hsum j
    rw [← mul_sum, ← mul_sum] at this
    rw [meanTemp, meanTemp, mul_left_cancel₀ hM.ne' this]
  have hsq : ∀ j, (T j k - meanTemp v.g.n x) ^ 2 ≤ q ^ j * spread v.g.n x := by
    intro j
    have h2 : (T j k - meanTemp v.g.n x) ^ 2 ≤ spread v.g.n (T j) := by
      rw [spread, hmean j]
      exact single_le_sum (f := fun k => (T j k - meanTemp v.g.n x) ^ 2) (fun _ _ => sq_nonneg _) (mem_range.2 hk)
    have h3 := hsp j
    rw [List.length_map, List.length_range] at h3
    exact h2.trans h3
  have hlim : Tendsto (fun j => q ^ j * spread v.g.n x) atTop (𝓝 0) := by
    have := (tendsto_pow_atTop_nhds_zero_of_lt_one hq0 hq1).mul_const (spread v.g.n x)
    rwa [zero_mul] at this
  have h5 : Tendsto (fun j => (T j k - meanTemp v.g.n x) ^ 2) atTop (𝓝 0) :=
    squeeze_zero (fun _ => sq_nonneg _) hsq hlim
  have h6 : Tendsto (fun j => |T j k - meanTemp v.g.n x|) atTop (𝓝 0) := by
    have := (Real.continuous_sqrt.tendsto 0).comp h5
    rw [Real.sqrt_zero] at this
    refine this.congr fun j => ?_
    exact Real.sqrt_sq_eq_abs _
  have h7 := (tendsto_zero_iff_abs_tendsto_zero _).2 h6
  have h8 := h7.add_const (meanTemp v.g.n x)
  simpa using h8

/-! ## A plant that consists of one storage -/

/-- Two cells of volume 1, density 1, conductivity 1 and specific heat `cp`, one port that is shut. -/
noncomputable def twoCells (cp : ℝ → ℝ) : Vessel ℝ Unit Unit where
  mat := ⟨cp, fun _ => 1, fun _ => 1⟩
  g := ⟨2, 1, 1, 1, 0, 0⟩
  inp := fun _ _ x => ⟨x, 0, 0, 0, fun _ => 0, 0, 0, fun _ => 1⟩
  ports := fun _ => [⟨0, 0, 0, 1, 0, 0⟩]
  upd := fun _ _ _ => ()
  check := fun _ _ _ _ => true

/-- The plant. -/
noncomputable def alone (cp : ℝ → ℝ) : System ℝ (ℕ → ℝ) Unit Unit Unit where
  diffs := [(twoCells cp).storage]
  solves := []
  interm := fun _ _ _ => ()
  result := fun _ _ _ => ()

/-- The upper cell is warm. -/
noncomputable def start : State (ℕ → ℝ) Unit Unit Unit :=
  ⟨[⟨fun k => if k = 0 then 1 else 0, 0, 0, 0, 0, ()⟩], [], (), true⟩

theorem twoCells_ua (cp : ℝ → ℝ) (x : ℕ → ℝ) (j : ℕ) :
    uaTb (twoCells cp).mat (twoCells cp).g ((twoCells cp).inp () () x) j = if j = 0 ∨ j = 2 then 0 else 1 := by
  simp [uaTb, twoCells, lamMean]
  norm_num

theorem twoCells_unused (a b : ℝ) : Unused (twoCells fun _ => 1) 1 1 1 a b where
  cells := le_refl 2
  cap := ⟨one_pos, fun _ => by simp [twoCells]⟩
  own := fun _ _ _ => rfl
  shut := fun _ q hq => by
    simp only [twoCells, List.mem_singleton] at hq
    subst hq
    exact ⟨rfl, rfl, rfl⟩
  shell := fun _ _ _ _ _ => rfl
  lids := fun _ _ _ => ⟨rfl, rfl⟩
  lo_pos := one_pos
  conduct := fun _ _ x _ j h1 h2 => by
    have h2 : j < 2 := h2
    rw [twoCells_ua, if_neg (by omega)]
    exact ⟨le_rfl, le_rfl⟩

theorem alone_stable (cp : ℝ → ℝ) (s : State (ℕ → ℝ) Unit Unit Unit) (hs : List ℝ) (h : ℝ) :
    (call (alone cp) s hs h).stable = true := by
  rw [call]
  set t := hs.foldl (fun st h' => rejected (alone cp) s.ports h' st) s
  have : (predict t.ports h (alone cp).diffs t.parts).2 = true := by
    cases hp : t.parts with
    | nil => rfl
    | cons st ss => simp [alone, predict, Vessel.storage, twoCells]
  rw [attempt, if_pos this]
  rfl

theorem alone_steps {h : ℝ} {r : ℝ} (hr : 2 * h ≤ r) (s : State (ℕ → ℝ) Unit Unit Unit) (l : List (List ℝ × ℝ))
    (hl : ∀ c ∈ l, c.2 = h) : Steps (alone fun _ => 1) s l 1 1 h r :=
  ⟨fun c hc => by rw [hl c hc]; exact ⟨le_rfl, by linarith⟩, fun _ c _ _ => alone_stable _ _ c.1 c.2⟩

/-- The hypotheses can be met: steps of a quarter of the time constant, each after a rejected attempt. -/
example : ∃ T : ℕ → ℕ → ℝ,
    (∀ j, Temps (simulate (alone fun _ => 1) start ((List.range j).map fun _ => ([1 / 2], 1 / 4))) 0 (T j)) ∧
      ∀ k < 2, Tendsto (fun j => T j k) atTop (𝓝 (1 / 2)) := by
  have hm : meanTemp 2 (fun k => if k = 0 then (1 : ℝ) else 0) = 1 / 2 := by
    simp [meanTemp]
  have := C167_limit_partial (sys := alone fun _ => 1) (i := 0) rfl (twoCells_unused 0 1) (h₀ := 1 / 4) (r := 1 / 2)
    (by norm_num) (by norm_num) (s := start) (x := fun k => if k = 0 then 1 else 0) rfl
    (fun k _ => by split_ifs <;> norm_num) (fun _ => ([1 / 2], 1 / 4))
    (fun j => alone_steps (by norm_num) _ _ (by
      intro c hc
      obtain ⟨_, _, rfl⟩ := List.mem_map.1 hc
      rfl))
  obtain ⟨T, h1, h2⟩ := this
  exact ⟨T, h1, fun k hk => hm ▸ h2 k hk⟩

theorem twoCells_dT (cp : ℝ → ℝ) (m p : Unit) (x : ℕ → ℝ) (h : ℝ) :
    ((twoCells cp).storage m p x h).dT = fun k =>
      if k = 0 then (x 1 - x 0) / cp (x 0) else if k = 1 then (x 0 - x 1) / cp (x 1) else 0 := by
  funext k
  simp only [Vessel.storage]
  by_cases hk : k < 2
  · rw [if_pos (show k < (twoCells cp).g.n from hk)]
    rw [storageDT_idle (fun q hq => by
      simp only [twoCells, List.mem_singleton] at hq
      subst hq
      exact ⟨rfl, rfl, rfl⟩) (fun _ _ => rfl) ⟨rfl, rfl⟩ hk]
    rw [net, flux, flux, twoCells_ua, twoCells_ua]
    interval_cases k
    · simp [mcp, twoCells]
    · simp [mcp, twoCells]
  · rw [if_neg (show ¬ k < (twoCells cp).g.n from hk), if_neg (by omega), if_neg (by omega)]

/-- **C167** fails with a step of twice the time constant of the cells, which the stability check would reject: the
deviations from the mean grow to the 25-fold. -/
theorem C167_fails_long_step : ∃ (v : Vessel ℝ Unit Unit) (sys : System ℝ (ℕ → ℝ) Unit Unit Unit)
    (s : State (ℕ → ℝ) Unit Unit Unit) (x y : ℕ → ℝ), sys.diffs[0]? = some v.storage ∧ Unused v 1 1 1 0 1 ∧
      Temps s 0 x ∧ (∀ k < v.g.n, 0 ≤ x k ∧ x k ≤ 1) ∧ (call sys s [] 2).stable = true ∧
      Temps (simulate sys s [([], 2)]) 0 y ∧ 0 < spread v.g.n x ∧ spread v.g.n y = 25 * spread v.g.n x := by
  obtain ⟨m, p, m', p', h⟩ := call_part (sys := alone fun _ => 1) (s := start) (i := 0) rfl
    (x := fun k => if k = 0 then 1 else 0) rfl (alone_stable _ _ [] 2)
  refine ⟨twoCells fun _ => 1, alone fun _ => 1, start, _, _, rfl, twoCells_unused 0 1, rfl, ?_, alone_stable _ _ _ _,
    h, ?_, ?_⟩
  · intro k _
    dsimp only
    split_ifs <;> norm_num
  · simp [spread, meanTemp, twoCells, sum_range_succ]
    norm_num
  · simp only [twoCells_dT]
    simp [spread, meanTemp, twoCells, sum_range_succ]
    norm_num

/-- **C167** fails if the heat capacity depends on the temperature: the energy, the integral of the heat capacity,
changes although nothing leaves or enters the storage. -/
theorem C167_fails_capacity : ∃ (v : Vessel ℝ Unit Unit) (sys : System ℝ (ℕ → ℝ) Unit Unit Unit)
    (s : State (ℕ → ℝ) Unit Unit Unit) (x y : ℕ → ℝ) (E : ℝ → ℝ), sys.diffs[0]? = some v.storage ∧
      (∀ p, ∀ q ∈ v.ports p, Shut q) ∧ (∀ m p x, ∀ k < v.g.n, (v.inp m p x).uaAmb k = 0) ∧
      (∀ m p x, (v.inp m p x).lidTop = 0 ∧ (v.inp m p x).lidBot = 0) ∧
      (∀ T, HasDerivAt E (v.g.vCell * (v.mat.rho T * v.mat.cp T) + v.g.mcpWll) T) ∧
      Temps s 0 x ∧ (∀ k < v.g.n, 0 ≤ x k ∧ x k ≤ 1) ∧ (call sys s [] (1 / 4)).stable = true ∧
      Temps (simulate sys s [([], 1 / 4)]) 0 y ∧ ∑ k ∈ range v.g.n, E (x k) < ∑ k ∈ range v.g.n, E (y k) := by
  obtain ⟨m, p, m', p', h⟩ := call_part (sys := alone fun T => 1 + T) (s := start) (i := 0) rfl
    (x := fun k => if k = 0 then 1 else 0) rfl (alone_stable _ _ [] (1 / 4))
  refine ⟨twoCells fun T => 1 + T, alone fun T => 1 + T, start, _, _, fun T => T + T ^ 2 / 2, rfl, ?_,
    fun _ _ _ _ _ => rfl, fun _ _ _ => ⟨rfl, rfl⟩, ?_, rfl, ?_, alone_stable _ _ _ _, h, ?_⟩
  · intro _ q hq
    simp only [twoCells, List.mem_singleton] at hq
    subst hq
    exact ⟨rfl, rfl, rfl⟩
  · intro T
    refine ((hasDerivAt_id T).add ((hasDerivAt_pow 2 T).div_const 2)).congr_deriv ?_
    simp [twoCells]
  · intro k _
    dsimp only
    split_ifs <;> norm_num
  · simp only [twoCells_dT]
    simp [twoCells, sum_range_succ]
    norm_num

end Verif.Idle
