import Verif.Props.Idle
import Verif.Props.Cooling
import Verif.Lemmas.Plug

/-!
# C169: a change of the inlet temperature arrives at the end of a pipe after its transit time
-/

set_option linter.unusedSectionVars false

namespace Verif.Arrival

open Finset Filter Topology Verif.Cells Verif.Flows Verif.Attempt Verif.Idle Verif.Plug

/-! ## One part of a plant -/

section Part

variable {K X H N P : Type*} [Field K] [AddCommGroup X] [Module K X]

/-- A property of the ports that every update of the ports keeps. -/
def Kept (sys : System K X H N P) (Bp : P → Prop) : Prop :=
  (∀ xs ns p, Bp p → Bp (sys.interm xs ns p)) ∧ ∀ xs ns p, Bp p → Bp (sys.result xs ns p)

/-- A solver call does Heun's step in each part, with ports that have the property. -/
theorem call_part_kept {sys : System K X H N P} {s : State X H N P} {i : ℕ} {d : Diff K X H P} {x : X} {Bp : P → Prop}
    (hB : Kept sys Bp) (hs0 : Bp s.ports) (hd : sys.diffs[i]? = some d) (hx : (s.parts.map PState.prev)[i]? = some x)
    {hs : List K} {h : K} (hst : (call sys s hs h).stable = true) :
    Bp (advance (call sys s hs h)).ports ∧
    ∃ m p m' p', Bp p ∧ Bp p' ∧ ((advance (call sys s hs h)).parts.map PState.prev)[i]? =
      some (x + (h / 2) • ((d m p x h).dT + (d m' p' (x + h • (d m p x h).dT) h).dT)) := by
  have key : ∀ (l : List K) (t : State X H N P), t.ports = s.ports → (t.parts.map PState.prev)[i]? = some x →
      (l.foldl (fun st h' => rejected sys s.ports h' st) t).ports = s.ports ∧
      ((l.foldl (fun st h' => rejected sys s.ports h' st) t).parts.map PState.prev)[i]? = some x := by
    intro l
    induction l with
    | nil => intro t h1 ht; exact ⟨h1, ht⟩
    | cons a l ih =>
      intro t h1 ht
      apply ih
      · rfl
      · rw [← ht]
        exact congrArg (fun l => l[i]?) (attempt_prev sys a t)
  obtain ⟨hpt, h0⟩ := key hs s rfl hx
  rw [call] at hst ⊢
  set t := hs.foldl (fun st h' => rejected sys s.ports h' st) s with ht
  rw [List.getElem?_map] at h0
  obtain ⟨st, h1, h2⟩ := Option.map_eq_some_iff.1 h0
  have hpred : (predict t.ports h sys.diffs t.parts).2 = true := by
    by_contra hb
    rw [attempt, if_neg hb] at hst
    cases hst
  have h3 := predict_getElem? hpred hd h1
  have hat : attempt sys h t = finish sys h (predict t.ports h sys.diffs t.parts).1 t.nonnum t.ports := by
    rw [attempt, if_pos hpred]
  have hp0 : Bp t.ports := by rw [hpt]; exact hs0
  set p' := sys.interm ((predict t.ports h sys.diffs t.parts).1.map PState.T)
    (solveAll t.ports h sys.solves t.nonnum) t.ports with hp'
  have hp1 : Bp p' := hB.1 _ _ _ hp0
  have h4 := correct_getElem? (ports := p') (h := h) hd h3
  refine ⟨?_, st.mem, t.ports, (predict1 t.ports h d st).mem, p', hp0, hp1, ?_⟩
  · rw [hat]
    exact hB.2 _ _ _ hp1
  · have h5 : (advance (attempt sys h t)).parts.map PState.prev =
        (correct p' h sys.diffs (predict t.ports h sys.diffs t.parts).1).map PState.res := by
      rw [hat, advance, finish, List.map_map]
      rfl
    rw [h5, List.getElem?_map, h4]
    simp only [Option.map_some, correct1, predict1, h2]

end Part

/-! ## Cells in the order of the flow -/

variable {H N P : Type*}

/-- Specification: the share of a change from `T0` to `Tin` that has not yet reached a place of temperature `T`. -/
noncomputable def missing (T0 Tin T : ℝ) : ℝ := (Tin - T) / (Tin - T0)

/-- Specification: the cell that the water reaches at place `k + 1` on its way from the first cell to the last, or,
if it flows `up`, from the last one to the first. -/
def cellAt (up : Bool) (n k : ℕ) : ℕ := if up then n - 1 - k else k

/-- The shares of the inlet and the cells. -/
noncomputable def shares (up : Bool) (n : ℕ) (T0 Tin : ℝ) (x : ℕ → ℝ) (k : ℕ) : ℝ :=
  if k = 0 then 0 else missing T0 Tin (x (cellAt up n (k - 1)))

/-- What the proof needs to know about a differential. -/
structure Along (d : Diff ℝ (ℕ → ℝ) H P) (up : Bool) (n : ℕ) (Bp : P → Prop) (M W hi G Tin a b : ℝ) : Prop where
  cells : 1 ≤ n
  cap : 0 < M
  flow : 0 < W
  small : 0 ≤ G ∧ G ≤ hi
  rate : ∀ m p x h, Bp p → (∀ k < n, a ≤ x k ∧ x k ≤ b) → ∃ γ, Faces n hi γ ∧ γ 1 ≤ G ∧ ∀ k < n,
    (d m p x h).dT (cellAt up n k) =
      ((γ (k + 1) + W) * ((if k = 0 then Tin else x (cellAt up n (k - 1))) - x (cellAt up n k)) +
        γ (k + 2) * (x (cellAt up n (k + 1)) - x (cellAt up n k))) / M

variable {d : Diff ℝ (ℕ → ℝ) H P} {up : Bool} {n : ℕ} {Bp : P → Prop} {M W hi G Tin T0 a b : ℝ}

theorem shares_euler {x y γ : ℕ → ℝ} (h : ℝ)
    (hr : ∀ k < n, y (cellAt up n k) =
      ((γ (k + 1) + W) * ((if k = 0 then Tin else x (cellAt up n (k - 1))) - x (cellAt up n k)) +
        γ (k + 2) * (x (cellAt up n (k + 1)) - x (cellAt up n k))) / M) {k : ℕ} (hk : k ≤ n) :
    shares up n T0 Tin (x + h • y) k = euler W (h / M) γ (shares up n T0 Tin x) k := by
  rcases Nat.eq_zero_or_pos k with rfl | h0
  · simp [shares, euler]
  obtain ⟨k, rfl⟩ : ∃ j, k = j + 1 := ⟨k - 1, by omega⟩
  rw [euler, if_neg (by omega), shares, if_neg (by omega), Nat.add_sub_cancel, Pi.add_apply, Pi.smul_apply, smul_eq_mul,
    hr k hk]
  have s1 : shares up n T0 Tin x k = missing T0 Tin (if k = 0 then Tin else x (cellAt up n (k - 1))) := by
    unfold shares
    split_ifs
    · simp [missing]
    · rfl
  have s2 : ∀ j, shares up n T0 Tin x (j + 1) = missing T0 Tin (x (cellAt up n j)) := fun j => by simp [shares]
  rw [s1, s2 k, s2 (k + 1)]
  unfold missing
  ring

/-- What a state has to be for the next step. -/
theorem in_range {x : ℕ → ℝ} (hne : T0 ≠ Tin) (ha : a ≤ T0 ∧ a ≤ Tin) (hb : T0 ≤ b ∧ Tin ≤ b)
    (ho : Ordered n (shares up n T0 Tin x)) (h1 : shares up n T0 Tin x n ≤ 1) : ∀ k < n, a ≤ x k ∧ x k ≤ b := by
  intro c hc
  obtain ⟨k, hk, rfl⟩ : ∃ k, k < n ∧ cellAt up n k = c := by
    unfold cellAt
    cases up
    · exact ⟨c, hc, rfl⟩
    · exact ⟨n - 1 - c, by omega, by simp; omega⟩
  have p0 := ho.nonneg (k := k + 1) (by omega)
  have p1 := (ho.le (j := k + 1) (by omega) le_rfl).trans h1
  have e : x (cellAt up n k) = Tin - shares up n T0 Tin x (k + 1) * (Tin - T0) := by
    have : Tin - T0 ≠ 0 := sub_ne_zero.2 hne.symm
    simp only [shares, missing, if_neg (Nat.succ_ne_zero k), Nat.add_sub_cancel]
    rw [div_mul_cancel₀ _ this]
    ring
  set q := shares up n T0 Tin x (k + 1)
  have e' : x (cellAt up n k) = (1 - q) * Tin + q * T0 := by rw [e]; ring
  rw [e']
  constructor
  · nlinarith [mul_nonneg p0 (sub_nonneg.2 ha.1), mul_nonneg (sub_nonneg.2 p1) (sub_nonneg.2 ha.2)]
  · nlinarith [mul_nonneg p0 (sub_nonneg.2 hb.1), mul_nonneg (sub_nonneg.2 p1) (sub_nonneg.2 hb.2)]

/-- A predictor step only looks at the cells of the pipe. -/
theorem euler_agree {n : ℕ} {W t hi : ℝ} {γ f g : ℕ → ℝ} (hγ : Faces n hi γ) (he : ∀ k ≤ n, f k = g k) {k : ℕ}
    (hk : k ≤ n) : euler W t γ f k = euler W t γ g k := by
  unfold euler
  rw [he k hk, he (k - 1) (by omega)]
  rcases Nat.lt_or_ge k n with h | h
  · rw [he (k + 1) h]
  · rw [show k + 1 = n + 1 by omega, hγ.2, zero_mul, zero_mul]

/-- One accepted step. -/
theorem heun_step (hv : Along d up n Bp M W hi G Tin a b) (hne : T0 ≠ Tin) (ha : a ≤ T0 ∧ a ≤ Tin)
    (hb : T0 ≤ b ∧ Tin ≤ b) {h : ℝ} (hh : 0 ≤ h) (hs : h * (W + 2 * hi) ≤ M) {x : ℕ → ℝ}
    (hx : Ordered n (shares up n T0 Tin x)) (h1 : shares up n T0 Tin x n ≤ 1) {m m' : H} {p p' : P} (hp : Bp p)
    (hp' : Bp p') {z : ℕ → ℝ}
    (hz : z = x + (h / 2) • ((d m p x h).dT + (d m' p' (x + h • (d m p x h).dT) h).dT)) :
    Ordered n (shares up n T0 Tin z) ∧ ∃ o, shares up n T0 Tin z n ≤ o ∧ o ≤ shares up n T0 Tin x n ∧
      h / M * W * o ≤ total n (shares up n T0 Tin x) - total n (shares up n T0 Tin z) ∧
      total n (shares up n T0 Tin x) - total n (shares up n T0 Tin z) ≤ h / M * (W + G) * o := by
  have hM := hv.cap
  have ht : 0 ≤ h / M := div_nonneg hh hM.le
  have hts : h / M * (W + 2 * hi) ≤ 1 := by rw [div_mul_eq_mul_div, div_le_one hM]; exact hs
  obtain ⟨γ, fx, gx, rx⟩ := hv.rate m p x h hp (in_range hne ha hb hx h1)
  set y := x + h • (d m p x h).dT with hy
  have ey : ∀ k ≤ n, shares up n T0 Tin y k = euler W (h / M) γ (shares up n T0 Tin x) k := fun k hk =>
    shares_euler h rx hk
  have oy' := euler_ordered hv.flow.le ht hts fx hx
  have oy : Ordered n (shares up n T0 Tin y) := by
    refine ⟨by simp [shares], fun k hk => ?_⟩
    rw [ey k hk.le, ey (k + 1) hk]
    exact oy'.2 k hk
  have ly : shares up n T0 Tin y n ≤ 1 := by
    rw [ey _ le_rfl]
    exact (euler_last hv.flow.le ht fx hx hv.cells).trans h1
  obtain ⟨γ', fy, gy, ry⟩ := hv.rate m' p' y h hp' (in_range hne ha hb oy ly)
  refine heun hv.flow.le ht hts fx fy ⟨gx, gy⟩ hx hv.cells fun k hk => ?_
  have e1 : z = (1 / 2 : ℝ) • (x + (y + h • (d m' p' y h).dT)) := by
    rw [hz, hy]
    funext k
    simp only [Pi.add_apply, Pi.smul_apply, smul_eq_mul]
    ring
  have e2 : shares up n T0 Tin z k =
      (shares up n T0 Tin x k + shares up n T0 Tin (y + h • (d m' p' y h).dT) k) / 2 := by
    rw [e1]
    unfold shares missing
    split_ifs
    · ring
    · simp only [Pi.add_apply, Pi.smul_apply, smul_eq_mul]
      ring
  rw [e2, shares_euler h ry hk, euler_agree fy ey hk]

/-- Specification: the accepted steps of a simulation that starts in `s`: stable, not shorter than `h₀`, not longer
than `hmax`, and short enough for the flow and conduction through a cell. -/
structure Steps (sys : System ℝ (ℕ → ℝ) H N P) (s : State (ℕ → ℝ) H N P) (c : ℕ → List ℝ × ℝ) (M W hi h₀ hmax : ℝ) :
    Prop where
  pos : 0 < h₀
  len : ∀ j, h₀ ≤ (c j).2 ∧ (c j).2 ≤ hmax ∧ (c j).2 * (W + 2 * hi) ≤ M
  stable : ∀ j, (call sys (simulate sys s ((List.range j).map c)) (c j).1 (c j).2).stable = true

theorem simulate_snoc {K X : Type*} [Field K] [AddCommGroup X] [Module K X] (sys : System K X H N P)
    (s : State X H N P) (l : List (List K × K)) (c : List K × K) :
    simulate sys s (l ++ [c]) = advance (call sys (simulate sys s l) c.1 c.2) := by
  induction l generalizing s with
  | nil => rfl
  | cons c l ih => exact ih _

/-- Specification: at cell `last` of part `i` the temperature approaches `Tin` monotonically from `T0`; the change
arrives on average (sum over all steps of their length times the share of the change that is missing) after a time
between `lo` and `hi`. -/
def Arrives (sys : System ℝ (ℕ → ℝ) H N P) (s : State (ℕ → ℝ) H N P) (c : ℕ → List ℝ × ℝ) (i : ℕ) (T0 Tin : ℝ)
    (last : ℕ) (lo hi : ℝ) : Prop :=
  ∃ T : ℕ → ℕ → ℝ, (∀ j, Temps (simulate sys s ((List.range j).map c)) i (T j)) ∧
    Antitone (fun j => missing T0 Tin (T j last)) ∧
    (∀ j, 0 ≤ missing T0 Tin (T j last) ∧ missing T0 Tin (T j last) ≤ 1) ∧
    Tendsto (fun j => T j last) atTop (𝓝 Tin) ∧
    ∃ τ, HasSum (fun j => (c j).2 * missing T0 Tin (T j last)) τ ∧ lo ≤ τ ∧ τ ≤ hi

/-- The change arrives. -/
theorem along_arrival {sys : System ℝ (ℕ → ℝ) H N P} {i : ℕ} (hd : sys.diffs[i]? = some d)
    (hB : Kept sys Bp) (hv : Along d up n Bp M W hi G Tin a b) (hne : T0 ≠ Tin) (ha : a ≤ T0 ∧ a ≤ Tin)
    (hb : T0 ≤ b ∧ Tin ≤ b) {s : State (ℕ → ℝ) H N P} (hs : Bp s.ports) (h0 : Temps s i fun _ => T0)
    {c : ℕ → List ℝ × ℝ} {h₀ hmax : ℝ} (hc : Steps sys s c M W hi h₀ hmax) :
    Arrives sys s c i T0 Tin (cellAt up n (n - 1)) (n * M / (W + G)) (n * M / W + hmax) := by
  have hn := hv.cells
  have hd0 : Tin - T0 ≠ 0 := sub_ne_zero.2 hne.symm
  have main : ∀ j, ∃ x, Temps (simulate sys s ((List.range j).map c)) i x ∧
      Bp (simulate sys s ((List.range j).map c)).ports ∧ Ordered n (shares up n T0 Tin x) ∧
      shares up n T0 Tin x n ≤ 1 ∧ (j = 0 → x = fun _ => T0) := by
    intro j
    induction j with
    | zero =>
      have e : ∀ k, shares up n T0 Tin (fun _ => T0) (k + 1) = 1 := fun k => by
        simp [shares, missing, div_self hd0]
      refine ⟨fun _ => T0, h0, hs, ⟨by simp [shares], fun k _ => ?_⟩, ?_, fun _ => rfl⟩
      · rw [e]
        rcases Nat.eq_zero_or_pos k with rfl | h
        · simp [shares]
        · rw [← Nat.sub_add_cancel h, e]
      · obtain ⟨k, hk⟩ : ∃ k, n = k + 1 := ⟨n - 1, by omega⟩
        have := e k
        rw [← hk] at this
        exact this.le
    | succ j ih =>
      obtain ⟨x, hx, hp, ho, h1, -⟩ := ih
      rw [List.range_succ, List.map_append, List.map_cons, List.map_nil, simulate_snoc]
      obtain ⟨q, m, p, m', p', b1, b2, hz⟩ := call_part_kept hB hp hd hx (hc.stable j)
      have hl := hc.len j
      obtain ⟨oz, o, z1, z2, -, -⟩ := heun_step hv hne ha hb (hc.pos.le.trans hl.1) hl.2.2 ho h1 b1 b2 rfl
      exact ⟨_, hz, q, oz, (z1.trans z2).trans h1, fun h => by omega⟩
  choose T hT hp ho h1 hz0 using main
  have last : ∀ j, missing T0 Tin (T j (cellAt up n (n - 1))) = shares up n T0 Tin (T j) n := fun j => by
    simp [shares, show ¬ n = 0 by omega]
  have step : ∀ j, ∃ o, shares up n T0 Tin (T (j + 1)) n ≤ o ∧ o ≤ shares up n T0 Tin (T j) n ∧
      (c j).2 / M * W * o ≤ total n (shares up n T0 Tin (T j)) - total n (shares up n T0 Tin (T (j + 1))) ∧
      total n (shares up n T0 Tin (T j)) - total n (shares up n T0 Tin (T (j + 1))) ≤ (c j).2 / M * (W + G) * o := by
    intro j
    obtain ⟨q, m, p, m', p', b1, b2, hz⟩ := call_part_kept hB (hp j) hd (hT j) (hc.stable j)
    have hl := hc.len j
    have e := hT (j + 1)
    rw [List.range_succ, List.map_append, List.map_cons, List.map_nil, simulate_snoc] at e
    have e' : T (j + 1) = _ := Option.some.inj (e.symm.trans hz)
    exact (heun_step hv hne ha hb (hc.pos.le.trans hl.1) hl.2.2 (ho j) (h1 j) b1 b2 e').2
  obtain ⟨anti, lim, τ, hτ, τ1, τ2⟩ := arrival (N := n) hv.cap hv.flow hv.small.1 hc.pos
    (h := fun j => (c j).2) (H := hmax) (fun j => ⟨(hc.len j).1, (hc.len j).2.1⟩) (fun j => (ho j).nonneg le_rfl)
    (fun j => ⟨total_nonneg (ho j), total_le (ho j)⟩) step
  have t0 : total n (shares up n T0 Tin (T 0)) = n := by
    rw [hz0 0 rfl, total]
    simp [shares, missing, div_self hd0]
  have e0 : shares up n T0 Tin (T 0) n ≤ 1 := h1 0
  refine ⟨T, hT, ?_, fun j => ?_, ?_, τ, ?_, ?_, ?_⟩
  · simpa only [last] using anti
  · rw [last]
    exact ⟨(ho j).nonneg le_rfl, h1 j⟩
  · have e : ∀ j, T j (cellAt up n (n - 1)) = Tin - shares up n T0 Tin (T j) n * (Tin - T0) := by
      intro j
      rw [← last, missing, div_mul_cancel₀ _ hd0]
      ring
    simp only [e]
    have := tendsto_const_nhds (x := Tin) (f := atTop).sub (lim.mul_const (Tin - T0))
    simpa using this
  · simpa only [last] using hτ
  · rw [t0] at τ1
    rwa [mul_comm (n : ℝ) M]
  · rw [t0] at τ2
    have hm : 0 ≤ hmax := hc.pos.le.trans ((hc.len 0).1.trans (hc.len 0).2.1)
    rw [mul_comm (n : ℝ) M]
    exact τ2.trans (add_le_add le_rfl (mul_le_of_le_one_right hm e0))

/-! ## Pipes and storages -/

/-- Specification: water flows through the insulated part `v` from the port `supply`, which is at the constant
temperature `Tin`, to the port `drain` at the other end, upwards (from the last cell to the first) or downwards.  Each
cell has the heat capacity `M`, the water the heat capacity flow `W`, at all temperatures.  At temperatures between
`a` and `b`, cells are connected by conductances up to `hi`, and the inlet conducts at most `G`; these may change with
the temperatures.  Nothing is conducted through the outlet. -/
structure Fed (v : Vessel ℝ H P) (up : Bool) (io : P → ℝ) (supply drain : P → Port ℝ) (Bp : P → Prop)
    (M W hi G Tin a b : ℝ) : Prop where
  cells : 1 ≤ v.g.n
  cap : 0 < M ∧ ∀ T, v.g.vCell * (v.mat.rho T * v.mat.cp T) + v.g.mcpWll = M
  own : ∀ m p x, (v.inp m p x).T = x
  flow : 0 < W ∧ ∀ p, Bp p → (if up then io p < 0 else 0 < io p) ∧ ∀ T, |io p| * v.mat.cp T = W
  inlet : ∀ p, Bp p → (supply p).idx = (if up then v.g.n - 1 else 0) ∧ (supply p).T = Tin
  outlet : ∀ p, Bp p → (drain p).idx = (if up then 0 else v.g.n - 1) ∧ (drain p).area = 0 ∧ (drain p).uaWll = 0
  shell : ∀ m p x, ∀ k < v.g.n, (v.inp m p x).uaAmb k = 0
  lids : ∀ m p x, (v.inp m p x).lidTop = 0 ∧ (v.inp m p x).lidBot = 0
  conduct : ∀ m p x, Bp p → (∀ k < v.g.n, a ≤ x k ∧ x k ≤ b) →
    (∀ j, 0 < j → j < v.g.n → 0 ≤ uaTb v.mat v.g (v.inp m p x) j ∧ uaTb v.mat v.g (v.inp m p x) j ≤ hi) ∧
      0 ≤ uaPort v.mat v.g (v.inp m p x) (supply p) ∧ uaPort v.mat v.g (v.inp m p x) (supply p) ≤ G
  small : 0 ≤ G ∧ G ≤ hi

variable {v : Vessel ℝ H P} {io : P → ℝ} {supply drain : P → Port ℝ}

/-- The port at the first cell. -/
def firstPort (up : Bool) (supply drain : P → Port ℝ) : P → Port ℝ := if up then drain else supply

/-- The port at the last cell. -/
def lastPort (up : Bool) (supply drain : P → Port ℝ) : P → Port ℝ := if up then supply else drain

/-- The conductances of the faces, in the order of the flow. -/
noncomputable def faces (v : Vessel ℝ H P) (up : Bool) (supply : P → Port ℝ) (m : H) (p : P) (x : ℕ → ℝ) (k : ℕ) : ℝ :=
  if k = 1 then uaPort v.mat v.g (v.inp m p x) (supply p)
  else uaTb v.mat v.g (v.inp m p x) (if up then v.g.n + 1 - k else k - 1)

theorem faces_ok (hv : Fed v up io supply drain Bp M W hi G Tin a b) {m : H} {p : P} {x : ℕ → ℝ} (hp : Bp p)
    (hx : ∀ k < v.g.n, a ≤ x k ∧ x k ≤ b) : Faces v.g.n hi (faces v up supply m p x) ∧ faces v up supply m p x 1 ≤ G := by
  have hc := hv.conduct m p x hp hx
  have hn := hv.cells
  refine ⟨⟨fun k h1 h2 => ?_, ?_⟩, ?_⟩
  · unfold faces
    split_ifs with h h'
    · exact ⟨hc.2.1, hc.2.2.trans hv.small.2⟩
    · exact hc.1 _ (by omega) (by omega)
    · exact hc.1 (k - 1) (by omega) (by omega)
  · rw [faces, if_neg (by omega), uaTb, if_pos]
    cases up <;> simp
  · rw [faces, if_pos rfl]
    exact hc.2.2

theorem rate_down (hv : Fed v false io supply drain Bp M W hi G Tin a b) {m : H} {p : P} (hp : Bp p) (x : ℕ → ℝ)
    {k : ℕ} (hk : k < v.g.n) : pipeDT v.mat v.g (v.inp m p x) (io p) (supply p) (drain p) k =
      ((faces v false supply m p x (k + 1) + W) * ((if k = 0 then Tin else x (k - 1)) - x k) +
        faces v false supply m p x (k + 2) * (x (k + 1) - x k)) / M := by
  obtain ⟨i1, i2⟩ := hv.inlet p hp
  obtain ⟨o1, o2, o3⟩ := hv.outlet p hp
  obtain ⟨f1, f2⟩ := hv.flow.2 p hp
  simp only [Bool.false_eq_true, if_false] at i1 o1 f1
  rw [abs_of_pos f1] at f2
  have hmcp : mcp v.mat v.g (v.inp m p x) k = M := by rw [mcp, hv.cap.2]
  have huo : uaPort v.mat v.g (v.inp m p x) (drain p) = 0 := by simp [uaPort, o2, o3]
  rw [pipeDT_sides i1 o1 (hv.lids m p x).1 (hv.lids m p x).2 hk, hmcp, hv.shell m p x k hk, leftSide, rightSide,
    if_pos f1.le, if_pos f1.le, huo, hv.own, i2]
  congr 1
  have e : ∀ A B : ℝ, io p * (v.mat.cp A * A - v.mat.cp B * B) = W * (A - B) := by
    intro A B
    rw [mul_sub, ← mul_assoc, ← mul_assoc, f2, f2]
    ring
  rw [e, e]
  unfold faces
  rw [if_neg (by omega : ¬ k + 2 = 1)]
  simp only [Bool.false_eq_true, if_false]
  have hb : (if k + 1 = v.g.n then 0 * ((drain p).T - x k) + 0 * (v.mat.cp (drain p).T * (drain p).T - v.mat.cp (x k) * x k)
      else uaTb v.mat v.g (v.inp m p x) (k + 1) * (x (k + 1) - x k) +
        0 * (v.mat.cp (x (k + 1)) * x (k + 1) - v.mat.cp (x k) * x k)) =
      uaTb v.mat v.g (v.inp m p x) (k + 2 - 1) * (x (k + 1) - x k) := by
    split_ifs with h
    · rw [show k + 2 - 1 = v.g.n by omega, uaTb, if_pos (Or.inr rfl)]
      ring
    · rw [show k + 2 - 1 = k + 1 by omega]
      ring
  rw [hb]
  rcases Nat.eq_zero_or_pos k with rfl | hk0
  · simp only [if_true]
    ring
  · rw [if_neg (by omega), if_neg (by omega), if_neg (by omega), Nat.add_sub_cancel]
    ring

theorem rate_up (hv : Fed v true io supply drain Bp M W hi G Tin a b) {m : H} {p : P} (hp : Bp p) (x : ℕ → ℝ)
    {k : ℕ} (hk : k < v.g.n) : pipeDT v.mat v.g (v.inp m p x) (io p) (drain p) (supply p) (v.g.n - 1 - k) =
      ((faces v true supply m p x (k + 1) + W) * ((if k = 0 then Tin else x (v.g.n - 1 - (k - 1))) - x (v.g.n - 1 - k)) +
        faces v true supply m p x (k + 2) * (x (v.g.n - 1 - (k + 1)) - x (v.g.n - 1 - k))) / M := by
  obtain ⟨i1, i2⟩ := hv.inlet p hp
  obtain ⟨o1, o2, o3⟩ := hv.outlet p hp
  obtain ⟨f1, f2⟩ := hv.flow.2 p hp
  simp only [if_true] at i1 o1 f1
  rw [abs_of_neg f1] at f2
  obtain ⟨c, hc⟩ : ∃ c, c = v.g.n - 1 - k := ⟨_, rfl⟩
  rw [← hc]
  have hcn : c < v.g.n := by omega
  have hmcp : mcp v.mat v.g (v.inp m p x) c = M := by rw [mcp, hv.cap.2]
  have huo : uaPort v.mat v.g (v.inp m p x) (drain p) = 0 := by simp [uaPort, o2, o3]
  rw [pipeDT_sides o1 i1 (hv.lids m p x).1 (hv.lids m p x).2 hcn, hmcp, hv.shell m p x c hcn, leftSide, rightSide,
    if_neg (not_le.2 f1), if_neg (not_le.2 f1), huo, hv.own, i2]
  congr 1
  have e : ∀ A B : ℝ, -io p * (v.mat.cp A * A - v.mat.cp B * B) = W * (A - B) := by
    intro A B
    rw [mul_sub, ← mul_assoc, ← mul_assoc, f2, f2]
    ring
  rw [e, e]
  unfold faces
  rw [if_neg (by omega : ¬ k + 2 = 1)]
  simp only [if_true]
  have hb : (if c = 0 then 0 * ((drain p).T - x c) + 0 * (v.mat.cp (drain p).T * (drain p).T - v.mat.cp (x c) * x c)
      else uaTb v.mat v.g (v.inp m p x) c * (x (c - 1) - x c) +
        0 * (v.mat.cp (x (c - 1)) * x (c - 1) - v.mat.cp (x c) * x c)) =
      uaTb v.mat v.g (v.inp m p x) (v.g.n + 1 - (k + 2)) * (x (v.g.n - 1 - (k + 1)) - x c) := by
    split_ifs with h
    · rw [show v.g.n + 1 - (k + 2) = 0 by omega, uaTb, if_pos (Or.inl rfl)]
      ring
    · rw [show v.g.n + 1 - (k + 2) = c by omega, show v.g.n - 1 - (k + 1) = c - 1 by omega]
      ring
  rw [hb]
  rcases Nat.eq_zero_or_pos k with rfl | hk0
  · rw [if_pos (by omega), if_pos rfl, if_pos rfl]
    ring
  · rw [if_neg (by omega), if_neg (by omega), if_neg (by omega), show v.g.n - 1 - (k - 1) = c + 1 by omega,
      show v.g.n + 1 - (k + 1) = c + 1 by omega]
    ring

/-- Parts that behave like a pipe. -/
theorem fed_along (hv : Fed v up io supply drain Bp M W hi G Tin a b)
    (hd : ∀ m p x h, Bp p → ∀ k < v.g.n, (d m p x h).dT k =
      pipeDT v.mat v.g (v.inp m p x) (io p) (firstPort up supply drain p) (lastPort up supply drain p) k) :
    Along d up v.g.n Bp M W hi G Tin a b where
  cells := hv.cells
  cap := hv.cap.1
  flow := hv.flow.1
  small := hv.small
  rate := fun m p x h hp hx => by
    obtain ⟨f1, f2⟩ := faces_ok hv (m := m) hp hx
    refine ⟨_, f1, f2, fun k hk => ?_⟩
    have hk' : cellAt up v.g.n k < v.g.n := by unfold cellAt; split_ifs <;> omega
    rw [hd m p x h hp _ hk']
    cases up
    · exact rate_down hv hp x hk
    · exact rate_up hv hp x hk

/-- **C169**, partial.  The water in an insulated pipe, in whatever plant, is at `T0` when the source in front of it
changes to `Tin`.  At the outlet the temperature approaches `Tin` monotonically, and the change arrives on average (sum
over all steps of their length times the share of the change that is missing at the outlet) after a time between the
heat capacity of the pipe divided by the heat capacity flow plus the conductance of the inlet, and the heat capacity
of the pipe divided by the heat capacity flow, up to one step.  Nothing depends on the number of cells.  Missing: heat
capacities and the flow have to be constant, and nothing is conducted through outlet and shell. -/
theorem C169_arrival_partial {sys : System ℝ (ℕ → ℝ) H N P} {i : ℕ}
    (hd : sys.diffs[i]? = some (v.pipe io (if up then drain else supply) (if up then supply else drain)))
    (hB : Kept sys Bp) (hv : Fed v up io supply drain Bp M W hi G Tin a b) (hne : T0 ≠ Tin) (ha : a ≤ T0 ∧ a ≤ Tin)
    (hb : T0 ≤ b ∧ Tin ≤ b) {s : State (ℕ → ℝ) H N P} (hs : Bp s.ports) (h0 : Temps s i fun _ => T0)
    {c : ℕ → List ℝ × ℝ} {h₀ hmax : ℝ} (hc : Steps sys s c M W hi h₀ hmax) :
    Arrives sys s c i T0 Tin (if up then 0 else v.g.n - 1) (v.g.n * M / (W + G)) (v.g.n * M / W + hmax) := by
  have := along_arrival hd hB (fed_along hv fun m p x h _ k hk => ?_) hne ha hb hs h0 hc
  · unfold cellAt at this
    cases up
    · exact this
    · simpa using this
  · simp only [Vessel.pipe, if_pos hk]
    rfl

/-- With one inlet and one outlet at its ends and other ports shut, a storage is a pipe. -/
theorem storageDT_pipe {mat : Mat ℝ} {g : Geo ℝ} {s : Inp ℝ} {f : ℝ} {p q : Port ℝ} {mid : List (Port ℝ)}
    (hn : 2 ≤ g.n) (hp : p.idx = 0 ∧ p.io = f) (hq : q.idx = g.n - 1 ∧ q.io = -f) (hm : ∀ r ∈ mid, Shut r)
    (hs : ((p :: (mid ++ [q])).map (·.idx)).Pairwise (· ≤ ·)) {k : ℕ} (hk : k < g.n) :
    storageDT mat g s (p :: (mid ++ [q])) k = pipeDT mat g s f p q k := by
  have hsum0 : (mid.map (·.io)).sum = 0 := List.sum_eq_zero fun c hc => by
    obtain ⟨r, hr, rfl⟩ := List.mem_map.1 hc
    exact (hm r hr).2.2
  set l := (p :: (mid ++ [q])).map fun r => (r.idx, r.io) with hl
  have l1 : (p :: (mid ++ [q])).map (·.idx) = l.map Prod.fst := by rw [hl, List.map_map]; rfl
  have l2 : (p :: (mid ++ [q])).map (·.io) = l.map Prod.snd := by rw [hl, List.map_map]; rfl
  have hbal : (l.map Prod.snd).sum = 0 := by
    rw [← l2]
    simp [hsum0, hp.2, hq.2]
  have habove : ∀ j, j + 1 < g.n → above l j = f := by
    intro j hj
    have hmid : ∀ ms : List (Port ℝ), (∀ r ∈ ms, Shut r) →
        above ((ms ++ [q]).map fun r => (r.idx, r.io)) j = 0 := by
      intro ms
      induction ms with
      | nil =>
        intro _
        rw [List.nil_append, List.map_cons, above_cons, if_neg (by simp only [hq.1]; omega)]
        simp [above]
      | cons r ms ih =>
        intro h
        rw [List.cons_append, List.map_cons, above_cons, ih fun r' h' => h r' (List.mem_cons_of_mem _ h')]
        simp [(h r List.mem_cons_self).2.2]
    rw [hl, List.map_cons, above_cons, hmid mid hm]
    simp [hp.1, hp.2]
  have hdm : ∀ j, j + 1 < g.n → slices ((p :: (mid ++ [q])).map (·.idx)) (cumsum ((p :: (mid ++ [q])).map (·.io))) j = f := by
    intro j hj
    rw [l1, l2, slices_balanced l (by rw [← l1]; exact hs) hbal, habove j hj]
  have pos_eq : pos f = if 0 ≤ f then f else 0 := by
    unfold pos
    by_cases h : f < 0
    · rw [if_pos h, if_neg (not_le.2 h)]
    · rw [if_neg h, if_pos (not_lt.1 h)]
  have neg_eq : pos (-f) = if 0 ≤ f then 0 else -f := by
    unfold pos
    by_cases h : 0 < f
    · rw [if_pos (by linarith), if_pos h.le]
    · rw [if_neg (by linarith)]
      split_ifs with h'
      · linarith
      · rfl
  have htop : (processVar g.n ((p :: (mid ++ [q])).map (·.idx)) ((p :: (mid ++ [q])).map (·.io))).top k =
      (processInvar g.n f).top k := by
    simp only [processVar, processInvar]
    by_cases h : k = 0
    · rw [if_pos h, if_pos h]
    · rw [if_neg h, if_neg h, hdm (k - 1) (by omega), pos_eq]
  have hbot : (processVar g.n ((p :: (mid ++ [q])).map (·.idx)) ((p :: (mid ++ [q])).map (·.io))).bot k =
      (processInvar g.n f).bot k := by
    simp only [processVar, processInvar]
    by_cases h : k + 1 = g.n
    · rw [if_pos h, if_pos h]
    · rw [if_neg h, if_neg h, hdm k (by omega), neg_eq]
  have hcond : dTcond mat g s (p :: (mid ++ [q])) k = dTcond mat g s [p, q] k := by
    unfold dTcond
    rw [addAt_eq, addAt_eq]
    congr 1
    simp only [List.map_cons, List.map_append, List.map_nil]
    rw [List.filter_cons, List.filter_cons, List.filter_append]
    have z : (((mid.map fun p => (p.idx, uaPort mat g s p * (p.T - s.T p.idx) / mcp mat g s p.idx)).filter
        (·.1 = k)).map Prod.snd).sum = 0 := List.sum_eq_zero fun y hy => by
      obtain ⟨e, he, rfl⟩ := List.mem_map.1 hy
      obtain ⟨r, hr, rfl⟩ := List.mem_map.1 (List.mem_of_mem_filter he)
      simp [uaPort, (hm r hr).1, (hm r hr).2.1]
    split_ifs <;> simp [z]
  have hadv : dTadv mat g s (processVar g.n ((p :: (mid ++ [q])).map (·.idx)) ((p :: (mid ++ [q])).map (·.io))).top
      (processVar g.n ((p :: (mid ++ [q])).map (·.idx)) ((p :: (mid ++ [q])).map (·.io))).bot (p :: (mid ++ [q]))
      (processVar g.n ((p :: (mid ++ [q])).map (·.idx)) ((p :: (mid ++ [q])).map (·.io))).port k =
      dTadv mat g s (processInvar g.n f).top (processInvar g.n f).bot [p, q]
        [(processInvar g.n f).portIn, (processInvar g.n f).portOut] k := by
    unfold dTadv
    rw [addAt_eq, addAt_eq, htop, hbot]
    congr 1
    have hport : (processVar g.n ((p :: (mid ++ [q])).map (·.idx)) ((p :: (mid ++ [q])).map (·.io))).port =
        (processInvar g.n f).portIn :: List.replicate mid.length (0 : ℝ) ++ [(processInvar g.n f).portOut] := by
      simp only [processVar, processInvar, List.map_cons, List.map_append, List.map_map, List.map_nil, hp.2, hq.2,
        pos_eq, neg_eq, List.cons_append]
      congr 2
      rw [List.eq_replicate_iff]
      refine ⟨by simp, fun c hc => ?_⟩
      obtain ⟨r, hr, rfl⟩ := List.mem_map.1 hc
      simp [(hm r hr).2.2, pos]
    rw [hport, List.cons_append, List.zip_cons_cons, List.zip_append (by simp)]
    simp only [List.map_cons, List.map_append, List.map_nil, List.zip_cons_cons, List.zip_nil_right]
    rw [List.filter_cons, List.filter_cons, List.filter_append]
    have z : ((((mid.zip (List.replicate mid.length (0 : ℝ))).map fun q =>
        (q.1.idx, q.2 * (mat.cp q.1.T * q.1.T - enth mat g s (q.1.idx + 1)) / mcp mat g s q.1.idx)).filter
        (·.1 = k)).map Prod.snd).sum = 0 := List.sum_eq_zero fun y hy => by
      obtain ⟨e, he, rfl⟩ := List.mem_map.1 hy
      obtain ⟨r, hr, rfl⟩ := List.mem_map.1 (List.mem_of_mem_filter he)
      have h0 := List.eq_of_mem_replicate (List.of_mem_zip hr).2
      simp [h0]
    split_ifs <;> simp [z]
  unfold storageDT pipeDT
  rw [hcond, hadv]

/-- **C170**, partial.  A storage of uniform temperature `T0` is charged (or discharged) through two ports at its ends
with water of the temperature `Tin`, while all other ports are shut.  At the cell of the outlet the temperature
approaches `Tin` monotonically, and the change arrives there after the heat capacity of the storage divided by the
heat capacity flow, up to one step and the conduction through the inlet.  Missing as in C169. -/
theorem C170_charged_partial {sys : System ℝ (ℕ → ℝ) H N P} {i : ℕ} (hd : sys.diffs[i]? = some v.storage)
    (hB : Kept sys Bp) (hv : Fed v up io supply drain Bp M W hi G Tin a b) (hn : 2 ≤ v.g.n)
    {shut : P → List (Port ℝ)}
    (hp : ∀ p, Bp p → v.ports p = (if up then drain p else supply p) :: (shut p ++ [if up then supply p else drain p]) ∧
      ((v.ports p).map (·.idx)).Pairwise (· ≤ ·) ∧ (∀ q ∈ shut p, Shut q) ∧
      (supply p).io = |io p| ∧ (drain p).io = -|io p|)
    (hne : T0 ≠ Tin) (ha : a ≤ T0 ∧ a ≤ Tin) (hb : T0 ≤ b ∧ Tin ≤ b) {s : State (ℕ → ℝ) H N P} (hs : Bp s.ports)
    (h0 : Temps s i fun _ => T0) {c : ℕ → List ℝ × ℝ} {h₀ hmax : ℝ} (hc : Steps sys s c M W hi h₀ hmax) :
    Arrives sys s c i T0 Tin (if up then 0 else v.g.n - 1) (v.g.n * M / (W + G)) (v.g.n * M / W + hmax) := by
  have := along_arrival hd hB (fed_along hv fun m p x h hb k hk => ?_) hne ha hb hs h0 hc
  · unfold cellAt at this
    cases up
    · exact this
    · simpa using this
  · obtain ⟨e1, e2, e3, e4, e5⟩ := hp p hb
    have f1 := (hv.flow.2 p hb).1
    have i1 := (hv.inlet p hb).1
    have o1 := (hv.outlet p hb).1
    simp only [Vessel.storage, if_pos hk]
    rw [e1] at e2 ⊢
    cases up
    · simp only [Bool.false_eq_true, if_false] at *
      rw [abs_of_pos f1] at e4 e5
      exact storageDT_pipe hn ⟨i1, e4⟩ ⟨o1, e5⟩ e3 e2 hk
    · simp only [if_true] at *
      rw [abs_of_neg f1, neg_neg] at e5
      rw [abs_of_neg f1] at e4
      exact storageDT_pipe hn ⟨o1, e5⟩ ⟨i1, e4⟩ e3 e2 hk

/-! ## A plant that consists of one part -/

/-- The inlet: water of 1 degree behind a face of area `A`. -/
noncomputable def feed (up : Bool) (n : ℕ) (A : ℝ) : Port ℝ := ⟨if up then n - 1 else 0, 1, A, 1, 0, 1⟩

/-- The outlet. -/
noncomputable def sink (up : Bool) (n : ℕ) : Port ℝ := ⟨if up then 0 else n - 1, 0, 0, 1, 0, -1⟩

/-- `n` cells of volume 1, density 1, conductivity 1 and specific heat 1; a storage has another port, which is shut. -/
noncomputable def cellsOf (up : Bool) (n : ℕ) (A : ℝ) : Vessel ℝ Unit Unit where
  mat := ⟨fun _ => 1, fun _ => 1, fun _ => 1⟩
  g := ⟨n, 1, 1, 1, 0, 0⟩
  inp := fun _ _ x => ⟨x, 0, 0, 0, fun _ => 0, 0, 0, fun _ => 1⟩
  ports := fun _ => [if up then sink up n else feed up n A, ⟨0, 9, 0, 1, 0, 0⟩, if up then feed up n A else sink up n]
  upd := fun _ _ _ => ()
  check := fun _ _ _ _ => true

/-- A plant. -/
noncomputable def line (d : Diff ℝ (ℕ → ℝ) Unit Unit) : System ℝ (ℕ → ℝ) Unit Unit Unit where
  diffs := [d]
  solves := []
  interm := fun _ _ _ => ()
  result := fun _ _ _ => ()

/-- The part is cold. -/
noncomputable def cold : State (ℕ → ℝ) Unit Unit Unit := ⟨[⟨fun _ => 0, 0, 0, 0, 0, ()⟩], [], (), true⟩

theorem line_kept (d : Diff ℝ (ℕ → ℝ) Unit Unit) : Kept (line d) fun _ => True :=
  ⟨fun _ _ _ _ => trivial, fun _ _ _ _ => trivial⟩

theorem cellsOf_fed {up : Bool} {n : ℕ} (hn : 1 ≤ n) {A : ℝ} (h0 : 0 ≤ A) (h1 : A ≤ 1) (a b : ℝ) :
    Fed (cellsOf up n A) up (fun _ => if up then -1 else 1) (fun _ => feed up n A) (fun _ => sink up n) (fun _ => True)
      1 1 1 A 1 a b where
  cells := hn
  cap := ⟨one_pos, fun _ => by simp [cellsOf]⟩
  own := fun _ _ _ => rfl
  flow := ⟨one_pos, fun _ _ => ⟨by cases up <;> simp, fun _ => by cases up <;> simp [cellsOf]⟩⟩
  inlet := fun _ _ => ⟨rfl, rfl⟩
  outlet := fun _ _ => ⟨rfl, rfl, rfl⟩
  shell := fun _ _ _ _ _ => rfl
  lids := fun _ _ _ => ⟨rfl, rfl⟩
  conduct := fun _ _ x _ _ => by
    have e : uaPort (cellsOf up n A).mat (cellsOf up n A).g ((cellsOf up n A).inp () () x) (feed up n A) = A := by
      simp [uaPort, cellsOf, feed]
      norm_num
    refine ⟨fun j h2 h3 => ?_, ?_⟩
    · have h3 : j < n := h3
      have e' : uaTb (cellsOf up n A).mat (cellsOf up n A).g ((cellsOf up n A).inp () () x) j = 1 := by
        simp [uaTb, cellsOf, lamMean, show ¬ (j = 0 ∨ j = n) by omega]
        norm_num
      rw [e']
      exact ⟨zero_le_one, le_rfl⟩
    · rw [e]
      exact ⟨h0, le_rfl⟩
  small := ⟨h0, h1⟩

theorem line_stable {d : Diff ℝ (ℕ → ℝ) Unit Unit} (hd : ∀ m p x h, (d m p x h).stable = true)
    (s : State (ℕ → ℝ) Unit Unit Unit) (hs : List ℝ) (h : ℝ) : (call (line d) s hs h).stable = true := by
  rw [call]
  set t := hs.foldl (fun st h' => rejected (line d) s.ports h' st) s
  have : (predict t.ports h (line d).diffs t.parts).2 = true := by
    cases hp : t.parts with
    | nil => rfl
    | cons st ss => simp [line, predict, hd]
  rw [attempt, if_pos this]
  rfl

/-- The hypotheses can be met: a pipe of seven cells with conduction at the inlet, steps of a quarter of the time
constant, each after a rejected attempt.  The change arrives after 3.5 to 7.25. -/
example : Arrives (line ((cellsOf false 7 1).pipe (fun _ => 1) (fun _ => feed false 7 1) fun _ => sink false 7)) cold
    (fun _ => ([1 / 2], 1 / 4)) 0 0 1 6 (7 / 2) (7 + 1 / 4) := by
  have := C169_arrival_partial (up := false)
    (sys := line ((cellsOf false 7 1).pipe (fun _ => 1) (fun _ => feed false 7 1) fun _ => sink false 7)) (i := 0)
    (T0 := 0) (a := 0) (b := 1) (h₀ := 1 / 4) (hmax := 1 / 4) rfl (line_kept _)
    (cellsOf_fed (up := false) (n := 7) (by norm_num) zero_le_one le_rfl 0 1)
    (by norm_num) (by norm_num) (by norm_num) (s := cold) trivial rfl (c := fun _ => ([1 / 2], 1 / 4))
    ⟨by norm_num, fun _ => by norm_num, fun j => line_stable (fun _ _ _ _ => rfl) _ _ _⟩
  have e : (((cellsOf false 7 1).g.n : ℕ) : ℝ) = 7 := by norm_num [cellsOf]
  rw [e] at this
  norm_num at this ⊢
  exact this

/-- A storage of seven cells is discharged: cold and hot are exchanged after 7 to 7.01. -/
example : Arrives (line (cellsOf true 7 0).storage) cold (fun _ => ([], 1 / 100)) 0 0 1 0 7 (7 + 1 / 100) := by
  have := C170_charged_partial (up := true) (sys := line (cellsOf true 7 0).storage) (i := 0)
    (T0 := 0) (a := 0) (b := 1) (h₀ := 1 / 100) (hmax := 1 / 100) rfl (line_kept _)
    (cellsOf_fed (up := true) (n := 7) (by norm_num) le_rfl zero_le_one 0 1) (by norm_num [cellsOf])
    (shut := fun _ => [⟨0, 9, 0, 1, 0, 0⟩])
    (fun p _ => ⟨rfl, by simp [cellsOf, feed, sink], by
      intro q hq
      rw [List.mem_singleton.1 hq]
      exact ⟨rfl, rfl, rfl⟩, by norm_num [feed], by norm_num [sink]⟩)
    (by norm_num) (by norm_num) (by norm_num) (s := cold) trivial rfl (c := fun _ => ([], 1 / 100))
    ⟨by norm_num, fun _ => by norm_num, fun j => line_stable (fun _ _ _ _ => rfl) _ _ _⟩
  have e : (((cellsOf true 7 0).g.n : ℕ) : ℝ) = 7 := by norm_num [cellsOf]
  rw [e] at this
  norm_num at this ⊢
  exact this

/-- **C169** fails with steps of twice the time constant of the cell: the change never arrives. -/
theorem C169_fails_long_step : ∃ (v : Vessel ℝ Unit Unit) (supply drain : Unit → Port ℝ)
    (sys : System ℝ (ℕ → ℝ) Unit Unit Unit) (s : State (ℕ → ℝ) Unit Unit Unit),
      sys.diffs[0]? = some (v.pipe (fun _ => 1) supply drain) ∧ v.g.n = 1 ∧
      Fed v false (fun _ => 1) supply drain (fun _ => True) 1 1 1 0 1 0 1 ∧ Temps s 0 (fun _ => 0) ∧
      (∀ j, (call sys (simulate sys s ((List.range j).map fun _ => ([], 2))) [] 2).stable = true) ∧
      ∀ j, ∃ x, Temps (simulate sys s ((List.range j).map fun _ => ([], 2))) 0 x ∧ x 0 = 0 := by
  have hf := cellsOf_fed (up := false) (n := 1) le_rfl le_rfl zero_le_one 0 1
  refine ⟨cellsOf false 1 0, fun _ => feed false 1 0, fun _ => sink false 1, line _, cold, rfl, rfl, hf, rfl,
    fun j => line_stable (fun _ _ _ _ => rfl) _ _ _, fun j => ?_⟩
  have e : ∀ x : ℕ → ℝ, (x + (2 : ℝ) • ((cellsOf false 1 0).pipe (fun _ => 1) (fun _ => feed false 1 0)
      (fun _ => sink false 1) () () x 2).dT) 0 = 2 - x 0 := by
    intro x
    have h := rate_down hf (m := ()) (p := ()) trivial x (k := 0) Nat.one_pos
    have f1 : faces (cellsOf false 1 0) false (fun _ => feed false 1 0) () () x 1 = 0 := by simp [faces, uaPort, feed]
    have f2 : faces (cellsOf false 1 0) false (fun _ => feed false 1 0) () () x 2 = 0 := by simp [faces, uaTb, cellsOf]
    rw [f1, f2] at h
    simp only [Pi.add_apply, Pi.smul_apply, smul_eq_mul, Vessel.pipe]
    rw [if_pos (show 0 < (cellsOf false 1 0).g.n from Nat.one_pos)]
    simp only [Bool.false_eq_true, if_false] at h
    rw [h]
    norm_num
    ring
  induction j with
  | zero => exact ⟨_, rfl, rfl⟩
  | succ j ih =>
    obtain ⟨x, hx, h0⟩ := ih
    rw [List.range_succ, List.map_append, List.map_cons, List.map_nil, simulate_snoc]
    obtain ⟨-, m, p, m', p', -, -, hz⟩ := call_part_kept (line_kept _) trivial rfl hx
      (line_stable (d := (cellsOf false 1 0).pipe (fun _ => 1) (fun _ => feed false 1 0) fun _ => sink false 1)
        (fun _ _ _ _ => rfl) _ [] 2)
    refine ⟨_, hz, ?_⟩
    have e1 := e x
    have e2 := e (x + (2 : ℝ) • ((cellsOf false 1 0).pipe (fun _ => 1) (fun _ => feed false 1 0)
      (fun _ => sink false 1) () () x 2).dT)
    simp only [Pi.add_apply, Pi.smul_apply, smul_eq_mul] at e1 e2 ⊢
    rw [h0] at e1 e2 ⊢
    linarith

end Verif.Arrival
