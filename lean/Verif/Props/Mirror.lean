import Verif.Props.Extremes
import Verif.Model.FlowAlpha
import Verif.Lemmas.Twin
import Verif.Props.Compare

/-!
# C131: a pipe has no preferred direction
-/

set_option linter.unusedSectionVars false

namespace Verif.Cells

open Verif.Flows

variable {K : Type*} [Field K] [LinearOrder K] [IsStrictOrderedRing K]

/-- Specification: the part seen from the other end. -/
structure Mirrors (n : ℕ) (s s' : Inp K) : Prop where
  T : ∀ k k', k + k' + 1 = n → s'.T k = s.T k'
  edges : s'.edgeTop = s.edgeBot ∧ s'.edgeBot = s.edgeTop
  Tamb : s'.Tamb = s.Tamb
  uaAmb : ∀ k k', k + k' + 1 = n → s'.uaAmb k = s.uaAmb k'
  lids : s'.lidTop = s.lidBot ∧ s'.lidBot = s.lidTop
  buoy : ∀ k k', k + k' + 2 = n → s'.buoy k = s.buoy k'

/-- Specification: a port seen from the other end. -/
def mirrorPort (n : ℕ) (p : Port K) : Port K := { p with idx := n - 1 - p.idx }

variable {mat : Mat K} {g : Geo K} {s s' : Inp K}

theorem mirror_tExt (hm : Mirrors g.n s s') {j j' : ℕ} (h : j + j' = g.n + 1) : tExt g s' j = tExt g s j' := by
  unfold tExt
  by_cases h0 : j = 0
  · rw [if_pos h0, if_neg (by omega), if_pos (by omega)]; exact hm.edges.1
  · by_cases h1 : j = g.n + 1
    · rw [if_neg h0, if_pos h1, if_pos (by omega)]; exact hm.edges.2
    · rw [if_neg h0, if_neg h1, if_neg (by omega), if_neg (by omega)]
      exact hm.T _ _ (by omega)

theorem lamMean_comm (a b : K) : lamMean a b = lamMean b a := by
  unfold lamMean
  rw [add_comm a b]; ring

theorem mirror_uaTb (hm : Mirrors g.n s s') {j j' : ℕ} (h : j + j' = g.n) : uaTb mat g s' j = uaTb mat g s j' := by
  unfold uaTb
  by_cases h0 : j = 0 ∨ j = g.n
  · rw [if_pos h0, if_pos (by omega)]
  · rw [if_neg h0, if_neg (by omega), hm.T (j - 1) (j') (by omega),
      hm.T (j) (j' - 1) (by omega), lamMean_comm]
    rw [hm.buoy (j - 1) (j' - 1) (by omega)]

theorem mirror_mcp (hm : Mirrors g.n s s') {k k' : ℕ} (h : k + k' + 1 = g.n) : mcp mat g s' k = mcp mat g s k' := by
  unfold mcp; rw [hm.T _ _ h]

theorem mirror_enth (hm : Mirrors g.n s s') {j j' : ℕ} (h : j + j' = g.n + 1) :
    enth mat g s' j = enth mat g s j' := by
  unfold enth; rw [mirror_tExt hm h]

theorem mirror_uaPort (hm : Mirrors g.n s s') {p : Port K} (hp : p.idx < g.n) :
    uaPort mat g s' (mirrorPort g.n p) = uaPort mat g s p := by
  unfold uaPort
  rw [show (mirrorPort g.n p).idx = g.n - 1 - p.idx from rfl, hm.T _ (p.idx) (by omega)]
  rfl

/-- Sums over ports of a cell. -/
theorem sum_mirror {ι : Type*} (l : List ι) (F G : ι → ℕ × K) {k k' n : ℕ} (h : k + k' + 1 = n)
    (hF : ∀ i ∈ l, (F i).1 < n) (hG : ∀ i ∈ l, (G i).1 = n - 1 - (F i).1 ∧ (G i).2 = (F i).2) :
    (((l.map G).filter (·.1 = k)).map Prod.snd).sum = (((l.map F).filter (·.1 = k')).map Prod.snd).sum := by
  induction l with
  | nil => rfl
  | cons a l ih =>
    have ih := ih (fun i hi => hF i (List.mem_cons_of_mem _ hi)) fun i hi => hG i (List.mem_cons_of_mem _ hi)
    have h1 := hF a List.mem_cons_self
    obtain ⟨h2, h3⟩ := hG a List.mem_cons_self
    by_cases hk : (F a).1 = k'
    · have : (G a).1 = k := by omega
      simp only [List.map_cons, List.filter_cons, hk, this, decide_true, if_true, List.sum_cons, ih, h3]
    · have : (G a).1 ≠ k := by omega
      simp only [List.map_cons, List.filter_cons, hk, this, decide_false, Bool.false_eq_true, if_false]
      exact ih

theorem sum_reverse_filter (l : List (ℕ × K)) (k : ℕ) :
    ((l.reverse.filter (·.1 = k)).map Prod.snd).sum = ((l.filter (·.1 = k)).map Prod.snd).sum := by
  rw [List.filter_reverse, List.map_reverse, List.sum_reverse]

theorem mirror_dTcond (hm : Mirrors g.n s s') {ps : List (Port K)} (hp : ∀ p ∈ ps, p.idx < g.n) {k k' : ℕ} (h : k + k' + 1 = g.n) :
    dTcond mat g s' (ps.map (mirrorPort g.n)).reverse k = dTcond mat g s ps k' := by
  unfold dTcond
  rw [addAt_eq, addAt_eq, List.map_reverse, sum_reverse_filter, List.map_map,
    sum_mirror (n := g.n) (k := k) (k' := k') ps
      (fun p => (p.idx, uaPort mat g s p * (p.T - s.T p.idx) / mcp mat g s p.idx)) _ h hp]
  · congr 1
    rw [mirror_tExt hm (j := k) (j' := k' + 2) (by omega), mirror_tExt hm (j := k + 1) (j' := k' + 1) (by omega),
      mirror_tExt hm (j := k + 2) (j' := k') (by omega), mirror_uaTb hm (j := k) (j' := k' + 1) (by omega),
      mirror_uaTb hm (j := k + 1) (j' := k') (by omega), hm.uaAmb _ _ h, mirror_mcp hm h,
      mirror_tExt hm (j := 1) (j' := g.n) (by omega), mirror_tExt hm (j := g.n) (j' := 1) (by omega),
      mirror_mcp hm (k := 0) (k' := g.n - 1) (by omega), mirror_mcp hm (k := g.n - 1) (k' := 0) (by omega)]
    rw [hm.lids.1, hm.lids.2, hm.Tamb]
    have i1 : (k = 0) = (k' + 1 = g.n) := by apply propext; omega
    have i2 : (k + 1 = g.n) = (k' = 0) := by apply propext; omega
    simp only [i1, i2]
    ring
  · intro p hpm
    refine ⟨rfl, ?_⟩
    show uaPort mat g s' (mirrorPort g.n p) * (p.T - s'.T (g.n - 1 - p.idx)) /
      mcp mat g s' (g.n - 1 - p.idx) = _
    have := hp p hpm
    rw [mirror_uaPort hm this, hm.T _ (p.idx) (by omega), mirror_mcp hm (k' := p.idx) (by omega)]

theorem zip_reverse {α β : Type*} {l : List α} {m : List β} (h : l.length = m.length) :
    l.reverse.zip m.reverse = (l.zip m).reverse := by
  induction l generalizing m with
  | nil => cases m <;> simp_all
  | cons a l ih =>
    cases m with
    | nil => simp at h
    | cons b m =>
      have h' : l.length = m.length := by simpa using h
      rw [List.reverse_cons, List.reverse_cons, List.zip_append (by simpa using h'), ih h']
      simp

theorem mirror_dTadv (hm : Mirrors g.n s s') {top bot top' bot' : ℕ → K} {ps : List (Port K)} {fl : List K} (hl : ps.length = fl.length)
    (hp : ∀ p ∈ ps, p.idx < g.n) {k k' : ℕ} (h : k + k' + 1 = g.n) (ht : top' k = bot k') (hb : bot' k = top k') :
    dTadv mat g s' top' bot' (ps.map (mirrorPort g.n)).reverse fl.reverse k =
      dTadv mat g s top bot ps fl k' := by
  unfold dTadv
  have z : (ps.map (mirrorPort g.n)).reverse.zip fl.reverse =
      ((ps.zip fl).map fun q => (mirrorPort g.n q.1, q.2)).reverse := by
    rw [zip_reverse (by simpa using hl), List.zip_map_left]
    rfl
  rw [addAt_eq, addAt_eq, z, List.map_reverse, sum_reverse_filter, List.map_map,
    sum_mirror (n := g.n) (k := k) (k' := k') (ps.zip fl)
      (fun q => (q.1.idx, q.2 * (mat.cp q.1.T * q.1.T - enth mat g s (q.1.idx + 1)) / mcp mat g s q.1.idx)) _ h
      (fun q hq => hp q.1 (List.of_mem_zip hq).1)]
  · congr 1
    rw [mirror_enth hm (j := k) (j' := k' + 2) (by omega), mirror_enth hm (j := k + 1) (j' := k' + 1) (by omega),
      mirror_enth hm (j := k + 2) (j' := k') (by omega), mirror_mcp hm h, ht, hb]
    ring
  · intro q hq
    refine ⟨rfl, ?_⟩
    have := hp q.1 (List.of_mem_zip hq).1
    show q.2 * (mat.cp q.1.T * q.1.T - enth mat g s' (g.n - 1 - q.1.idx + 1)) /
      mcp mat g s' (g.n - 1 - q.1.idx) = _
    rw [mirror_enth hm (j' := q.1.idx + 1) (by omega), mirror_mcp hm (k' := q.1.idx) (by omega)]

/-- **C131** (pipes): a pipe seen from the other end, ports exchanged and the flow reversed, has the same
differential, cell by cell from the other end, for any material, temperatures and conductances. -/
theorem C131_pipe (hm : Mirrors g.n s s') {io : K} {pin pout : Port K} (h1 : pin.idx < g.n) (h2 : pout.idx < g.n) {k k' : ℕ}
    (h : k + k' + 1 = g.n) :
    pipeDT mat g s' (-io) (mirrorPort g.n pout) (mirrorPort g.n pin) k =
      pipeDT mat g s io pin pout k' := by
  have hp : ∀ p ∈ [pin, pout], p.idx < g.n := by
    intro p hp
    rcases List.mem_cons.1 hp with rfl | hp
    · exact h1
    · rw [List.mem_singleton.1 hp]; exact h2
  have f1 : (if 0 ≤ -io then -io else 0) = if 0 ≤ io then 0 else -io := by
    rcases lt_trichotomy io 0 with hi | hi | hi
    · rw [if_pos (by linarith), if_neg (by linarith)]
    · subst hi; simp
    · rw [if_neg (by linarith), if_pos hi.le]
  have f2 : (if 0 ≤ -io then 0 else - -io) = if 0 ≤ io then io else 0 := by
    rcases lt_trichotomy io 0 with hi | hi | hi
    · rw [if_pos (by linarith), if_neg (by linarith)]
    · subst hi; simp
    · rw [if_neg (by linarith), if_pos hi.le, neg_neg]
  unfold pipeDT
  have a := mirror_dTcond hm (mat := mat) hp h
  have b := mirror_dTadv hm (mat := mat) (top := (processInvar g.n io).top) (bot := (processInvar g.n io).bot)
    (top' := (processInvar g.n (-io)).top) (bot' := (processInvar g.n (-io)).bot)
    (fl := [(processInvar g.n io).portIn, (processInvar g.n io).portOut]) (ps := [pin, pout]) rfl hp h
    (by
      simp only [processInvar]
      by_cases h0 : k = 0
      · rw [if_pos h0, if_pos (by omega)]
      · rw [if_neg h0, if_neg (show ¬ k' + 1 = g.n by omega), f1])
    (by
      simp only [processInvar]
      by_cases h0 : k' = 0
      · rw [if_pos h0, if_pos (by omega)]
      · rw [if_neg h0, if_neg (show ¬ k + 1 = g.n by omega), f2])
  simp only [List.map_cons, List.map_nil, List.reverse_cons, List.reverse_nil, List.nil_append, List.singleton_append]
    at a b
  have e1 : (processInvar g.n (-io)).portIn = (processInvar g.n io).portOut := f1
  have e2 : (processInvar g.n (-io)).portOut = (processInvar g.n io).portIn := f2
  simp only [e1, e2, a, b]

theorem above_mirror (l : List (ℕ × K)) {n k k' : ℕ} (h : k + k' + 2 = n) (hr : ∀ p ∈ l, p.1 < n) :
    above (l.map fun p => (n - 1 - p.1, p.2)).reverse k = (l.map Prod.snd).sum - above l k' := by
  have key : above (l.map fun p => (n - 1 - p.1, p.2)) k = (l.map Prod.snd).sum - above l k' := by
    induction l with
    | nil => simp [above]
    | cons p l ih =>
      have ih := ih fun q hq => hr q (List.mem_cons_of_mem _ hq)
      have := hr p List.mem_cons_self
      rw [List.map_cons, above_cons, above_cons, ih, List.map_cons, List.sum_cons]
      by_cases hk : p.1 ≤ k'
      · rw [if_pos hk, if_neg (by simp only; omega)]; ring
      · rw [if_neg hk, if_pos (by simp only; omega)]; ring
  rw [← key]
  unfold above
  rw [List.filter_reverse, List.map_reverse, List.sum_reverse]

/-- **C131** (storages and branched pipes): the same with any number of ports, as long as as much water flows in as
out. -/
theorem C131_storage (hm : Mirrors g.n s s') {ps : List (Port K)} (hp : ∀ p ∈ ps, p.idx < g.n) (hsort : (ps.map (·.idx)).Pairwise (· ≤ ·))
    (hb : (ps.map (·.io)).sum = 0) {k k' : ℕ} (h : k + k' + 1 = g.n) :
    storageDT mat g s' ((ps.map fun p => { mirrorPort g.n p with io := p.io }).reverse) k =
      storageDT mat g s ps k' := by
  have em : (fun p : Port K => { mirrorPort g.n p with io := p.io }) = mirrorPort g.n := rfl
  rw [em]
  unfold storageDT
  set l : List (ℕ × K) := ps.map fun p => (p.idx, p.io) with hl
  have l1 : ps.map (·.idx) = l.map Prod.fst := by rw [hl, List.map_map]; rfl
  have l2 : ps.map (·.io) = l.map Prod.snd := by rw [hl, List.map_map]; rfl
  have l3 : ((ps.map (mirrorPort g.n)).reverse).map (·.idx) =
      (l.map fun p => (g.n - 1 - p.1, p.2)).reverse.map Prod.fst := by
    rw [hl]; simp only [List.map_reverse, List.map_map]; rfl
  have l4 : ((ps.map (mirrorPort g.n)).reverse).map (·.io) =
      (l.map fun p => (g.n - 1 - p.1, p.2)).reverse.map Prod.snd := by
    rw [hl]; simp only [List.map_reverse, List.map_map]; rfl
  have hr : ∀ p ∈ l, p.1 < g.n := by
    intro p hpm
    obtain ⟨q, hq, rfl⟩ := List.mem_map.1 hpm
    exact hp q hq
  have s1 : (l.map Prod.fst).Pairwise (· ≤ ·) := by rw [← l1]; exact hsort
  have b1 : (l.map Prod.snd).sum = 0 := by rw [← l2]; exact hb
  have s2 : ((l.map fun p => (g.n - 1 - p.1, p.2)).reverse.map Prod.fst).Pairwise (· ≤ ·) := by
    rw [List.map_reverse, List.pairwise_reverse, List.map_map]
    rw [List.pairwise_map] at s1 ⊢
    refine s1.imp fun hab => ?_
    simp only [Function.comp]
    omega
  have b2 : ((l.map fun p => (g.n - 1 - p.1, p.2)).reverse.map Prod.snd).sum = 0 := by
    rw [List.map_reverse, List.sum_reverse, List.map_map]
    exact b1
  have dm : ∀ j j', j + j' + 2 = g.n →
      slices (((ps.map (mirrorPort g.n)).reverse).map (·.idx)) (cumsum (((ps.map (mirrorPort g.n)).reverse).map (·.io))) j =
        -slices (ps.map (·.idx)) (cumsum (ps.map (·.io))) j' := by
    intro j j' hj
    rw [l1, l2, l3, l4, slices_balanced _ s2 b2, slices_balanced _ s1 b1, above_mirror l hj hr, b1, zero_sub]
  have e : ((ps.map (mirrorPort g.n)).reverse.map (·.io)).map pos = ((ps.map (·.io)).map pos).reverse := by
    simp only [List.map_reverse, List.map_map]; rfl
  simp only [processVar]
  rw [e, mirror_dTcond hm hp h, mirror_dTadv hm (by simp) hp h]
  · by_cases h0 : k = 0
    · rw [if_pos h0, if_pos (by omega)]
    · rw [if_neg h0, if_neg (by omega), dm (k - 1) k' (by omega)]
  · by_cases h0 : k' = 0
    · rw [if_pos h0, if_pos (by omega)]
    · rw [if_neg h0, if_neg (by omega), dm k (k' - 1) (by omega), neg_neg]

/-- Five cells of different temperature, conductance and mixing, and the same from the other end. -/
def slopedPipe : Inp ℚ := ⟨fun k => 20 + k, 3, 4, 15, fun k => k, 1, 2, fun k => 1 + k⟩

def slopedPipeBack : Inp ℚ := ⟨fun k => 24 - k, 4, 3, 15, fun k => 4 - k, 2, 1, fun k => 4 - k⟩

theorem sloped_mirrors : Mirrors 5 slopedPipe slopedPipeBack := by
  refine ⟨?_, ⟨rfl, rfl⟩, rfl, ?_, ⟨rfl, rfl⟩, ?_⟩ <;> intro k k' h <;> (have : k ≤ 4 := by omega) <;> interval_cases k
  all_goals first
    | (have : k' = 4 := by omega); subst this; decide +kernel
    | (have : k' = 3 := by omega); subst this; decide +kernel
    | (have : k' = 2 := by omega); subst this; decide +kernel
    | (have : k' = 1 := by omega); subst this; decide +kernel
    | (have : k' = 0 := by omega); subst this; decide +kernel
    | omega

example : pipeDT ⟨fun T => 1 + T, fun _ => 2, fun T => 3 + T⟩ ⟨5, 1, 1, 1, 0, 1⟩ slopedPipeBack (-3) ⟨0, 7, 1, 1, 0, -3⟩
      ⟨4, 90, 2, 1, 1, 3⟩ 1 =
    pipeDT ⟨fun T => 1 + T, fun _ => 2, fun T => 3 + T⟩ ⟨5, 1, 1, 1, 0, 1⟩ slopedPipe 3 ⟨0, 90, 2, 1, 1, 3⟩
      ⟨4, 7, 1, 1, 0, -3⟩ 3 :=
  C131_pipe (g := ⟨5, 1, 1, 1, 0, 1⟩) (pin := ⟨0, 90, 2, 1, 1, 3⟩) (pout := ⟨4, 7, 1, 1, 0, -3⟩) sloped_mirrors (by decide)
    (by decide) rfl

/-- A storage with three ports. -/
example : storageDT ⟨fun T => 1 + T, fun _ => 2, fun T => 3 + T⟩ ⟨5, 1, 1, 1, 0, 1⟩ slopedPipeBack
      [⟨0, 7, 1, 1, 0, -3⟩, ⟨2, 30, 1, 1, 0, 1⟩, ⟨4, 90, 2, 1, 1, 2⟩] 2 =
    storageDT ⟨fun T => 1 + T, fun _ => 2, fun T => 3 + T⟩ ⟨5, 1, 1, 1, 0, 1⟩ slopedPipe
      [⟨0, 90, 2, 1, 1, 2⟩, ⟨2, 30, 1, 1, 0, 1⟩, ⟨4, 7, 1, 1, 0, -3⟩] 2 :=
  C131_storage (g := ⟨5, 1, 1, 1, 0, 1⟩) (ps := [⟨0, 90, 2, 1, 1, 2⟩, ⟨2, 30, 1, 1, 0, 1⟩, ⟨4, 7, 1, 1, 0, -3⟩])
    sloped_mirrors (by decide) (by decide) (by decide +kernel) rfl

/-- **C131** is false of the stability check: of two pipes of two cells which are images of each other, one with cold
water in the first and hot water in the second cell and no flow, the check accepts a step of 3.23 s for one only: it
divides the conductance between two cells by the heat capacity of the second. -/
theorem C131_fails_check : ∃ (g : Geo ℚ) (s s' : Inp ℚ) (a b : Port ℚ) (h : ℚ), Mirrors g.n s s' ∧
    Stability.check (pipeCheck ⟨Water.cp, Water.rho, Water.lam⟩ g s' 1 1 0 (mirrorPort g.n b) (mirrorPort g.n a)) h = none ∧
    Stability.check (pipeCheck ⟨Water.cp, Water.rho, Water.lam⟩ g s 1 1 0 a b) h ≠ none := by
  refine ⟨⟨2, 1, 1, 1 / 1000, 0, 0⟩, ⟨fun k => if k = 0 then 20 else 90, 0, 0, 20, fun _ => 0, 0, 0, fun _ => 1⟩,
    ⟨fun k => if k = 0 then 90 else 20, 0, 0, 20, fun _ => 0, 0, 0, fun _ => 1⟩, ⟨0, 20, 1, 1 / 1000, 0, 0⟩,
    ⟨1, 90, 1, 1 / 1000, 0, 0⟩, 323 / 100, ⟨?_, ⟨rfl, rfl⟩, rfl, fun _ _ _ => rfl, ⟨rfl, rfl⟩, fun _ _ _ => rfl⟩, ?_, ?_⟩
  · intro k k' h
    have : k ≤ 1 := by change k + k' + 1 = 2 at h; omega
    interval_cases k
    · have : k' = 1 := by change 0 + k' + 1 = 2 at h; omega
      subst this; rfl
    · have : k' = 0 := by change 1 + k' + 1 = 2 at h; omega
      subst this; rfl
  · decide +kernel
  · decide +kernel

end Verif.Cells

namespace Verif.FlowAlpha

open Verif.Conductance

theorem pipeAlphaI_rest (T A d x y : ℝ) : pipeAlphaI 0 T A d x = pipeAlphaI 0 T A d y := by
  have h : ¬ (2300 : ℝ) < 0 := by norm_num
  simp only [pipeAlphaI, laminarNu, zero_div, abs_zero, zero_mul, if_neg h]

/-- **C131** (heat losses): the coefficients of a pipe, with their memory of the evaluation before, are those of its
image from the other end: distances count from where the water enters. -/
theorem C131_losses {g : Shell} {n : ℕ} {c c' : ℕ → Coeffs} {dm Tamb : ℝ} {T T' : ℕ → ℝ}
    (hc : ∀ k k', k + k' + 1 = n → c' k = c k') (hT : ∀ k k', k + k' + 1 = n → T' k = T k') {k k' : ℕ}
    (h : k + k' + 1 = n) : pipeCoeffs g n c' (-dm) T' Tamb k = pipeCoeffs g n c dm T Tamb k' := by
  have e : ∀ x y : ℝ, (dm = 0 ∨ x = y) → pipeAlphaI (-dm) (T k') g.aCell (2 * g.rI) x =
      pipeAlphaI dm (T k') g.aCell (2 * g.rI) y := by
    rintro x y (rfl | rfl)
    · rw [neg_zero]; exact pipeAlphaI_rest _ _ _ _ _
    · simp only [pipeAlphaI, neg_div, abs_neg]
  have e2 := e (flowDist n g.gs (-dm) k) (flowDist n g.gs dm k') (by
    unfold flowDist
    rcases lt_trichotomy dm 0 with hd | hd | hd
    · right
      rw [if_neg (by linarith), if_pos hd]
      congr 1; omega
    · exact Or.inl hd
    · right
      rw [if_pos (by linarith), if_neg (by linarith)]
      congr 1; omega)
  unfold pipeCoeffs evaluate
  rw [hT k k' h, hc k k' h]
  simp only [e2]

example : pipeCoeffs pipeShell 10 (fun _ => Coeffs.init) (-0.1) (fun k => 69 - k) 20 9 =
    pipeCoeffs pipeShell 10 (fun _ => Coeffs.init) 0.1 (fun k => 60 + k) 20 0 :=
  C131_losses (fun _ _ _ => rfl) (fun k k' h => by
    have : (k : ℝ) + k' + 1 = 10 := by exact_mod_cast h
    linarith) rfl

end Verif.FlowAlpha

namespace Verif.Attempt

open Verif.Cells

variable {K H N P P' : Type*} [Field K] [LinearOrder K] [IsStrictOrderedRing K]

/-- Specification: temperatures seen from the other end. -/
def MirrorT (n : ℕ) (b b' : List (ℕ → K)) : Prop :=
  ∃ x x', b = [x] ∧ b' = [x'] ∧ ∀ k k', k + k' + 1 = n → x' k = x k'

/-- **C131**, partial (plants): if one pipe of a plant is turned round, the whole simulation is the same, cell by cell
from the other end in this pipe.  Rest of the plant and memory (`Rm`: coefficients of the evaluation before) are
arbitrary.  Missing: rejected steps, since the stability check is not symmetric (`C131_fails_check`). -/
theorem C131_simulation_partial {sys : System K (ℕ → K) H N P} {sys' : System K (ℕ → K) H N P'} {v : Vessel K H P}
    {v' : Vessel K H P'} {io : P → K} {io' : P' → K} {pin pout : P → Port K} {pin' pout' : P' → Port K}
    {Rm : H → H → Prop} {Rp : P → P' → Prop} {da dr : List (Diff K (ℕ → K) H P)} {da' dr' : List (Diff K (ℕ → K) H P')}
    (l : List K) (hd : sys.diffs = da ++ ([v.pipe io pin pout] ++ dr))
    (hd' : sys'.diffs = da' ++ ([v'.pipe io' pin' pout'] ++ dr'))
    (ha : ∀ h ∈ l, List.Forall₂ (Same Rp h) da da') (hr : ∀ h ∈ l, List.Forall₂ (Same Rp h) dr dr')
    (hmat : v'.mat = v.mat) (hg : v'.g = v.g)
    (hidx : ∀ p, (pin p).idx < v.g.n ∧ (pout p).idx < v.g.n)
    (hpo : ∀ p p', Rp p p' → io' p' = -io p ∧ pin' p' = mirrorPort v.g.n (pout p) ∧ pout' p' = mirrorPort v.g.n (pin p))
    (hin : ∀ m m' p p' x x', Rm m m' → Rp p p' → (∀ k k', k + k' + 1 = v.g.n → x' k = x k') →
      Mirrors v.g.n (v.inp m p x) (v'.inp m' p' x') ∧ Rm (v.upd m p x) (v'.upd m' p' x'))
    (hso : ∀ h ∈ l, List.Forall₂ (fun f f' => ∀ n p p', Rp p p' → f n p h = f' n p' h) sys.solves sys'.solves)
    (hit : ∀ xs xs' ns p p', Around da.length 1 1 (MirrorT v.g.n) xs xs' → Rp p p' →
      Rp (sys.interm xs ns p) (sys'.interm xs' ns p'))
    (hre : ∀ xs xs' ns p p', Around da.length 1 1 (MirrorT v.g.n) xs xs' → Rp p p' →
      Rp (sys.result xs ns p) (sys'.result xs' ns p'))
    {s : State (ℕ → K) H N P} {s' : State (ℕ → K) H N P'}
    (hs : Corresponds sys sys' (Around da.length 1 1 (MirrorT v.g.n))
      (Around da.length 1 1 fun ms ms' => ∃ m m', ms = [m] ∧ ms' = [m'] ∧ Rm m m') Eq (fun _ => Rp) s s')
    (hst : ∀ l₁ h l₂, l = l₁ ++ h :: l₂ →
      (call sys (simulate sys s (l₁.map fun h => ([], h))) [] h).stable = true ∧
        (call sys' (simulate sys' s' (l₁.map fun h => ([], h))) [] h).stable = true) :
    Around da.length 1 1 (MirrorT v.g.n) ((simulate sys s (l.map fun h => ([], h))).parts.map PState.prev)
      ((simulate sys' s' (l.map fun h => ([], h))).parts.map PState.prev) := by
  have lift : ∀ {h : K} (d : Diff K (ℕ → K) H P) (d' : Diff K (ℕ → K) H P'), Same Rp h d d' →
      Same (Sometimes fun _ : List (ℕ → K) => Rp) h d d' := fun _ _ q m x p p' => fun ⟨_, hp⟩ => q m x p p' hp
  refine (simulate_twins l hs (fun h hh => ?_) hst).temps
  refine replace_twins (Rp := fun _ => Rp) (db := [v.pipe io pin pout]) (db' := [v'.pipe io' pin' pout']) hd hd' ((ha h hh).imp lift) ((hr h hh).imp lift) ?_ ?_
    ((hso h hh).imp fun _ _ q n p p' => fun ⟨_, hp⟩ => q n p p' hp) (fun xs xs' ns _ => hit xs xs' ns)
    (fun xs xs' ns _ => hre xs xs' ns)
  · rintro _ _ p p' _ _ _ _ ⟨m, m', rfl, rfl, hm⟩ hp _ ⟨x, x', rfl, rfl, hx⟩ _ _ _ _
    obtain ⟨i1, i2⟩ := hin m m' p p' x x' hm hp hx
    refine ⟨⟨_, _, rfl, rfl, ?_⟩, ⟨_, _, rfl, rfl, i2⟩⟩
    intro k k' hk
    obtain ⟨p1, p2, p3⟩ := hpo p p' hp
    simp only [Vessel.pipe, hg, hmat, p1, p2, p3]
    rw [if_pos (by omega), if_pos (by omega)]
    exact C131_pipe i1 (hidx p).1 (hidx p).2 hk
  · rintro a _ _ _ _ ⟨x, x', rfl, rfl, hx⟩ ⟨y, y', rfl, rfl, hy⟩
    refine ⟨_, _, rfl, rfl, fun k k' hk => ?_⟩
    simp only [Pi.add_apply, Pi.smul_apply, hx k k' hk, hy k k' hk]

/-- The test pipe turned round. -/
def testPipeBack : Vessel ℚ Unit ℚ :=
  { testPipe with
    ports := fun p => [⟨0, 0, 1, 1, 0, -2⟩, ⟨2, p, 1, 1, 0, 2⟩]
    check := fun _ _ _ _ => true }

def testPlantBack : System ℚ (ℕ → ℚ) Unit Unit ℚ where
  diffs := [testPipeBack.pipe (fun _ => -2) (fun _ => ⟨0, 0, 1, 1, 0, -2⟩) (fun p => ⟨2, p, 1, 1, 0, 2⟩)]
  solves := []
  interm _ _ p := p
  result _ _ p := p

/-- The hypotheses are met by this plant, for any temperatures, temperature of the inflow and number of steps. -/
example (n : ℕ) (x : ℕ → ℚ) (p : ℚ) : Around 0 1 1 (MirrorT 3)
    ((simulate testPlant (pipeState x p) ((List.replicate n (1 / 6)).map fun h => ([], h))).parts.map PState.prev)
    ((simulate testPlantBack (pipeState (fun k => x (2 - k)) p) ((List.replicate n (1 / 6)).map fun h => ([], h))).parts.map
      PState.prev) := by
  have stab : ∀ s : State (ℕ → ℚ) Unit Unit ℚ, (call testPlant s [] (1 / 6)).stable = true ∧
      (call testPlantBack s [] (1 / 6)).stable = true := by
    intro s
    obtain ⟨parts, nn, p, st⟩ := s
    cases parts with
    | nil => exact ⟨rfl, rfl⟩
    | cons a l =>
      have e : ((testPipe.pipe (fun _ => 2) (fun p => ⟨0, p, 1, 1, 0, 2⟩) (fun _ => ⟨2, 0, 1, 1, 0, -2⟩)) a.mem p a.prev
          (1 / 6)).stable = true := testPipe_stable p a.prev
      refine ⟨?_, rfl⟩
      simp only [call, attempt, testPlant, predict, e, List.foldl_nil, if_true, predict1, finish]
  refine C131_simulation_partial (v := testPipe) (v' := testPipeBack) (Rm := Eq) (Rp := Eq) (da := []) (da' := [])
    (dr := []) (dr' := []) (io := fun _ => 2) (io' := fun _ => -2) _ rfl rfl (fun _ _ => List.Forall₂.nil)
    (fun _ _ => List.Forall₂.nil) rfl rfl (fun _ => ⟨(by decide : 0 < 3), (by decide : 2 < 3)⟩) ?_ ?_
    (fun _ _ => List.Forall₂.nil)
    (fun _ _ _ _ _ _ h => h) (fun _ _ _ _ _ _ h => h) ?_ ?_
  · rintro p _ rfl
    exact ⟨rfl, rfl, rfl⟩
  · rintro m _ p _ x x' rfl rfl hx
    exact ⟨⟨hx, ⟨rfl, rfl⟩, rfl, fun _ _ _ => rfl, ⟨rfl, rfl⟩, fun _ _ _ => rfl⟩, rfl⟩
  · refine ⟨rfl, rfl, ⟨[], [x], [fun k => x (2 - k)], [], rfl, rfl, rfl, rfl, rfl, x, _, rfl, rfl, ?_⟩,
      ⟨[], [()], [()], [], rfl, rfl, rfl, rfl, rfl, (), (), rfl, rfl, rfl⟩, rfl, rfl⟩
    intro k k' h
    have h3 : k + k' + 1 = 3 := h
    show x (2 - k) = x k'
    congr 1; omega
  · intro l₁ h l₂ e
    have hc : h ∈ List.replicate n (1 / 6 : ℚ) := by rw [e]; simp
    rw [List.eq_of_mem_replicate hc]
    exact ⟨(stab _).1, (stab _).2⟩

end Verif.Attempt
