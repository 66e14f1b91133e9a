import Verif.Props.Divide
import Verif.Props.Water

/-!
# C153: water cools down along a pipe

The differentials are those of `Model/Cells` (`precomp_funs.py:1094-1240`); nothing is added to the model here.  The
conductance of every cell to the ambient is arbitrary, so the dependence on flow and temperature is covered.
-/

namespace Verif.Cells

variable {K : Type*} [Field K] [LinearOrder K] [IsStrictOrderedRing K] {mat : Mat K} {g : Geo K} {s s' : Inp K}

/-- Specification: the temperature of the water before cell `k`, for flow from cell 0 to the last one. -/
def before (s : Inp K) (Tin : K) (k : ℕ) : K := if k = 0 then Tin else s.T (k - 1)

/-- Specification: the temperature behind cell `k`. -/
def behind (g : Geo K) (s : Inp K) (Tout : K) (k : ℕ) : K := if k + 1 = g.n then Tout else s.T (k + 1)

/-- Specification: nothing changes any more. -/
def Steady (mat : Mat K) (g : Geo K) (s : Inp K) (io : K) (pin pout : Port K) : Prop :=
  ∀ k < g.n, pipeDT mat g s io pin pout k = 0

/-- Specification: the enthalpy of the fluid grows with the temperature. -/
def EnthalpyGrows (mat : Mat K) : Prop := StrictMono (enthalpy mat)

/-- The balance of a cell without change, for flow away from cell 0. -/
theorem steady_balance {io : K} {pin pout : Port K} (hph : Physical mat g s [pin, pout]) (h1 : pin.idx = 0)
    (h2 : pout.idx = g.n - 1) (hl : s.lidTop = 0 ∧ s.lidBot = 0) (hio : 0 ≤ io) (hst : Steady mat g s io pin pout) {k : ℕ}
    (hk : k < g.n) : ∃ u v, 0 ≤ u ∧ 0 ≤ v ∧
      u * (before s pin.T k - s.T k) + io * (enthalpy mat (before s pin.T k) - enthalpy mat (s.T k)) +
        v * (behind g s pout.T k - s.T k) + s.uaAmb k * (s.Tamb - s.T k) = 0 ∧
      u = (if k = 0 then uaPort mat g s pin else uaTb mat g s k) ∧
      v = (if k + 1 = g.n then uaPort mat g s pout else uaTb mat g s (k + 1)) := by
  have hC := hph.cap k hk
  have hz := hst k hk
  rw [pipeDT_sides h1 h2 hl.1 hl.2 hk, mcp_eq, div_eq_zero_iff, or_iff_left hC.ne'] at hz
  refine ⟨_, _, ?_, ?_, ?_, rfl, rfl⟩
  · split_ifs with h
    · rw [uaPort_eq]
      exact portConductance_nonneg hph (by simp) (by omega)
    · rw [uaTb_eq hph (by omega) hk]
      exact faceConductance_nonneg hph (by omega)
  · split_ifs with h
    · rw [uaPort_eq]
      exact portConductance_nonneg hph (by simp) (by omega)
    · rw [uaTb_eq hph (by omega) (by omega)]
      exact faceConductance_nonneg hph (by omega)
  · unfold leftSide rightSide at hz
    unfold before behind enthalpy
    rw [if_pos hio, if_pos hio] at hz
    split_ifs at hz ⊢ <;> linear_combination hz

omit [Field K] [IsStrictOrderedRing K] in
/-- The first cell with the lowest value. -/
theorem exists_first_min (f : ℕ → K) {n : ℕ} (hn : 0 < n) :
    ∃ k < n, (∀ j < n, f k ≤ f j) ∧ ∀ j < k, f k < f j := by
  obtain ⟨m, hm, hmin⟩ := Finset.exists_min_image (Finset.range n) f ⟨0, by simpa using hn⟩
  have hex : ∃ k, k < n ∧ f k = f m := ⟨m, by simpa using hm, rfl⟩
  classical
  refine ⟨Nat.find hex, (Nat.find_spec hex).1, ?_, ?_⟩
  · intro j hj
    rw [(Nat.find_spec hex).2]
    exact hmin j (by simpa using hj)
  · intro j hj
    have h1 := Nat.find_min hex hj
    have h2 : j < n := hj.trans (Nat.find_spec hex).1
    rw [(Nat.find_spec hex).2]
    refine lt_of_le_of_ne (hmin j (by simpa using h2)) fun e => h1 ⟨h2, e.symm⟩

/-- **C153**, partial (flow from cell 0 to the last one): when nothing changes any more, the water of a pipe, whose
inlet is not colder than the ambient, is nowhere colder than the ambient, nowhere hotter than the inlet and does not
become hotter on its way; for any material whose enthalpy grows with the temperature, any number of cells and any
conductances.  Missing: a part behind the outlet that is hotter than the end of the pipe heats it by conduction against
the flow (`C153_fails_neighbour`). -/
theorem C153_cools_partial {io : K} {pin pout : Port K} (hph : Physical mat g s [pin, pout])
    (hH : EnthalpyGrows mat) (h1 : pin.idx = 0) (h2 : pout.idx = g.n - 1) (hl : s.lidTop = 0 ∧ s.lidBot = 0) (hio : 0 < io)
    (hst : Steady mat g s io pin pout) (hin : s.Tamb ≤ pin.T) (hout : s.Tamb ≤ pout.T) (hout' : pout.T ≤ s.T (g.n - 1)) :
    ∀ k < g.n, s.Tamb ≤ s.T k ∧ s.T k ≤ before s pin.T k ∧ s.T k ≤ pin.T := by
  have flux : ∀ {a b u : K}, 0 ≤ u → b < a → 0 < u * (a - b) + io * (enthalpy mat a - enthalpy mat b) := by
    intro a b u hu hab
    have := mul_pos hio (sub_pos.2 (hH hab))
    have := mul_nonneg hu (sub_pos.2 hab).le
    linarith
  have hmin : ∀ k < g.n, s.Tamb ≤ s.T k := by
    intro j hj
    obtain ⟨k, hk, m1, m2⟩ := exists_first_min s.T (show 0 < g.n by omega)
    refine le_trans ?_ (m1 j hj)
    by_contra hlt
    push Not at hlt
    obtain ⟨u, v, u0, v0, e, -, -⟩ := steady_balance hph h1 h2 hl hio.le hst hk
    have b1 : s.T k < before s pin.T k := by
      unfold before
      split_ifs with h
      · linarith
      · exact m2 _ (by omega)
    have b2 : s.T k ≤ behind g s pout.T k := by
      unfold behind
      split_ifs with h
      · linarith
      · exact m1 _ (by omega)
    have f := flux u0 b1
    have r := mul_nonneg v0 (sub_nonneg.2 b2)
    have a := mul_nonneg (hph.uaAmb k) (sub_nonneg.2 hlt.le)
    linarith
  have hstep : ∀ d k, k + d + 1 = g.n → behind g s pout.T k ≤ s.T k ∧ s.T k ≤ before s pin.T k := by
    have main : ∀ k < g.n, behind g s pout.T k ≤ s.T k → s.T k ≤ before s pin.T k := by
      intro k hk hb
      by_contra hlt
      push Not at hlt
      obtain ⟨u, v, u0, v0, e, -, -⟩ := steady_balance hph h1 h2 hl hio.le hst hk
      have f := flux u0 hlt
      have r := mul_nonneg v0 (sub_nonneg.2 hb)
      have a := mul_nonneg (hph.uaAmb k) (sub_nonneg.2 (hmin k hk))
      have e1 : u * (before s pin.T k - s.T k) + io * (enthalpy mat (before s pin.T k) - enthalpy mat (s.T k)) =
        -(u * (s.T k - before s pin.T k) + io * (enthalpy mat (s.T k) - enthalpy mat (before s pin.T k))) := by ring
      rw [e1] at e
      linarith
    intro d
    induction d with
    | zero =>
      intro k hk
      have b : behind g s pout.T k ≤ s.T k := by
        unfold behind
        rw [if_pos (by omega)]
        rwa [show g.n - 1 = k by omega] at hout'
      exact ⟨b, main k (by omega) b⟩
    | succ d ih =>
      intro k hk
      have b : behind g s pout.T k ≤ s.T k := by
        have := (ih (k + 1) (by omega)).2
        unfold before at this
        rw [if_neg (by omega), Nat.add_sub_cancel] at this
        unfold behind
        rwa [if_neg (by omega)]
      exact ⟨b, main k (by omega) b⟩
  have hfall : ∀ k < g.n, s.T k ≤ before s pin.T k := fun k hk => (hstep (g.n - 1 - k) k (by omega)).2
  refine fun k hk => ⟨hmin k hk, hfall k hk, ?_⟩
  induction k with
  | zero => simpa [before] using hfall 0 hk
  | succ k ih =>
    refine le_trans ?_ (ih (by omega))
    simpa [before] using hfall (k + 1) hk

/-- **C153**, partial (strict): if the inlet is warmer than the ambient, every cell is, and in every cell that is not
perfectly insulated the water is strictly colder than before. -/
theorem C153_strict_partial {io : K} {pin pout : Port K} (hph : Physical mat g s [pin, pout])
    (hH : EnthalpyGrows mat) (h1 : pin.idx = 0) (h2 : pout.idx = g.n - 1) (hl : s.lidTop = 0 ∧ s.lidBot = 0) (hio : 0 < io)
    (hst : Steady mat g s io pin pout) (hin : s.Tamb < pin.T) (hout : s.Tamb ≤ pout.T) (hout' : pout.T ≤ s.T (g.n - 1)) :
    ∀ k < g.n, s.Tamb < s.T k ∧ (0 < s.uaAmb k → s.T k < before s pin.T k) := by
  have hc := C153_cools_partial hph hH h1 h2 hl hio hst hin.le hout hout'
  have hwarm : ∀ k < g.n, s.Tamb < s.T k := by
    intro j hj
    obtain ⟨k, hk, m1, m2⟩ := exists_first_min s.T (show 0 < g.n by omega)
    refine lt_of_lt_of_le ?_ (m1 j hj)
    refine lt_of_le_of_ne (hc k hk).1 fun heq => ?_
    obtain ⟨u, v, u0, v0, e, -, -⟩ := steady_balance hph h1 h2 hl hio.le hst hk
    have b1 : s.T k < before s pin.T k := by
      unfold before
      split_ifs with h
      · rwa [← heq]
      · exact m2 _ (by omega)
    have b2 : s.T k ≤ behind g s pout.T k := by
      unfold behind
      split_ifs with h
      · rwa [← heq]
      · exact m1 _ (by omega)
    have f := mul_pos hio (sub_pos.2 (hH b1))
    have f' := mul_nonneg u0 (sub_nonneg.2 b1.le)
    have r := mul_nonneg v0 (sub_nonneg.2 b2)
    rw [heq, sub_self, mul_zero] at e
    linarith
  refine fun k hk => ⟨hwarm k hk, fun ha => lt_of_le_of_ne (hc k hk).2.1 fun heq => ?_⟩
  obtain ⟨u, v, u0, v0, e, -, -⟩ := steady_balance hph h1 h2 hl hio.le hst hk
  rw [← heq] at e
  have b : behind g s pout.T k ≤ s.T k := by
    unfold behind
    split_ifs with h
    · rwa [show k = g.n - 1 by omega]
    · have := (hc (k + 1) (by omega)).2.1
      simpa [before] using this
  have r := mul_nonneg v0 (sub_nonneg.2 b)
  have a := mul_pos ha (sub_pos.2 (hwarm k hk))
  have e1 : v * (behind g s pout.T k - s.T k) = -(v * (s.T k - behind g s pout.T k)) := by ring
  have e2 : s.uaAmb k * (s.Tamb - s.T k) = -(s.uaAmb k * (s.T k - s.Tamb)) := by ring
  rw [sub_self, sub_self, e1, e2] at e
  linarith

/-- The pipe seen from the other end. -/
def mirrored (n : ℕ) (s : Inp K) : Inp K :=
  ⟨fun k => s.T (n - 1 - k), s.edgeBot, s.edgeTop, s.Tamb, fun k => s.uaAmb (n - 1 - k), s.lidBot, s.lidTop,
    fun k => s.buoy (n - 2 - k)⟩

omit [Field K] [LinearOrder K] [IsStrictOrderedRing K] in
theorem mirrored_mirrors (n : ℕ) (s : Inp K) : Mirrors n s (mirrored n s) := by
  refine ⟨?_, ⟨rfl, rfl⟩, rfl, ?_, ⟨rfl, rfl⟩, ?_⟩ <;> intro k k' h
  · show s.T (n - 1 - k) = _
    rw [show n - 1 - k = k' by omega]
  · show s.uaAmb (n - 1 - k) = _
    rw [show n - 1 - k = k' by omega]
  · show s.buoy (n - 2 - k) = _
    rw [show n - 2 - k = k' by omega]

/-- **C153**, partial (flow from the last cell to cell 0): the same in the other direction, where the water enters
through the port of the last cell. -/
theorem C153_backward_partial {io : K} {pin pout : Port K} (hph : Physical mat g s [pin, pout])
    (hH : EnthalpyGrows mat) (h1 : pin.idx = 0) (h2 : pout.idx = g.n - 1) (hl : s.lidTop = 0 ∧ s.lidBot = 0) (hio : io < 0)
    (hst : Steady mat g s io pin pout) (hin : s.Tamb ≤ pout.T) (hout : s.Tamb ≤ pin.T) (hout' : pin.T ≤ s.T 0) :
    ∀ k < g.n, s.Tamb ≤ s.T k ∧ s.T k ≤ behind g s pout.T k ∧ s.T k ≤ pout.T := by
  intro k hk
  have hm := mirrored_mirrors g.n s
  have hph' : Physical mat g (mirrored g.n s) [mirrorPort g.n pout, mirrorPort g.n pin] := by
    refine ⟨fun j hj => hph.lam _ (by omega), hph.gs, hph.aCell, hph.uaTbWll, fun j => hph.buoy _, fun j => hph.uaAmb _,
      hph.lidBot, hph.lidTop, ?_, fun j hj => hph.cap (g.n - 1 - j) (by omega)⟩
    intro p hp
    rcases List.mem_cons.1 hp with rfl | hp
    · exact hph.ports pout (by simp)
    · rw [List.mem_singleton.1 hp]
      exact hph.ports pin (by simp)
  have hst' : Steady mat g (mirrored g.n s) (-io) (mirrorPort g.n pout) (mirrorPort g.n pin) := by
    intro j hj
    rw [C131_pipe hm (by omega) (by omega) (show j + (g.n - 1 - j) + 1 = g.n by omega)]
    exact hst _ (by omega)
  have := C153_cools_partial hph' hH (by simp [mirrorPort, h2]) (by simp [mirrorPort, h1]) ⟨hl.2, hl.1⟩ (by linarith) hst'
    hin hout (by
      show pin.T ≤ s.T (g.n - 1 - (g.n - 1))
      rwa [Nat.sub_self]) (g.n - 1 - k) (by omega)
  have e : (mirrored g.n s).T (g.n - 1 - k) = s.T k := by
    show s.T (g.n - 1 - (g.n - 1 - k)) = _
    rw [show g.n - 1 - (g.n - 1 - k) = k by omega]
  rw [e] at this
  refine ⟨this.1, ?_, this.2.2⟩
  have h := this.2.1
  unfold before at h
  unfold behind
  split_ifs with kn
  · rw [if_pos (by omega)] at h
    exact h
  · rw [if_neg (by omega)] at h
    have e' : (mirrored g.n s).T (g.n - 1 - k - 1) = s.T (k + 1) := by
      show s.T (g.n - 1 - (g.n - 1 - k - 1)) = _
      rw [show g.n - 1 - (g.n - 1 - k - 1) = k + 1 by omega]
    rwa [e'] at h

/-- **C153**, partial (more flow): of two pipes of the same kind with the same inlet and ambient, the one with more flow
is in no cell colder, when nothing changes any more; material and conductances to the ambient are the same in both.
Missing: in the code the conductance grows with the flow. -/
theorem C153_faster_partial {c r l io io' : K} {pin pout pin' pout' : Port K} (hc : 0 < c)
    (hph : Physical (constMat c r l) g s [pin, pout]) (hph' : Physical (constMat c r l) g s' [pin', pout'])
    (hsame : SameInp s s') (hamb : s'.Tamb = s.Tamb)
    (hp : pin'.T = pin.T ∧ pin'.area = pin.area ∧ pin'.gsp = pin.gsp ∧ pin'.uaWll = pin.uaWll)
    (hq : pout.T ≤ pout'.T ∧ pout'.area = pout.area ∧ pout'.gsp = pout.gsp ∧ pout'.uaWll = pout.uaWll)
    (h1 : pin.idx = 0 ∧ pin'.idx = 0) (h2 : pout.idx = g.n - 1 ∧ pout'.idx = g.n - 1)
    (hl : s.lidTop = 0 ∧ s.lidBot = 0) (hio : 0 < io) (hle : io ≤ io')
    (hst : Steady (constMat c r l) g s io pin pout) (hst' : Steady (constMat c r l) g s' io' pin' pout')
    (hin : s.Tamb ≤ pin.T) (hout : s.Tamb ≤ pout.T) (hout' : pout.T ≤ s.T (g.n - 1)) :
    ∀ k < g.n, s.T k ≤ s'.T k := by
  have hH : EnthalpyGrows (constMat c r l) := by
    intro a b hab
    simpa [enthalpy, constMat] using mul_lt_mul_of_pos_left hab hc
  have hcool := C153_cools_partial hph hH h1.1 h2.1 hl hio hst hin hout hout'
  intro j hj
  obtain ⟨k, hk, m1, m2⟩ := exists_first_min (fun k => s'.T k - s.T k) (show 0 < g.n by omega)
  have mj : s'.T k - s.T k ≤ s'.T j - s.T j := m1 j hj
  by_contra hlt
  push Not at hlt
  have hneg : s'.T k - s.T k < 0 := by linarith
  obtain ⟨u, v, u0, v0, e, eu, ev⟩ := steady_balance hph h1.1 h2.1 hl hio.le hst hk
  obtain ⟨u', v', -, -, e', eu', ev'⟩ := steady_balance hph' h1.2 h2.2
    ⟨hsame.lidTop.trans hl.1, hsame.lidBot.trans hl.2⟩ (hio.le.trans hle) hst' hk
  have tb : ∀ j, uaTb (constMat c r l) g s' j = uaTb (constMat c r l) g s j := by
    intro j; unfold uaTb; rw [hsame.buoy]; rfl
  have hu : u' = u := by
    rw [eu, eu']
    split_ifs
    · unfold uaPort; rw [hp.2.1, hp.2.2.1, hp.2.2.2]; rfl
    · exact tb _
  have hv : v' = v := by
    rw [ev, ev']
    split_ifs
    · unfold uaPort; rw [hq.2.1, hq.2.2.1, hq.2.2.2]; rfl
    · exact tb _
  have b1 : s'.T k - s.T k < before s' pin'.T k - before s pin.T k := by
    unfold before
    split_ifs with h
    · rw [hp.1, sub_self]; exact hneg
    · exact m2 _ (by omega)
  have b2 : s'.T k - s.T k ≤ behind g s' pout'.T k - behind g s pout.T k := by
    unfold behind
    split_ifs with h
    · linarith [hq.1]
    · exact m1 _ (by omega)
  rw [hu, hv, hsame.uaAmb, hamb] at e'
  simp only [enthalpy, constMat] at e e'
  have t1 := mul_nonneg u0 (sub_nonneg.2 b1.le)
  have t2 := mul_pos (mul_pos (hio.trans_le hle) hc) (sub_pos.2 b1)
  have t3 := mul_nonneg v0 (sub_nonneg.2 b2)
  have t4 := mul_nonneg (mul_nonneg (sub_nonneg.2 hle) hc.le) (sub_nonneg.2 (hcool k hk).2.1)
  have t5 := mul_nonneg (hph.uaAmb k) (neg_nonneg.2 hneg.le)
  nlinarith

/-! ## Witnesses -/

/-- Two cells that lose heat; the inlet is at 80, the ambient at 20, the neighbour behind as warm as the last cell. -/
def coolPipe : Inp ℚ := ⟨fun k => if k = 0 then 60 else 50, 0, 0, 20, fun k => if k = 0 then 3 / 4 else 2 / 3, 0, 0, fun _ => 1⟩
def coolGeo : Geo ℚ := ⟨2, 1, 1, 1, 0, 0⟩

theorem coolPipe_physical : Physical (constMat 1 1 1) coolGeo coolPipe [⟨0, 80, 1, 1, 0, 1⟩, ⟨1, 50, 1, 1, 0, -1⟩] := by
  refine ⟨fun _ _ => ?_, ?_, ?_, ?_, fun _ => ?_, fun k => ?_, ?_, ?_, ?_, fun _ _ => ?_⟩
  all_goals first | decide +kernel | skip
  · norm_num [constMat]
  · norm_num [coolPipe]
  · simp only [coolPipe]; split_ifs <;> norm_num
  · norm_num [heatCapacity, constMat, coolGeo]

/-- The hypotheses of `C153_cools_partial` and `C153_strict_partial`. -/
example : Steady (constMat 1 1 1) coolGeo coolPipe 1 ⟨0, 80, 1, 1, 0, 1⟩ ⟨1, 50, 1, 1, 0, -1⟩ ∧
    EnthalpyGrows (constMat (1 : ℚ) 1 1) ∧ coolPipe.Tamb < 80 ∧ coolPipe.Tamb ≤ 50 ∧ (50 : ℚ) ≤ coolPipe.T (coolGeo.n - 1) := by
  refine ⟨by unfold Steady; decide +kernel, fun a b h => ?_, by decide +kernel, by decide +kernel, by decide +kernel⟩
  simpa [enthalpy, constMat] using h

/-- The same pipe with twice the flow. -/
def coolPipeFast : Inp ℚ := { coolPipe with T := fun k => if k = 0 then 66 else 117 / 2 }

/-- The hypotheses of `C153_faster_partial`. -/
example : Steady (constMat 1 1 1) coolGeo coolPipeFast 2 ⟨0, 80, 1, 1, 0, 2⟩ ⟨1, 185 / 3, 1, 1, 0, -2⟩ ∧
    SameInp coolPipe coolPipeFast ∧ coolPipeFast.Tamb = coolPipe.Tamb ∧ (50 : ℚ) ≤ 185 / 3 := by
  refine ⟨by unfold Steady; decide +kernel, ⟨rfl, rfl, rfl, rfl⟩, rfl, by norm_num⟩

/-- **C153** fails without the condition on the part behind the outlet: the last cell of a perfectly insulated pipe is
hotter (13) than the inlet (10), since the part behind is (17). -/
theorem C153_fails_neighbour :
    ∃ (s : Inp ℚ) (pin pout : Port ℚ), Physical (constMat 1 1 1) coolGeo s [pin, pout] ∧ pin.idx = 0 ∧
      pout.idx = coolGeo.n - 1 ∧ (s.lidTop = 0 ∧ s.lidBot = 0) ∧ Steady (constMat 1 1 1) coolGeo s 1 pin pout ∧
      s.Tamb ≤ pin.T ∧ s.Tamb ≤ pout.T ∧ pin.T < s.T 0 ∧ s.T 0 < s.T 1 := by
  refine ⟨⟨fun k => if k = 0 then 11 else 13, 0, 0, 0, fun _ => 0, 0, 0, fun _ => 1⟩, ⟨0, 10, 1, 1, 0, 1⟩,
    ⟨1, 17, 1, 1, 0, -1⟩, ⟨fun _ _ => ?_, ?_, ?_, ?_, fun _ => ?_, fun k => ?_, ?_, ?_, ?_, fun _ _ => ?_⟩, rfl, rfl,
    ⟨rfl, rfl⟩, ?_, ?_⟩
  all_goals first | decide +kernel | skip
  · norm_num [constMat]
  · norm_num
  · norm_num
  · norm_num [heatCapacity, constMat, coolGeo]
  · unfold Steady; decide +kernel

end Verif.Cells

namespace Verif.Water

open Verif.Cells Verif.Flows

/-- Specification: the geometry is physically meaningful. -/
structure Geometric (g : Geo ℝ) (s : Inp ℝ) (ports : List (Port ℝ)) : Prop where
  gs : 0 < g.gs
  aCell : 0 ≤ g.aCell
  uaTbWll : 0 ≤ g.uaTbWll
  volume : 0 < g.vCell
  mcpWll : 0 ≤ g.mcpWll
  buoy : ∀ k, 0 ≤ s.buoy k
  uaAmb : ∀ k, 0 ≤ s.uaAmb k
  lidTop : 0 ≤ s.lidTop
  lidBot : 0 ≤ s.lidBot
  ports : ∀ p ∈ ports, 0 ≤ p.area ∧ 0 ≤ p.gsp ∧ 0 ≤ p.uaWll

/-- Water between 0 and 100 degC has all the properties which the theorems on temperatures ask for. -/
theorem physical_water {g : Geo ℝ} {s : Inp ℝ} {ports : List (Port ℝ)} (h : Geometric g s ports)
    (hT : ∀ k < g.n, 0 ≤ s.T k ∧ s.T k ≤ 100) (hp : ∀ p ∈ ports, 0 ≤ p.T ∧ p.T ≤ 100) :
    Physical water g s ports := by
  have hlam : ∀ {T : ℝ}, 0 ≤ T → T ≤ 100 → 0 < lam T := fun h0 h1 => lt_of_lt_of_le (by norm_num) (lam_ge h0 h1)
  refine ⟨fun k hk => hlam (hT k hk).1 (hT k hk).2, h.gs, h.aCell, h.uaTbWll, h.buoy, h.uaAmb, h.lidTop, h.lidBot,
    fun p hp' => ?_, fun k hk => ?_⟩
  · obtain ⟨a, b, c⟩ := h.ports p hp'
    exact ⟨a, b, c, hlam (hp p hp').1 (hp p hp').2⟩
  · have c := cp_ge (hT k hk).1 (hT k hk).2
    have r := rho_ge (hT k hk).1 (hT k hk).2
    have v := h.volume
    have w := h.mcpWll
    show 0 < cp (s.T k) * rho (s.T k) * g.vCell + g.mcpWll
    have : 0 < cp (s.T k) * rho (s.T k) * g.vCell := by
      have c' : 0 < cp (s.T k) := by linarith
      have r' : 0 < rho (s.T k) := by linarith
      positivity
    linarith

/-- **C24**, partial (water in storages and branched pipes): with the polynomials of water, and all temperatures
between 0 and 100 degC, a step not longer than the heat capacity of each cell divided by everything connected to it,
4379 J/(kg K) taken for the flow, creates no new extreme temperature.  Missing: as in
`C24_storage_no_new_extreme_partial`. -/
theorem C24_water_storage_partial {g : Geo ℝ} {s : Inp ℝ} {ports : List (Port ℝ)} {m M h : ℝ} (hn : 2 ≤ g.n)
    (hg : Geometric g s ports) (hm : 0 ≤ m) (hM : M ≤ 100) (hw : Within g s ports m M)
    (hsort : (ports.map (·.idx)).Pairwise (· ≤ ·)) (hp : ∀ p ∈ ports, p.idx < g.n)
    (hb : (ports.map (·.io)).sum = 0) (hh : 0 ≤ h)
    (hs : ∀ k < g.n,
      let f := processVar g.n (ports.map (·.idx)) (ports.map (·.io))
      h * (totalConductance water g s ports k + 4379 * (f.top k + f.bot k + inflowThroughPorts ports k)) ≤
        heatCapacity water g s k) :
    ∀ k < g.n, m ≤ s.T k + h * storageDT water g s ports k ∧ s.T k + h * storageDT water g s ports k ≤ M :=
  C24_storage_no_new_extreme_partial hn
    (physical_water hg (fun k hk => ⟨hm.trans (hw.cells k hk).1, (hw.cells k hk).2.trans hM⟩)
      fun p hp => ⟨hm.trans (hw.ports p hp).1, (hw.ports p hp).2.trans hM⟩)
    hw (C50_water_enthalpySlope hm hM) (by norm_num) hsort hp hb hh hs

/-- **C24**, partial (water in pipes): the same for a pipe. -/
theorem C24_water_pipe_partial {g : Geo ℝ} {s : Inp ℝ} {pin pout : Port ℝ} {io m M h : ℝ} (hn : 2 ≤ g.n)
    (hg : Geometric g s [pin, pout]) (hm : 0 ≤ m) (hM : M ≤ 100) (hw : Within g s [pin, pout] m M)
    (h1 : pin.idx = 0) (h2 : pout.idx = g.n - 1) (h3 : pin.io = io) (h4 : pout.io = -io) (hh : 0 ≤ h)
    (hs : ∀ k < g.n, h * (totalConductance water g s [pin, pout] k + 4379 * |io|) ≤ heatCapacity water g s k) :
    ∀ k < g.n, m ≤ s.T k + h * pipeDT water g s io pin pout k ∧ s.T k + h * pipeDT water g s io pin pout k ≤ M :=
  C24_pipe_no_new_extreme_partial hn
    (physical_water hg (fun k hk => ⟨hm.trans (hw.cells k hk).1, (hw.cells k hk).2.trans hM⟩)
      fun p hp => ⟨hm.trans (hw.ports p hp).1, (hw.ports p hp).2.trans hM⟩)
    hw (C50_water_enthalpySlope hm hM) (by norm_num) h1 h2 h3 h4 hh hs

/-- **C153**, partial (water): water between 0 and 100 degC which flows through a pipe whose temperatures no longer
change, cools down from cell to cell and not below the ambient. -/
theorem C153_water_partial {g : Geo ℝ} {s : Inp ℝ} {pin pout : Port ℝ} {io : ℝ} (hg : Geometric g s [pin, pout])
    (hT : ∀ k < g.n, 0 ≤ s.T k ∧ s.T k ≤ 100) (hp : ∀ p ∈ [pin, pout], 0 ≤ p.T ∧ p.T ≤ 100)
    (h1 : pin.idx = 0) (h2 : pout.idx = g.n - 1) (hl : s.lidTop = 0 ∧ s.lidBot = 0) (hio : 0 < io)
    (hst : Steady water g s io pin pout) (hin : s.Tamb < pin.T) (hout : s.Tamb ≤ pout.T) (hout' : pout.T ≤ s.T (g.n - 1)) :
    ∀ k < g.n, s.Tamb < s.T k ∧ s.T k ≤ before s pin.T k ∧ (0 < s.uaAmb k → s.T k < before s pin.T k) := by
  have hH : EnthalpyGrows water := enth_strictMono
  have hph := physical_water hg hT hp
  intro k hk
  have a := C153_cools_partial hph hH h1 h2 hl hio hst hin.le hout hout' k hk
  have b := C153_strict_partial hph hH h1 h2 hl hio hst hin hout hout' k hk
  exact ⟨b.1, a.2.1, b.2⟩

/-! ### Witness: a pipe of water -/

/-- The conductance to the ambient with which the temperatures 60 and 50 do not change. -/
noncomputable def waterLoss (k : ℕ) : ℝ :=
  if k = 0 then (cp 80 * 80 - cp 60 * 60) / 40 else (cp 60 * 60 - cp 50 * 50) / 30

noncomputable def waterPipe : Inp ℝ := ⟨fun k => if k = 0 then 60 else 50, 0, 0, 20, waterLoss, 0, 0, fun _ => 1⟩
noncomputable def waterGeo : Geo ℝ := ⟨2, 1, 0, 1, 0, 0⟩
noncomputable def waterIn : Port ℝ := ⟨0, 80, 0, 1, 0, 1⟩
noncomputable def waterOut : Port ℝ := ⟨1, 50, 0, 1, 0, -1⟩

theorem waterLoss_bounds (k : ℕ) : 0 < waterLoss k ∧ waterLoss k ≤ 2200 := by
  have a := C50_enthalpy_slope (a := 60) (b := 80) (by norm_num) (by norm_num) (by norm_num)
  have b := C50_enthalpy_slope (a := 50) (b := 60) (by norm_num) (by norm_num) (by norm_num)
  unfold waterLoss
  split_ifs
  · rw [div_le_iff₀ (by norm_num), lt_div_iff₀ (by norm_num)]
    constructor <;> linarith [a.1, a.2]
  · rw [div_le_iff₀ (by norm_num), lt_div_iff₀ (by norm_num)]
    constructor <;> linarith [b.1, b.2]

theorem waterPipe_geometric : Geometric waterGeo waterPipe [waterIn, waterOut] := by
  refine ⟨?_, ?_, ?_, ?_, ?_, fun _ => ?_, fun k => (waterLoss_bounds k).1.le, ?_, ?_, ?_⟩
  all_goals norm_num [waterGeo, waterPipe, waterIn, waterOut]

/-- The hypotheses of `C153_water_partial`. -/
example : Steady water waterGeo waterPipe 1 waterIn waterOut ∧ waterPipe.Tamb < waterIn.T ∧
    waterPipe.Tamb ≤ waterOut.T ∧ waterOut.T ≤ waterPipe.T (waterGeo.n - 1) := by
  refine ⟨?_, by norm_num [waterPipe, waterIn], by norm_num [waterPipe, waterOut], by norm_num [waterPipe, waterOut, waterGeo]⟩
  intro k hk
  have hk : k < 2 := hk
  rw [pipeDT_sides rfl rfl rfl rfl hk, div_eq_zero_iff]
  left
  interval_cases k
  · norm_num [leftSide, rightSide, uaPort, uaTb, waterPipe, waterGeo, waterIn, waterOut, waterLoss, water]
  · norm_num [leftSide, rightSide, uaPort, uaTb, waterPipe, waterGeo, waterIn, waterOut, waterLoss, water]

/-- The hypotheses of `C24_water_pipe_partial`, for a step of ten minutes. -/
example : Within waterGeo waterPipe [waterIn, waterOut] 20 80 ∧
    ∀ k < waterGeo.n, 600 * (totalConductance water waterGeo waterPipe [waterIn, waterOut] k + 4379 * |(1 : ℝ)|) ≤
      heatCapacity water waterGeo waterPipe k := by
  have hk2 : ∀ k < waterGeo.n, k = 0 ∨ k = 1 := by
    intro k hk
    have : k < 2 := hk
    omega
  refine ⟨⟨fun k hk => ?_, by norm_num [waterPipe], by norm_num [waterIn, waterOut]⟩, fun k hk => ?_⟩
  · rcases hk2 k hk with rfl | rfl <;> norm_num [waterPipe]
  · have b := (waterLoss_bounds k).2
    have hT : 0 ≤ waterPipe.T k ∧ waterPipe.T k ≤ 100 := by
      rcases hk2 k hk with rfl | rfl <;> norm_num [waterPipe]
    have c := cp_ge hT.1 hT.2
    have r := rho_ge hT.1 hT.2
    have e : totalConductance water waterGeo waterPipe [waterIn, waterOut] k = waterLoss k := by
      rcases hk2 k hk with rfl | rfl <;>
        norm_num [totalConductance, faceConductance, portConductance, waterPipe, waterGeo, waterIn, waterOut]
    rw [e, abs_one]
    show _ ≤ cp (waterPipe.T k) * rho (waterPipe.T k) * 1 + 0
    nlinarith

end Verif.Water
