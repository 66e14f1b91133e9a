import Verif.Props.StepFree

/-!
# C208: a larger deviation never leads to a weaker action
-/

set_option linter.unusedSectionVars false

namespace Verif.Controls

variable {K : Type*} [Field K] [LinearOrder K] [IsStrictOrderedRing K]

/-- Specification: the same step of another plant, in which the values are at least as far below the setpoint. -/
structure Colder (i i' : Inp K) : Prop where
  dt : i'.dt = i.dt
  master : i'.masterOff = i.masterOff
  error : i.error ≤ i'.error
  pv : i.sp - i.pv ≤ i'.sp - i'.pv
  onVal : i'.onVal ≤ i.onVal

theorem clip_le_clip {lo hi x y : K} (h : lo ≤ hi) (hxy : x ≤ y) : clip lo hi x ≤ clip lo hi y := by
  have e : ∀ z : K, clip lo hi z = max lo (min hi z) := by
    intro z
    unfold clip
    by_cases a : lo ≤ z ∧ z ≤ hi
    · rw [if_pos a, min_eq_right a.2, max_eq_right a.1]
    · rw [if_neg a]
      by_cases b : hi < z
      · rw [if_pos b, min_eq_left b.le, max_eq_right h]
      · have b' : z < lo := by
          by_contra q
          exact a ⟨not_lt.mp q, not_lt.mp b⟩
        rw [if_neg b, min_eq_right (not_lt.mp b), max_eq_left b'.le]
  rw [e, e]
  exact max_le_max le_rfl (min_le_min le_rfl hxy)

theorem clipSat_mono {c : Cfg K} (h : c.satMin ≤ c.satMax) {x y : K} (hxy : x ≤ y) : clipSat c x ≤ clipSat c y := by
  unfold clipSat
  split_ifs <;> linarith

theorem clipAw_mono {aw : Option K} (h : AwOk aw) {x y : K} (hxy : x ≤ y) : clipAw aw x ≤ clipAw aw y := by
  rcases aw with _ | a
  · exact hxy
  · have := h a rfl
    unfold clipAw
    dsimp only
    split_ifs <;> linarith

theorem move_minmax {n p d x y : K} (hn : n < 0) (hp : 0 < p) (hd : 0 < d) :
    move (some (n, p)) d x y = max (x + n * d) (min (x + p * d) y) := by
  rw [move_eq hd]
  have h1 := mul_pos hp hd
  have h2 := mul_neg_of_neg_of_pos hn hd
  by_cases a : n * d ≤ y - x ∧ y - x ≤ p * d
  · rw [if_pos a, min_eq_right (by linarith [a.2]), max_eq_right (by linarith [a.1])]
  · rw [if_neg a]
    by_cases b : p * d < y - x
    · rw [if_pos b, min_eq_left (by linarith), max_eq_right (by linarith)]
    · have b' : y - x < n * d := by
        by_contra q
        exact a ⟨not_lt.mp q, not_lt.mp b⟩
      rw [if_neg b, min_eq_right (by linarith), max_eq_left (by linarith)]

theorem move_mono {sl : Option (K × K)} (h : SlopeOk sl) {d x y x' y' : K} (hd : 0 < d) (hx : x ≤ x') (hy : y ≤ y') :
    move sl d x y ≤ move sl d x' y' := by
  rcases sl with _ | ⟨n, p⟩
  · exact hy
  · obtain ⟨hn, hp⟩ := h n p rfl
    rw [move_minmax hn hp hd, move_minmax hn hp hd]
    exact max_le_max (by linarith) (min_le_min (by linarith) hy)

/-- The slope limit keeps the control value between bounds that hold before and after it. -/
theorem move_between {sl : Option (K × K)} (h : SlopeOk sl) {d x y lo hi : K} (hd : 0 < d) (hx : lo ≤ x ∧ x ≤ hi)
    (hy : lo ≤ y ∧ y ≤ hi) : lo ≤ move sl d x y ∧ move sl d x y ≤ hi := by
  rcases sl with _ | ⟨n, p⟩
  · exact hy
  · obtain ⟨hn, hp⟩ := h n p rfl
    have h1 := mul_pos hp hd
    have h2 := mul_neg_of_neg_of_pos hn hd
    rw [move_minmax hn hp hd]
    exact ⟨le_trans (le_min (by linarith [hx.1]) hy.1) (le_max_right _ _),
      max_le (by linarith [hx.2]) (le_trans (min_le_right _ _) hy.2)⟩

theorem ctrl_move {c : Cfg K} {run : Inp K → St K → St K} (i : Inp K) (s : St K) (h : (run i (shift c i s)).prevCv = s.cv) :
    (ctrl c run i s).cv = move c.slope i.dt s.cv (run i (shift c i s)).cv := by
  unfold ctrl slopeLimit processDirect move
  rcases c.slope with _ | ⟨n, p⟩
  · rfl
  · simp only [h]

theorem ctrl_clip {c : Cfg K} {run : Inp K → St K → St K} (i : Inp K) (s : St K) :
    (ctrl c run i s).act = clip c.llim c.ulim (ctrl c run i s).cv := rfl

theorem master_same {c : Cfg K} {i i' : Inp K} (h : i'.masterOff = i.masterOff) : offByMaster c i' = offByMaster c i := by
  unfold offByMaster
  rw [h]

section Pi

variable {c : Cfg K} {p : Pid K}

/-- Which state of a controller acts at least as strongly. -/
structure Ahead (s s' : St K) : Prop where
  cv : s.cv ≤ s'.cv
  iTerm : s.iTerm ≤ s'.iTerm
  prevITerm : s.prevITerm ≤ s'.prevITerm

theorem pi_ahead (hc : c.Ok) (hd : c.discrete = false) (hinv : c.invert = false) (hkp : 0 ≤ p.kp) (hki : 0 ≤ p.ki) (hkd : p.kd = 0)
    (haw : AwOk p.aw) {i i' : Inp K} (hi : Colder i i') (hdt : 0 < i.dt) {s s' : St K} (h : Ahead s s') :
    Ahead (ctrl c (p.run c) i s) (ctrl c (p.run c) i' s') := by
  have hm : offByMaster c i' = offByMaster c i := master_same hi.master
  have hp : ∀ (j : Inp K) (r : St K), (p.run c j (shift c j r)).prevCv = r.cv := by
    intro j r
    have : (shift c j r).prevCv = r.cv := by unfold shift; split_ifs <;> rfl
    unfold Pid.run subCheck Pid.law
    simp only [hd, Bool.false_eq_true, if_false]
    split_ifs <;> exact this
  have hprev : (shift c i s).prevITerm ≤ (shift c i' s').prevITerm := by
    unfold shift
    simp only [hd, Bool.false_eq_true, if_false]
    split_ifs
    · exact h.prevITerm
    · exact h.iTerm
  have he : ∀ (j : Inp K) (r : St K), (shift c j r).error = j.error := by
    intro j r
    rfl
  have hJ : clipAw p.aw (i.dt * i.error + (shift c i s).prevITerm) ≤ clipAw p.aw (i'.dt * i'.error + (shift c i' s').prevITerm) := by
    refine clipAw_mono haw (add_le_add ?_ hprev)
    rw [hi.dt]
    exact mul_le_mul_of_nonneg_left hi.error hdt.le
  have run_cv : ∀ (j : Inp K) (r : St K), (p.run c j (shift c j r)).cv = if offByMaster c j then c.off else
      clipSat c (p.kp * j.error + p.ki * clipAw p.aw (j.dt * j.error + (shift c j r).prevITerm)) := by
    intro j r
    unfold Pid.run subCheck Pid.law inv
    simp only [hd, hinv, hkd, he, Bool.false_eq_true, if_false, zero_mul, add_zero, mul_one]
    split_ifs <;> rfl
  have run_i : ∀ (j : Inp K) (r : St K), (ctrl c (p.run c) j r).iTerm = if offByMaster c j then 0 else
      clipAw p.aw (j.dt * j.error + (shift c j r).prevITerm) := by
    intro j r
    have : (ctrl c (p.run c) j r).iTerm = (p.run c j (shift c j r)).iTerm := by
      unfold ctrl slopeLimit processDirect
      rcases c.slope with _ | ⟨n, q⟩ <;> rfl
    rw [this]
    unfold Pid.run subCheck Pid.law
    simp only [hd, he, Bool.false_eq_true, if_false, if_true]
    split_ifs <;> rfl
  have run_p : ∀ (j : Inp K) (r : St K), (ctrl c (p.run c) j r).prevITerm = (shift c j r).prevITerm := by
    intro j r
    have : (ctrl c (p.run c) j r).prevITerm = (p.run c j (shift c j r)).prevITerm := by
      unfold ctrl slopeLimit processDirect
      rcases c.slope with _ | ⟨n, q⟩ <;> rfl
    rw [this]
    unfold Pid.run subCheck Pid.law
    simp only [hd, Bool.false_eq_true, if_false]
    split_ifs <;> rfl
  refine ⟨?_, ?_, ?_⟩
  · rw [ctrl_move _ _ (hp i s), ctrl_move _ _ (hp i' s'), hi.dt]
    refine move_mono hc.slopeSign hdt h.cv ?_
    rw [run_cv, run_cv, hm]
    split_ifs
    · exact le_rfl
    · exact clipSat_mono hc.sat.le (add_le_add (mul_le_mul_of_nonneg_left hi.error hkp) (mul_le_mul_of_nonneg_left hJ hki))
  · rw [run_i, run_i, hm]
    split_ifs
    · exact le_rfl
    · exact hJ
  · rw [run_p, run_p]
    exact hprev

theorem pi_ahead_calls (hc : c.Ok) (hd : c.discrete = false) (hinv : c.invert = false) (hkp : 0 ≤ p.kp) (hki : 0 ≤ p.ki)
    (hkd : p.kd = 0) (haw : AwOk p.aw) {is is' : List (Inp K)} (h : List.Forall₂ Colder is is') : (∀ i ∈ is, 0 < i.dt) →
    ∀ {s s' : St K}, Ahead s s' → s.act ≤ s'.act →
    (calls c (p.run c) s is).cv ≤ (calls c (p.run c) s' is').cv ∧ (calls c (p.run c) s is).act ≤ (calls c (p.run c) s' is').act := by
  induction h with
  | nil => intro _ s s' h ha; exact ⟨h.cv, ha⟩
  | @cons i i' is is' hi _ ih =>
    intro hpos s s' h _
    have a := pi_ahead hc hd hinv hkp hki hkd haw hi (hpos i (by simp)) h
    refine ih (fun j hj => hpos j (List.mem_cons_of_mem _ hj)) a ?_
    rw [ctrl_clip, ctrl_clip]
    exact clip_le_clip hc.lim a.cv

/-- **C208** (P, I and PI controllers in continuous time), partial: if the process values of one plant were never nearer to the setpoint
from below than those of another, its controller does not act more weakly, whatever the limits, the slopes, the anti-windup and the
states of the master.  Missing: derivative parts (`C208_fails_derivative`), discrete time (`C208_fails_discrete`); inverted controllers
act the other way round. -/
theorem C208_pi_partial (hc : c.Ok) (hd : c.discrete = false) (hinv : c.invert = false) (hkp : 0 ≤ p.kp) (hki : 0 ≤ p.ki)
    (hkd : p.kd = 0) (haw : AwOk p.aw) (act : K) {is is' : List (Inp K)} (h : List.Forall₂ Colder is is') (hpos : ∀ i ∈ is, 0 < i.dt) :
    (calls c (p.run c) (St.init act) is).cv ≤ (calls c (p.run c) (St.init act) is').cv ∧
      (calls c (p.run c) (St.init act) is).act ≤ (calls c (p.run c) (St.init act) is').act :=
  pi_ahead_calls hc hd hinv hkp hki hkd haw h hpos ⟨le_rfl, le_rfl, le_rfl⟩ le_rfl

end Pi

section Two

variable {c : Cfg K}

/-- Targets that do not fall when it gets colder and stay between the off state and the saturation. -/
structure Rising (c : Cfg K) (tgt : Inp K → Option K) : Prop where
  mono : ∀ i i' x x', Colder i i' → c.off ≤ x → x' ≤ c.satMax → x ≤ x' → (tgt i).getD x ≤ (tgt i').getD x'
  between : ∀ i x, c.off ≤ x ∧ x ≤ c.satMax → c.off ≤ (tgt i).getD x ∧ (tgt i).getD x ≤ c.satMax

theorem switch_ahead (hc : c.Ok) {run : Inp K → St K → St K} {tgt : Inp K → Option K} (hf : Switching c run tgt)
    (ht : Rising c tgt) {is is' : List (Inp K)} (h : List.Forall₂ Colder is is') : (∀ i ∈ is, 0 < i.dt) →
    ∀ {s s' : St K}, s.cv ≤ s'.cv → (c.off ≤ s.cv ∧ s.cv ≤ c.satMax) → (c.off ≤ s'.cv ∧ s'.cv ≤ c.satMax) → s.act ≤ s'.act →
    (calls c run s is).cv ≤ (calls c run s' is').cv ∧ (calls c run s is).act ≤ (calls c run s' is').act := by
  induction h with
  | nil => intro _ s s' h _ _ ha; exact ⟨h, ha⟩
  | @cons i i' is is' hi _ ih =>
    intro hpos s s' h hb hb' _
    obtain ⟨a1, a2⟩ := switch_call hf i s
    obtain ⟨b1, b2⟩ := switch_call hf i' s'
    have hd : 0 < i.dt := hpos i (by simp)
    rw [hi.dt] at b1 b2
    have le : (ctrl c run i s).cv ≤ (ctrl c run i' s').cv := by
      rw [a1, b1]
      exact move_mono hc.slopeSign hd h (ht.mono i i' _ _ hi hb.1 hb'.2 h)
    refine ih (fun j hj => hpos j (List.mem_cons_of_mem _ hj)) le ?_ ?_ ?_
    · rw [a1]
      exact move_between hc.slopeSign hd hb (ht.between i _ hb)
    · rw [b1]
      exact move_between hc.slopeSign hd hb' (ht.between i' _ hb')
    · rw [ctrl_clip, ctrl_clip]
      exact clip_le_clip hc.lim le

/-- **C208** (bang-bang controllers), partial: unless inverted, for every slope limit.  Missing: inverted ones. -/
theorem C208_bang_partial (hc : c.Ok) (hi : c.invert = false) {hyst : K} (hh : 0 ≤ hyst) (hoff : c.off ≤ 0) (hmax : 0 ≤ c.satMax)
    (act : K) {is is' : List (Inp K)} (h : List.Forall₂ Colder is is') (hpos : ∀ i ∈ is, 0 < i.dt) :
    (calls c (bangBang hyst c) (St.init act) is).cv ≤ (calls c (bangBang hyst c) (St.init act) is').cv ∧
      (calls c (bangBang hyst c) (St.init act) is).act ≤ (calls c (bangBang hyst c) (St.init act) is').act := by
  refine switch_ahead hc (bang_switching hi hyst) ⟨fun i i' x x' q hx hx' hxx => ?_, fun i x hx => ?_⟩ h hpos le_rfl
    ⟨hoff, hmax⟩ ⟨hoff, hmax⟩ le_rfl
  · have hm : offByMaster c i' = offByMaster c i := master_same q.master
    have := q.pv
    have hn : ¬ hyst < 0 := not_lt.mpr hh
    have := abs_nonneg hyst
    simp only [hm, hn, if_false]
    split_ifs <;> simp only [Option.getD_some, Option.getD_none] <;> linarith
  · have hn : ¬ hyst < 0 := not_lt.mpr hh
    simp only [hn, if_false]
    split_ifs <;> simp only [Option.getD_some, Option.getD_none] <;> constructor <;> linarith [hx.1, hx.2]

/-- **C208** (controllers with two sensors that charge a storage: on when the one is too cold, off when the other is hot enough),
partial: unless inverted, for every slope limit. -/
theorem C208_two_partial (hc : c.Ok) (hi : c.invert = false) {t : Two K} (hon : t.actLower = true) (hdown : t.deactLower = false)
    (hoff : c.off ≤ 0) (hmax : 0 ≤ c.satMax) (act : K) {is is' : List (Inp K)} (h : List.Forall₂ Colder is is')
    (hpos : ∀ i ∈ is, 0 < i.dt) :
    (calls c (t.run c) (St.init act) is).cv ≤ (calls c (t.run c) (St.init act) is').cv ∧
      (calls c (t.run c) (St.init act) is).act ≤ (calls c (t.run c) (St.init act) is').act := by
  refine switch_ahead hc (two_switching hi t) ⟨fun i i' x x' q hx hx' hxx => ?_, fun i x hx => ?_⟩ h hpos le_rfl
    ⟨hoff, hmax⟩ ⟨hoff, hmax⟩ le_rfl
  · have hm : offByMaster c i' = offByMaster c i := master_same q.master
    have h1 : t.off i' → t.off i := by
      simp only [Two.off, hdown, Bool.false_eq_true, if_false]
      intro a
      linarith [q.pv]
    have h2 : t.on i → t.on i' := by
      simp only [Two.on, hon, if_true]
      intro a
      linarith [q.onVal]
    simp only [hm]
    by_cases a : offByMaster c i = true
    · simp [a]
    · by_cases b : t.off i' 
      · simp [a, b, h1 b]
      · by_cases d : t.off i
        · simp only [a, b, d, if_true, if_false, Bool.false_eq_true, Option.getD_some]
          split_ifs <;> simp only [Option.getD_some, Option.getD_none] <;> linarith
        · by_cases e : t.on i
          · simp [a, b, d, e, h2 e]
          · simp only [a, b, d, e, if_false, Bool.false_eq_true, Option.getD_none]
            split_ifs <;> simp only [Option.getD_some, Option.getD_none] <;> linarith
  · split_ifs <;> simp only [Option.getD_some, Option.getD_none] <;> constructor <;> linarith [hx.1, hx.2]

end Two

/-- A plant that is colder by 1 K in the first of two steps. -/
example : List.Forall₂ Colder [stepInp 2 1, stepInp 1 (-1)] [stepInp 2 2, stepInp 1 (-1)] ∧ (stepCfg false false).Ok ∧
    let p : Pid ℚ := ⟨1, 1, 0, some 3, none⟩
    (calls (stepCfg false false) (p.run (stepCfg false false)) (St.init 0) [stepInp 2 1, stepInp 1 (-1)]).act = 0 ∧
    (calls (stepCfg false false) (p.run (stepCfg false false)) (St.init 0) [stepInp 2 2, stepInp 1 (-1)]).act = 1 := by
  refine ⟨?_, ⟨by decide +kernel, by decide +kernel, fun n p h => by simp [stepCfg] at h⟩, by decide +kernel⟩
  refine .cons ⟨rfl, rfl, by decide +kernel, by decide +kernel, le_rfl⟩ (.cons ⟨rfl, rfl, le_rfl, le_rfl, le_rfl⟩ .nil)

/-- **C208** fails for derivative parts: the plant that was colder before has less action now. -/
theorem C208_fails_derivative : let p : Pid ℚ := ⟨1, 0, 1, none, none⟩
    (calls (stepCfg false false) (p.run (stepCfg false false)) (St.init 0) [stepInp 1 1, stepInp 1 1]).act = 1 ∧
    (calls (stepCfg false false) (p.run (stepCfg false false)) (St.init 0) [stepInp 1 2, stepInp 1 1]).act = 0 := by
  decide +kernel

/-- **C208** fails in discrete time after the saturation was reached: the plant that was too cold by 20 K gets the opposite of heat when it is
too cold by 1 K, the plant that was too cold by 5 K gets heat. -/
theorem C208_fails_discrete : let p : Pid ℚ := ⟨1, 1 / 100, 0, none, none⟩
    0 < (calls (stepCfg true false) (p.run (stepCfg true false)) (St.init 0) [stepInp 1 5, stepInp 1 1]).act ∧
    (calls (stepCfg true false) (p.run (stepCfg true false)) (St.init 0) [stepInp 1 20, stepInp 1 1]).act < -8 := by
  decide +kernel

end Verif.Controls
