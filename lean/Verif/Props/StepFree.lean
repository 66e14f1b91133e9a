import Verif.Props.PidLaw

/-!
# C207: the action of a controller does not depend on how the solver divides the time
-/

set_option linter.unusedSectionVars false

namespace Verif.Controls

variable {K : Type*} [Field K] [LinearOrder K] [IsStrictOrderedRing K]

/-- Specification: the same inputs during a part of the time only. -/
def Inp.during (i : Inp K) (d : K) : Inp K := { i with dt := d }

/-- Specification: the second history is the first one with every step divided into one or more steps, during which setpoint,
process value and master stay the same. -/
inductive Divided : List (Inp K) → List (Inp K) → Prop
  | nil : Divided [] []
  | cons (i : Inp K) (ds : List K) {is js : List (Inp K)} (ne : ds ≠ []) (pos : ∀ d ∈ ds, 0 ≤ d) (sum : ds.sum = i.dt)
      (rest : Divided is js) : Divided (i :: is) (ds.map i.during ++ js)

/-- Specification: a limit that leaves zero inside. -/
def AwOk (aw : Option K) : Prop := ∀ a, aw = some a → 0 ≤ a

/-- Specification: the limit does not change the number. -/
def InAw (aw : Option K) (x : K) : Prop := clipAw aw x = x

theorem inside_clip {aw : Option K} (h : AwOk aw) (x : K) : InAw aw (clipAw aw x) := by
  cases aw with
  | none => rfl
  | some a =>
    have := h a rfl
    unfold InAw clipAw
    dsimp only
    split_ifs <;> first | rfl | linarith

theorem inside_zero {aw : Option K} (h : AwOk aw) : InAw aw 0 := by
  cases aw with
  | none => rfl
  | some a =>
    have := h a rfl
    unfold InAw clipAw
    dsimp only
    split_ifs <;> first | rfl | linarith

/-- Adding up in the same direction and limiting at every step is adding up and limiting at the end. -/
theorem clip_add {aw : Option K} (h : AwOk aw) {x e d d' : K} (hx : InAw aw x) (hd : 0 ≤ d) (hd' : 0 ≤ d') :
    clipAw aw (d' * e + clipAw aw (d * e + x)) = clipAw aw ((d + d') * e + x) := by
  cases aw with
  | none => show d' * e + (d * e + x) = (d + d') * e + x; ring
  | some a =>
    have ha := h a rfl
    have hxa : -a ≤ x ∧ x ≤ a := by
      unfold InAw clipAw at hx
      dsimp only at hx
      split_ifs at hx <;> constructor <;> linarith
    have hs : (0 ≤ d * e ∧ 0 ≤ d' * e) ∨ (d * e ≤ 0 ∧ d' * e ≤ 0) := by
      rcases le_total 0 e with he | he
      · exact .inl ⟨mul_nonneg hd he, mul_nonneg hd' he⟩
      · exact .inr ⟨mul_nonpos_of_nonneg_of_nonpos hd he, mul_nonpos_of_nonneg_of_nonpos hd' he⟩
    unfold clipAw
    dsimp only
    rw [add_mul]
    obtain ⟨h1, h2⟩ := hxa
    rcases hs with ⟨h3, h4⟩ | ⟨h3, h4⟩ <;> split_ifs <;> linarith

theorem sum_nonneg' : ∀ (l : List K), (∀ x ∈ l, 0 ≤ x) → 0 ≤ l.sum
  | [], _ => le_rfl
  | x :: l, h => by
    rw [List.sum_cons]
    exact add_nonneg (h x (by simp)) (sum_nonneg' l fun y hy => h y (List.mem_cons_of_mem _ hy))

section PI

variable {c : Cfg K} {p : Pid K}

/-- One call of a PI controller in continuous time. -/
theorem pi_call (hs : c.slope = none) (ht : c.steady = false) (hd : c.discrete = false) (hkd : p.kd = 0) (i : Inp K) (s : St K) :
    let s' := ctrl c (p.run c) i s
    let J := clipAw p.aw (i.dt * i.error + s.iTerm)
    s'.iTerm = (if offByMaster c i then 0 else J) ∧
      s'.cv = (if offByMaster c i then c.off else clipSat c ((p.kp * i.error + p.ki * J) * inv c)) ∧
      s'.act = clip c.llim c.ulim s'.cv := by
  unfold ctrl Pid.run subCheck slopeLimit processDirect Pid.law shift
  simp only [hs, ht, hd, hkd, zero_mul, add_zero, if_false, Bool.false_eq_true]
  by_cases ho : offByMaster c i = true
  · simp [ho]
  · simp [ho]

/-- Calls during a step that is divided. -/
theorem pi_calls (hs : c.slope = none) (ht : c.steady = false) (hd : c.discrete = false) (hkd : p.kd = 0) (haw : AwOk p.aw)
    (i : Inp K) : ∀ (ds : List K) (d : K) (s : St K), (∀ x ∈ d :: ds, 0 ≤ x) → InAw p.aw s.iTerm →
    let s' := calls c (p.run c) s ((d :: ds).map i.during)
    let J := clipAw p.aw ((d :: ds).sum * i.error + s.iTerm)
    s'.iTerm = (if offByMaster c i then 0 else J) ∧
      s'.cv = (if offByMaster c i then c.off else clipSat c ((p.kp * i.error + p.ki * J) * inv c)) ∧
      s'.act = clip c.llim c.ulim s'.cv := by
  intro ds
  induction ds with
  | nil =>
    intro d s _ _
    have := pi_call hs ht hd hkd (i.during d) s
    simp only [List.sum_cons, List.sum_nil, add_zero]
    exact this
  | cons d' ds ih =>
    intro d s hpos hin
    obtain ⟨a1, -, -⟩ := pi_call hs ht hd hkd (i.during d) s
    have ho : offByMaster c (i.during d) = offByMaster c i := rfl
    have hin' : InAw p.aw (ctrl c (p.run c) (i.during d) s).iTerm := by
      rw [a1]
      split_ifs
      · exact inside_zero haw
      · exact inside_clip haw _
    have key := ih d' (ctrl c (p.run c) (i.during d) s) (fun x hx => hpos x (List.mem_cons_of_mem _ hx)) hin'
    have hJ : offByMaster c i = false → clipAw p.aw ((d' :: ds).sum * i.error + (ctrl c (p.run c) (i.during d) s).iTerm) =
        clipAw p.aw ((d :: d' :: ds).sum * i.error + s.iTerm) := by
      intro h
      rw [a1, ho, h, if_neg (by simp)]
      have hp : 0 ≤ (d' :: ds).sum := sum_nonneg' _ fun x hx => hpos x (List.mem_cons_of_mem _ hx)
      rw [List.sum_cons (a := d)]
      exact clip_add haw hin (hpos d (by simp)) hp
    dsimp only at key ⊢
    have hc : calls c (p.run c) s ((d :: d' :: ds).map i.during) =
        calls c (p.run c) (ctrl c (p.run c) (i.during d) s) ((d' :: ds).map i.during) := rfl
    rw [hc]
    by_cases hoff : offByMaster c i = true
    · simp only [hoff, if_true] at key ⊢
      exact key
    · have hoff' : offByMaster c i = false := by simpa using hoff
      rw [hJ hoff'] at key
      exact key

theorem pi_divided (hs : c.slope = none) (ht : c.steady = false) (hd : c.discrete = false) (hkd : p.kd = 0) (haw : AwOk p.aw)
    {is js : List (Inp K)} (h : Divided is js) : ∀ {s s' : St K}, (s'.iTerm = s.iTerm ∧ s'.cv = s.cv ∧ s'.act = s.act) →
    InAw p.aw s.iTerm → (calls c (p.run c) s' js).cv = (calls c (p.run c) s is).cv ∧
      (calls c (p.run c) s' js).act = (calls c (p.run c) s is).act := by
  induction h with
  | nil => intro s s' h _; exact h.2
  | @cons i ds is js ne pos sum _ ih =>
    intro s s' h hin
    obtain ⟨d, ds, rfl⟩ := List.exists_cons_of_ne_nil ne
    have hin' : InAw p.aw s'.iTerm := by rw [h.1]; exact hin
    obtain ⟨a1, a2, a3⟩ := pi_call hs ht hd hkd i s
    obtain ⟨b1, b2, b3⟩ := pi_calls hs ht hd hkd haw i ds d s' pos hin'
    rw [sum, h.1] at b1 b2
    have e : calls c (p.run c) s' ((d :: ds).map i.during ++ js) =
        calls c (p.run c) (calls c (p.run c) s' ((d :: ds).map i.during)) js := by
      unfold calls
      rw [List.foldl_append]
    rw [e, show calls c (p.run c) s (i :: is) = calls c (p.run c) (ctrl c (p.run c) i s) is from rfl]
    refine ih ⟨b1.trans a1.symm, b2.trans a2.symm, ?_⟩ ?_
    · rw [a3, b3, b2, a2]
    · rw [a1]
      split_ifs
      · exact inside_zero haw
      · exact inside_clip haw _

/-- **C207** (PI controllers), partial: however the steps during which setpoint, process value and master are
constant are divided into shorter ones, a PI (or P or I) controller in continuous time has the same control value and moves its actuator
to the same value at the end, whatever its limits and its anti-windup.  Missing: derivative parts (`C207_fails_derivative`), discrete time
(`C207_fails_discrete`), slope limits and steps of the steady state (`steady`). -/
theorem C207_pi_partial (hs : c.slope = none) (ht : c.steady = false) (hd : c.discrete = false) (hkd : p.kd = 0)
    (haw : AwOk p.aw) (act : K) {is js : List (Inp K)} (h : Divided is js) :
    (calls c (p.run c) (St.init act) js).cv = (calls c (p.run c) (St.init act) is).cv ∧
      (calls c (p.run c) (St.init act) js).act = (calls c (p.run c) (St.init act) is).act :=
  pi_divided hs ht hd hkd haw h ⟨rfl, rfl, rfl⟩ (inside_zero haw)

end PI

section Switch

variable {c : Cfg K}

/-- The slope limit applied to the step from `x` to `y` during `d`. -/
def move (sl : Option (K × K)) (d x y : K) : K :=
  match sl with
  | none => y
  | some (n, p) => if n ≤ (y - x) / d ∧ (y - x) / d ≤ p then y else if p < (y - x) / d then x + p * d else x + n * d

/-- Specification: a slope limit allows falling and rising. -/
def SlopeOk (sl : Option (K × K)) : Prop := ∀ n p, sl = some (n, p) → n < 0 ∧ 0 < p

theorem move_eq {n p d x y : K} (hd : 0 < d) : move (some (n, p)) d x y =
    if n * d ≤ y - x ∧ y - x ≤ p * d then y else if p * d < y - x then x + p * d else x + n * d := by
  unfold move
  simp only [le_div_iff₀ hd, div_le_iff₀ hd, lt_div_iff₀ hd]

theorem move_same {sl : Option (K × K)} (h : SlopeOk sl) (d x : K) : move sl d x x = x := by
  rcases sl with _ | ⟨n, p⟩
  · rfl
  · obtain ⟨hn, hp⟩ := h n p rfl
    unfold move
    simp only [sub_self, zero_div]
    rw [if_pos ⟨hn.le, hp.le⟩]

theorem move_move {sl : Option (K × K)} (h : SlopeOk sl) {d d' : K} (hd : 0 < d) (hd' : 0 < d') (x y : K) :
    move sl d' (move sl d x y) y = move sl (d + d') x y := by
  rcases sl with _ | ⟨n, p⟩
  · rfl
  · obtain ⟨hn, hp⟩ := h n p rfl
    rw [move_eq hd', move_eq hd, move_eq (add_pos hd hd')]
    have h1 := mul_pos hp hd
    have h2 := mul_pos hp hd'
    have h3 := mul_neg_of_neg_of_pos hn hd
    have h4 := mul_neg_of_neg_of_pos hn hd'
    rw [mul_add, mul_add]
    by_cases a : n * d ≤ y - x ∧ y - x ≤ p * d
    · rw [if_pos a, if_pos (by constructor <;> linarith [a.1, a.2]), if_pos (by constructor <;> linarith [a.1, a.2])]
    · rw [if_neg a]
      by_cases b : p * d < y - x
      · rw [if_pos b]
        by_cases e : y - x ≤ p * d + p * d'
        · rw [if_pos (by constructor <;> linarith), if_pos (by constructor <;> linarith)]
        · rw [if_neg (fun q => e (by linarith [q.2])), if_pos (by linarith), if_neg (fun q => e (by linarith [q.2])),
            if_pos (by linarith)]
          ring
      · rw [if_neg b]
        have b' : y - x < n * d := by
          by_contra q
          exact a ⟨not_lt.mp q, not_lt.mp b⟩
        by_cases e : n * d + n * d' ≤ y - x
        · rw [if_pos (by constructor <;> linarith), if_pos (by constructor <;> linarith)]
        · rw [if_neg (fun q => e (by linarith [q.1])), if_neg (by linarith), if_neg (fun q => e (by linarith [q.1])),
            if_neg (by linarith)]
          ring

/-- What both kinds of switching controllers have in common: the inputs, without the step length, either give a target for the control
value or leave it as it is. -/
structure Switching (c : Cfg K) (run : Inp K → St K → St K) (tgt : Inp K → Option K) : Prop where
  cv : ∀ i s, (run i (shift c i s)).cv = (tgt i).getD s.cv
  prev : ∀ i s, (run i (shift c i s)).prevCv = s.cv
  dt : ∀ i d, tgt (i.during d) = tgt i

theorem switch_call {run : Inp K → St K → St K} {tgt : Inp K → Option K} (hf : Switching c run tgt) (i : Inp K) (s : St K) :
    (ctrl c run i s).cv = move c.slope i.dt s.cv ((tgt i).getD s.cv) ∧
      (ctrl c run i s).act = clip c.llim c.ulim (move c.slope i.dt s.cv ((tgt i).getD s.cv)) := by
  have : (ctrl c run i s).cv = move c.slope i.dt s.cv ((tgt i).getD s.cv) := by
    rw [← hf.cv i s]
    conv_rhs => rw [← hf.prev i s]
    unfold ctrl slopeLimit processDirect move
    rcases c.slope with _ | ⟨n, p⟩
    · simp only [hf.cv, hf.prev]
    · simp only [hf.cv, hf.prev]
  refine ⟨this, ?_⟩
  rw [← this]
  rfl

theorem switch_calls (hs : SlopeOk c.slope) {run : Inp K → St K → St K} {tgt : Inp K → Option K} (hf : Switching c run tgt)
    (i : Inp K) : ∀ (ds : List K) (d : K) (s : St K), (∀ x ∈ d :: ds, 0 < x) →
      (calls c run s ((d :: ds).map i.during)).cv = move c.slope (d :: ds).sum s.cv ((tgt i).getD s.cv) ∧
      (calls c run s ((d :: ds).map i.during)).act = clip c.llim c.ulim (move c.slope (d :: ds).sum s.cv ((tgt i).getD s.cv)) := by
  intro ds
  induction ds with
  | nil =>
    intro d s _
    have := switch_call hf (i.during d) s
    rw [hf.dt] at this
    simp only [List.sum_cons, List.sum_nil, add_zero]
    exact this
  | cons d' ds ih =>
    intro d s hpos
    have hp : 0 < (d' :: ds).sum := by
      rw [List.sum_cons]
      exact add_pos_of_pos_of_nonneg (hpos d' (by simp)) (sum_nonneg' _ fun x hx => (hpos x (by simp [hx])).le)
    have key := ih d' (ctrl c run (i.during d) s) (fun x hx => hpos x (List.mem_cons_of_mem _ hx))
    rw [(switch_call hf (i.during d) s).1, hf.dt] at key
    have e : move c.slope (d' :: ds).sum (move c.slope d s.cv ((tgt i).getD s.cv))
        ((tgt i).getD (move c.slope d s.cv ((tgt i).getD s.cv))) = move c.slope (d :: d' :: ds).sum s.cv ((tgt i).getD s.cv) := by
      cases tgt i with
      | none => simp only [Option.getD_none, move_same hs]
      | some y =>
        simp only [Option.getD_some]
        rw [List.sum_cons (a := d)]
        exact move_move hs (hpos d (by simp)) hp _ _
    rw [show (i.during d).dt = d from rfl, e] at key
    exact key

theorem switch_divided (hs : SlopeOk c.slope) {run : Inp K → St K → St K} {tgt : Inp K → Option K} (hf : Switching c run tgt)
    {is js : List (Inp K)} (h : Divided is js) : (∀ j ∈ js, 0 < j.dt) → ∀ {s s' : St K}, (s'.cv = s.cv ∧ s'.act = s.act) →
    (calls c run s' js).cv = (calls c run s is).cv ∧ (calls c run s' js).act = (calls c run s is).act := by
  induction h with
  | nil => intro _ s s' h; exact h
  | @cons i ds is js ne pos sum _ ih =>
    intro hpos s s' h
    obtain ⟨d, ds, rfl⟩ := List.exists_cons_of_ne_nil ne
    obtain ⟨a1, a2⟩ := switch_call hf i s
    obtain ⟨b1, b2⟩ := switch_calls hs hf i ds d s' fun x hx =>
      hpos (i.during x) (List.mem_append_left _ (List.mem_map_of_mem hx))
    have e : calls c run s' ((d :: ds).map i.during ++ js) = calls c run (calls c run s' ((d :: ds).map i.during)) js := by
      unfold calls
      rw [List.foldl_append]
    rw [e, show calls c run s (i :: is) = calls c run (ctrl c run i s) is from rfl]
    refine ih (fun j hj => hpos j (List.mem_append_right _ hj)) ⟨?_, ?_⟩
    · rw [b1, a1, h.1, sum]
    · rw [b2, a2, h.1, sum]

theorem bang_switching (hi : c.invert = false) (hyst : K) : Switching c (bangBang hyst c) fun i =>
    if offByMaster c i then some c.off
    else if i.pv < i.sp - |hyst| / 2 then some (if hyst < 0 then c.off else c.satMax)
    else if i.sp + |hyst| / 2 < i.pv then some (if hyst < 0 then c.satMax else c.off) else none := by
  refine ⟨fun i s => ?_, fun i s => ?_, fun _ _ => rfl⟩
  · have hcv : (shift c i s).cv = s.cv := by unfold shift; split_ifs <;> rfl
    unfold bangBang subCheck bangBangLaw inv
    simp only [hi, hcv, Bool.false_eq_true, if_false, mul_one]
    by_cases ho : offByMaster c i = true <;> simp only [ho, if_true, if_false, Bool.false_eq_true, Option.getD_some] <;>
      (repeat' split) <;> simp_all
  · have hp : (shift c i s).prevCv = s.cv := by unfold shift; split_ifs <;> rfl
    unfold bangBang subCheck bangBangLaw
    by_cases ho : offByMaster c i = true <;> simp [ho, hp]

theorem two_switching (hi : c.invert = false) (t : Two K) : Switching c (t.run c) fun i =>
    if offByMaster c i then some c.off else if t.off i then some c.off else if t.on i then some c.satMax else none := by
  refine ⟨fun i s => ?_, fun i s => ?_, fun _ _ => rfl⟩
  · have hcv : (shift c i s).cv = s.cv := by unfold shift; split_ifs <;> rfl
    unfold Two.run subCheck Two.law inv
    simp only [hi, hcv, Bool.false_eq_true, if_false, mul_one]
    by_cases ho : offByMaster c i = true <;> simp only [ho, if_true, if_false, Bool.false_eq_true, Option.getD_some] <;>
      (repeat' split) <;> simp_all
  · have hp : (shift c i s).prevCv = s.cv := by unfold shift; split_ifs <;> rfl
    unfold Two.run subCheck Two.law
    by_cases ho : offByMaster c i = true <;> simp [ho, hp]

/-- **C207** (bang-bang controllers), partial: with or without slope limit, unless inverted.  Missing: inverted ones
(`C207_fails_inverted`). -/
theorem C207_bang_partial (hs : SlopeOk c.slope) (hi : c.invert = false) (hyst act : K) {is js : List (Inp K)} (h : Divided is js)
    (hpos : ∀ j ∈ js, 0 < j.dt) :
    (calls c (bangBang hyst c) (St.init act) js).cv = (calls c (bangBang hyst c) (St.init act) is).cv ∧
      (calls c (bangBang hyst c) (St.init act) js).act = (calls c (bangBang hyst c) (St.init act) is).act :=
  switch_divided hs (bang_switching hi hyst) h hpos ⟨rfl, rfl⟩

/-- **C207** (controllers with two sensors), partial: with or without slope limit, unless inverted. -/
theorem C207_two_partial (hs : SlopeOk c.slope) (hi : c.invert = false) (t : Two K) (act : K) {is js : List (Inp K)}
    (h : Divided is js) (hpos : ∀ j ∈ js, 0 < j.dt) :
    (calls c (t.run c) (St.init act) js).cv = (calls c (t.run c) (St.init act) is).cv ∧
      (calls c (t.run c) (St.init act) js).act = (calls c (t.run c) (St.init act) is).act :=
  switch_divided hs (two_switching hi t) h hpos ⟨rfl, rfl⟩

end Switch

/-- A bang-bang controller with a slope of 2 per second: after 3 s it has reached 6. -/
example : let c : Cfg ℚ := ⟨-10, 10, -10, 10, 0, some (-2, 2), false, none, false, false⟩
    SlopeOk c.slope ∧ (calls c (bangBang 1 c) (St.init 0) [⟨3, 60, 59, 1, 0, false⟩]).act = 6 ∧
    (calls c (bangBang 1 c) (St.init 0) [⟨1, 60, 59, 1, 0, false⟩, ⟨2, 60, 59, 1, 0, false⟩]).act = 6 := by
  refine ⟨fun n p h => ?_, by decide +kernel, by decide +kernel⟩
  obtain ⟨rfl, rfl⟩ := Prod.mk.inj (Option.some.inj h)
  norm_num

/-- Settings without slope limit and master. -/
def stepCfg (discrete invert : Bool) : Cfg ℚ := ⟨-10, 10, -10, 10, 0, none, invert, none, discrete, false⟩

/-- An error of `e` during `d` seconds; the process value is within a band of 2 around the setpoint. -/
def stepInp (d e : ℚ) : Inp ℚ := ⟨d, 60, 60 - e, e, 0, false⟩

/-- An error of 1 during 3 s and of -1 during 2 s, and the same in smaller steps. -/
theorem example_divided : Divided [stepInp 3 1, stepInp 2 (-1)] [stepInp 1 1, stepInp 2 1, stepInp (1 / 2) (-1), stepInp (3 / 2) (-1)] :=
  .cons (stepInp 3 1) [1, 2] (by simp) (by decide +kernel) (by decide +kernel)
    (.cons (stepInp 2 (-1)) [1 / 2, 3 / 2] (by simp) (by decide +kernel) (by decide +kernel) .nil)

/-- A PI controller with an anti-windup of 2: after 3 s it is reached, after 2 s more nothing is left of it. -/
example : let p : Pid ℚ := ⟨1, 1, 0, some 2, none⟩
    (calls (stepCfg false false) (p.run (stepCfg false false)) (St.init 0) [stepInp 3 1]).cv = 3 ∧
    (calls (stepCfg false false) (p.run (stepCfg false false)) (St.init 0) [stepInp 3 1, stepInp 2 (-1)]).cv = -1 ∧
    (calls (stepCfg false false) (p.run (stepCfg false false)) (St.init 0)
      [stepInp 1 1, stepInp 2 1, stepInp (1 / 2) (-1), stepInp (3 / 2) (-1)]).cv = -1 := by
  decide +kernel

example : AwOk (some (2 : ℚ)) := fun a h => by obtain rfl := Option.some.inj h; norm_num

/-- **C207** fails for derivative parts: an error of 1 during 2 s, seen in one step or in two. -/
theorem C207_fails_derivative : let p : Pid ℚ := ⟨1, 0, 2, none, none⟩
    (calls (stepCfg false false) (p.run (stepCfg false false)) (St.init 0) [stepInp 2 1]).cv = 2 ∧
    (calls (stepCfg false false) (p.run (stepCfg false false)) (St.init 0) [stepInp 1 1, stepInp 1 1]).cv = 1 := by
  decide +kernel

/-- **C207** fails in discrete time: the anti-windup limits the last control value, not the integral, so that the last step is added
to it in full, however long it is. -/
theorem C207_fails_discrete : let p : Pid ℚ := ⟨0, 1, 0, some 2, none⟩
    (calls (stepCfg true false) (p.run (stepCfg true false)) (St.init 0) [stepInp 4 1]).cv = 4 ∧
    (calls (stepCfg true false) (p.run (stepCfg true false)) (St.init 0) [stepInp 3 1, stepInp 1 1]).cv = 3 := by
  decide +kernel

/-- **C207** fails for inverted switching controllers: inside the band every call changes the sign of the control value. -/
theorem C207_fails_inverted :
    (calls (stepCfg false true) (bangBang 2 (stepCfg false true)) (St.init 0) [stepInp 1 5, stepInp 2 0]).cv = 10 ∧
    (calls (stepCfg false true) (bangBang 2 (stepCfg false true)) (St.init 0) [stepInp 1 5, stepInp 1 0, stepInp 1 0]).cv = -10 := by
  decide +kernel

end Verif.Controls
