import Verif.Model.CtrlNet
import Verif.Props.Controls

/-!
# C177: controllers that refer to each other

`C177_one_each`: however controllers are added, no two of them have the same name or the same actuator, and no
actuator with a given value gets one.

`C177_masters`: a master controller stands before all controllers that depend on it, so in each pass a dependent
controller goes by what its master has decided in the same pass, not in the one before.

`C177_reference_partial`: a controller with a reference part works with the temperature of the reference in the same
pass plus the difference, as long as the difference is passed under both names.

`C177_fails_reference`, `C177_fails_ignored`: with the arguments which the error message asks for, a controller with a
reference part can not be added, and the documented one of the two differences is not used.

`C177_fails_linked`: a linked controller can not be added when its actuator could follow another one; where it can be
added, its actuator never changes.
-/

namespace Verif.CtrlNet

open Verif.Controls

variable {K : Type} [Field K] [LinearOrder K]

/-! ## Facts on the model -/

theorem bind_ok {α β : Type} {x : Except Err α} {f : α → Except Err β} {b : β} (h : (x >>= f) = .ok b) :
    ∃ a, x = .ok a ∧ f a = .ok b := by
  cases x with
  | error e => cases h
  | ok a => exact ⟨a, rfl, h⟩

theorem check_ok {b : Prop} [Decidable b] {e : Err} {u : Unit} (h : check b e = .ok u) : b := by
  unfold check at h
  split at h
  · assumption
  · cases h

theorem need_ok {α : Type} {x : Option α} {e : Err} {a : α} (h : need x e = .ok a) : x = some a := by
  cases x with
  | none => cases h
  | some b => cases h; rfl

omit [Field K] [LinearOrder K] in
/-- What is known of a controller that was added. -/
theorem add_ok {parts : String → Option Part} {cs : List (Ctl K)} {a : Args K} {c : Ctl K}
    (h : add parts cs a = .ok c) :
    (∀ d ∈ cs, d.name ≠ a.name) ∧ (∃ p, parts a.actuator = some p ∧ p.isActuator = true ∧ p.given = false) ∧
      (∀ d ∈ cs, d.actuator ≠ a.actuator) ∧ source parts a = .ok c.source ∧ link parts cs a = .ok () ∧
      master parts cs a = .ok c.master ∧ c.name = a.name ∧ c.actuator = a.actuator ∧ c.mode = a.mode ∧
      c.part = a.part ∧ (∃ q, parts a.part = some q ∧ Sensor.resolve q.sensor a.port = some c.cell) ∧
      c.cfg = { a.cfg with sub := a.sub.map Prod.fst } ∧ c.law = a.law := by
  unfold add at h
  obtain ⟨_, h1, h⟩ := bind_ok h
  obtain ⟨p, h2, h⟩ := bind_ok h
  obtain ⟨_, h3, h⟩ := bind_ok h
  obtain ⟨_, h4, h⟩ := bind_ok h
  obtain ⟨q, h5, h⟩ := bind_ok h
  obtain ⟨cell, h6, h⟩ := bind_ok h
  obtain ⟨src, h7, h⟩ := bind_ok h
  obtain ⟨_, h8, h⟩ := bind_ok h
  obtain ⟨m, h9, h⟩ := bind_ok h
  cases h
  have h4 := check_ok h4
  exact ⟨check_ok h1, ⟨p, need_ok h2, check_ok h3, h4.1⟩, h4.2, h7, h8, h9, rfl, rfl, rfl, rfl,
    ⟨q, need_ok h5, need_ok h6⟩, rfl, rfl⟩

/-! ## C177 -/

omit [Field K] [LinearOrder K] in
/-- Names and actuators of controllers are unique, and every actuator is one without given values. -/
theorem C177_one_each {parts : String → Option Part} {cs : List (Ctl K)} (h : Built parts cs) :
    (cs.map Ctl.name).Nodup ∧ (cs.map Ctl.actuator).Nodup ∧
      ∀ c ∈ cs, ∃ p, parts c.actuator = some p ∧ p.isActuator = true ∧ p.given = false := by
  induction h with
  | nil => simp
  | snoc h a hc ih =>
    obtain ⟨h1, h2, h3, _, _, _, h4, h5, _⟩ := add_ok hc
    refine ⟨?_, ?_, ?_⟩
    · rw [List.map_append, List.nodup_append]
      refine ⟨ih.1, by simp, ?_⟩
      intro x hx y hy
      obtain ⟨d, hd, rfl⟩ := List.mem_map.1 hx
      rw [List.map_singleton, List.mem_singleton] at hy
      rw [hy, h4]
      exact h1 d hd
    · rw [List.map_append, List.nodup_append]
      refine ⟨ih.2.1, by simp, ?_⟩
      intro x hx y hy
      obtain ⟨d, hd, rfl⟩ := List.mem_map.1 hx
      rw [List.map_singleton, List.mem_singleton] at hy
      rw [hy, h5]
      exact h3 d hd
    · intro c hc
      rcases List.mem_append.1 hc with hc | hc
      · exact ih.2.2 c hc
      · rw [List.mem_singleton] at hc
        rw [hc, h5]
        exact h2

omit [Field K] [LinearOrder K] in
/-- A master controller was added before, and its off state is known. -/
theorem built_master {parts : String → Option Part} {cs : List (Ctl K)} (h : Built parts cs) :
    ∀ l₁ c l₂, cs = l₁ ++ c :: l₂ → ∀ n off, c.master = some (.controller n off) →
      c.cfg.sub.isSome ∧ ∃ d ∈ l₁, d.name = n ∧ d.cfg.off = off := by
  induction h with
  | nil => intro l₁ c l₂ e; simp at e
  | @snoc cs h a b hc ih =>
    intro l₁ c l₂ e n off hm
    rcases List.eq_nil_or_concat l₂ with rfl | ⟨l, x, rfl⟩
    · have e' := List.append_inj' e rfl
      obtain ⟨rfl, e2⟩ := e'
      have e2 : b = c := by simpa using e2
      subst e2
      obtain ⟨_, _, _, _, _, h9, _, _, _, _, _, hcfg, _⟩ := add_ok hc
      rw [hm] at h9
      unfold master at h9
      split at h9
      · cases h9
      · rename_i k m hs
        obtain ⟨d, hd, h9⟩ := bind_ok h9
        cases h9
        have hd := need_ok hd
        refine ⟨by simp [hcfg, hs], d, List.mem_of_find?_eq_some hd, ?_, rfl⟩
        simpa using List.find?_some hd
      · obtain ⟨_, _, h9⟩ := bind_ok h9
        cases h9
    · have e' : cs ++ [b] = (l₁ ++ c :: l) ++ [x] := by simpa using e
      obtain ⟨e1, _⟩ := List.append_inj' e' rfl
      exact ih l₁ c l e1 n off hm

theorem pass_fst (w : World K) (l : List (Ctl K × St K)) (acts : List (String × K)) :
    (pass w l acts).map Prod.fst = l.map Prod.fst := by
  induction l generalizing acts with
  | nil => rfl
  | cons x l ih => simp [pass, ih]

theorem passes_fst (l : List (Ctl K × St K)) (ws : List (World K)) :
    (passes l ws).map Prod.fst = l.map Prod.fst := by
  induction ws generalizing l with
  | nil => rfl
  | cons w ws ih =>
    show (passes (pass w l []) ws).map Prod.fst = _
    rw [ih, pass_fst]

/-- What a controller at a given place of the list gets: the actuators of all before, after their steps. -/
theorem pass_split (w : World K) (l₁ : List (Ctl K × St K)) (c : Ctl K) (s : St K) (l₂ : List (Ctl K × St K))
    (acts : List (String × K)) :
    ∃ r₂, pass w (l₁ ++ (c, s) :: l₂) acts = pass w l₁ acts ++
      (c, step w (acts ++ (pass w l₁ acts).map fun x => (x.1.name, x.2.act)) c s) :: r₂ := by
  induction l₁ generalizing acts with
  | nil => exact ⟨_, by simp [pass]; rfl⟩
  | cons x l₁ ih =>
    obtain ⟨d, t⟩ := x
    obtain ⟨r₂, h⟩ := ih (acts ++ [(d.name, (step w acts d t).act)])
    refine ⟨r₂, ?_⟩
    simp only [List.cons_append, pass]
    rw [h]
    simp

omit [Field K] [LinearOrder K] in
theorem lookup_of_mem {l : List (String × K)} (h : (l.map Prod.fst).Nodup) {n : String} {x : K}
    (hm : (n, x) ∈ l) : l.lookup n = some x := by
  induction l with
  | nil => simp at hm
  | cons y l ih =>
    obtain ⟨m, z⟩ := y
    rw [List.map_cons, List.nodup_cons] at h
    rcases List.mem_cons.1 hm with e | hm
    · cases e
      simp [List.lookup]
    · have hne : n ≠ m := fun e => h.1 (e ▸ List.mem_map.2 ⟨_, hm, rfl⟩)
      have hb : (n == m) = false := by simpa using hne
      rw [List.lookup_cons, hb]
      exact ih h.2 hm

/-- The step of one controller in the pass over all of them. -/
theorem pass_mem {parts : String → Option Part} {l : List (Ctl K × St K)} (h : Built parts (l.map Prod.fst))
    (w : World K) {c : Ctl K} {r : St K} (hr : (c, r) ∈ pass w l []) :
    ∃ s acts, (c, s) ∈ l ∧ r = step w acts c s ∧
      ∀ n off, c.master = some (.controller n off) → c.cfg.sub.isSome ∧ ∃ d t, (d, t) ∈ pass w l [] ∧ d.name = n ∧
        d.cfg.off = off ∧ acts.lookup n = some t.act := by
  obtain ⟨k, hk, he⟩ := List.getElem_of_mem hr
  have hlen : (pass w l []).length = l.length := by
    simpa using congrArg List.length (pass_fst w l [])
  have hk' : k < l.length := hlen ▸ hk
  have hsplit : l = l.take k ++ l[k] :: l.drop (k + 1) := by simp
  have hc : l[k].1 = c := by
    have h1 : ((pass w l []).map Prod.fst)[k]? = (l.map Prod.fst)[k]? := by rw [pass_fst]
    rw [List.getElem?_map, List.getElem?_map, List.getElem?_eq_getElem hk, List.getElem?_eq_getElem hk', he] at h1
    simpa using h1.symm
  obtain ⟨r₂, hp⟩ := pass_split w (l.take k) l[k].1 l[k].2 (l.drop (k + 1)) []
  have hp' : pass w l [] = pass w (l.take k) [] ++
      (l[k].1, step w ((pass w (l.take k) []).map fun x => (x.1.name, x.2.act)) l[k].1 l[k].2) :: r₂ := by
    simpa using hp
  have hlt : (pass w (l.take k) []).length = k := by
    have := congrArg List.length (pass_fst w (l.take k) [])
    simp at this
    omega
  refine ⟨l[k].2, (pass w (l.take k) []).map fun x => (x.1.name, x.2.act), ?_, ?_, ?_⟩
  · have : (c, l[k].2) = l[k] := by rw [← hc]
    rw [this]
    exact List.getElem_mem _
  · have h2 : (pass w l [])[k]? = some (c, r) := by rw [List.getElem?_eq_getElem hk, he]
    rw [hp', List.getElem?_append_right (by omega), hlt] at h2
    simp only [Nat.sub_self, List.getElem?_cons_zero, Option.some.injEq, Prod.mk.injEq] at h2
    rw [← h2.2, hc]
  · intro n off hm
    have hb := built_master h ((l.take k).map Prod.fst) c ((l.drop (k + 1)).map Prod.fst)
      (by rw [← hc, ← List.map_cons, ← List.map_append, ← hsplit]) n off hm
    obtain ⟨hs, d, hd, hdn, hdo⟩ := hb
    rw [← pass_fst w (l.take k) []] at hd
    obtain ⟨x, hx, hxd⟩ := List.mem_map.1 hd
    refine ⟨hs, d, x.2, ?_, hdn, hdo, ?_⟩
    · rw [hp', ← hxd]
      exact List.mem_append_left _ hx
    · apply lookup_of_mem
      · have hnd := (C177_one_each h).1
        have : (((pass w (l.take k) []).map fun x => (x.1.name, x.2.act)).map Prod.fst) =
            ((l.take k).map Prod.fst).map Ctl.name := by
          rw [← pass_fst w (l.take k) []]
          simp
        rw [this]
        exact hnd.sublist ((List.take_sublist k l).map _ |>.map _)
      · refine List.mem_map.2 ⟨x, hx, ?_⟩
        rw [← hdn, hxd]

/-- Whatever has happened before, take any pass over the controllers of a plant, and a controller without slope limit
that depends on a master controller.  Its master is one of the plant, and after the pass, going by the value the
master's actuator has **then**: a concurrent controller is off if the master is off, a sequential one if it is not;
otherwise the controller has done what it would have done without a master. -/
theorem C177_masters [IsStrictOrderedRing K] {parts : String → Option Part} {l₀ : List (Ctl K × St K)} (h : Built parts (l₀.map Prod.fst))
    (ws : List (World K)) (w : World K) {c : Ctl K} {r : St K} (hr : (c, r) ∈ passes l₀ (ws ++ [w])) {n : String}
    {off : K} (hm : c.master = some (.controller n off)) (hl : c.mode ≠ .linked) (hs : c.cfg.slope = none) :
    ∃ d t, (d, t) ∈ passes l₀ (ws ++ [w]) ∧ d.name = n ∧ ∃ conc, c.cfg.sub = some conc ∧
      (conc = true → t.act = d.cfg.off → r.act = clip c.cfg.llim c.cfg.ulim c.cfg.off) ∧
      (conc = false → t.act ≠ d.cfg.off → r.act = clip c.cfg.llim c.cfg.ulim c.cfg.off) ∧
      ((conc = true ↔ t.act ≠ d.cfg.off) → ∃ s, (c, s) ∈ passes l₀ ws ∧
        r = step w [] { c with master := none, cfg := { c.cfg with sub := none } } s) := by
  have hpp : passes l₀ (ws ++ [w]) = pass w (passes l₀ ws) [] := by simp [passes]
  rw [hpp] at hr ⊢
  have hb : Built parts ((passes l₀ ws).map Prod.fst) := by rw [passes_fst]; exact h
  obtain ⟨s, acts, hsm, hrs, hmm⟩ := pass_mem hb w hr
  obtain ⟨hsub, d, t, hd, hdn, hdo, hlk⟩ := hmm n off hm
  obtain ⟨conc, hconc⟩ := Option.isSome_iff_exists.1 hsub
  refine ⟨d, t, hd, hdn, conc, hconc, ?_⟩
  have hmo : masterOff w acts c.master = decide (t.act = d.cfg.off) := by
    rw [hm]
    simp [masterOff, hlk, hdo]
  have hr' : r = ctrl c.cfg (c.law.run c.cfg)
      { dt := w.dt, sp := setpoint w c.source, pv := w.T c.part c.cell,
        error := setpoint w c.source - w.T c.part c.cell, onVal := w.onVal c.name,
        masterOff := decide (t.act = d.cfg.off) } s := by
    rw [hrs, step, if_neg hl, hmo]
  have key := C41_master_partial c.law hs
      { dt := w.dt, sp := setpoint w c.source, pv := w.T c.part c.cell,
        error := setpoint w c.source - w.T c.part c.cell, onVal := w.onVal c.name,
        masterOff := decide (t.act = d.cfg.off) } s
  obtain ⟨k1, k2, k3, k4⟩ := key
  have hact : r.act = clip c.cfg.llim c.cfg.ulim r.cv := by rw [hr']; rfl
  refine ⟨?_, ?_, ?_⟩
  · rintro rfl e
    rw [hact, hr', k1 hconc (by simpa using e)]
  · rintro rfl e
    rw [hact, hr', k2 hconc (by simpa using e)]
  · intro hiff
    refine ⟨s, hsm, ?_⟩
    have hrun : ∀ b, step w [] { c with master := none, cfg := { c.cfg with sub := none } } s =
        ctrl { c.cfg with sub := none } (c.law.run { c.cfg with sub := none })
      { dt := w.dt, sp := setpoint w c.source, pv := w.T c.part c.cell,
        error := setpoint w c.source - w.T c.part c.cell, onVal := w.onVal c.name, masterOff := b } s := by
      intro b
      have hstep : step w [] { c with master := none, cfg := { c.cfg with sub := none } } s =
          ctrl { c.cfg with sub := none } (c.law.run { c.cfg with sub := none })
          { dt := w.dt, sp := setpoint w c.source, pv := w.T c.part c.cell,
            error := setpoint w c.source - w.T c.part c.cell, onVal := w.onVal c.name, masterOff := false } s :=
        if_neg hl
      rw [hstep]
      cases c.law <;> rfl
    rw [hrun (decide (t.act = d.cfg.off)), hr']
    cases conc with
    | true => exact k3 hconc (by simpa using hiff)
    | false => exact k4 hconc (by simpa using hiff)

/-- The same for a controller that depends on a part (a valve, a pump, a CHP plant): it goes by the state which the part has
in this step, off being zero. -/
theorem C177_master_part [IsStrictOrderedRing K] {parts : String → Option Part} {l₀ : List (Ctl K × St K)} (h : Built parts (l₀.map Prod.fst))
    (ws : List (World K)) (w : World K) {c : Ctl K} {r : St K} (hr : (c, r) ∈ passes l₀ (ws ++ [w])) {n : String}
    (hm : c.master = some (.part n)) (hl : c.mode ≠ .linked) (hs : c.cfg.slope = none) {conc : Bool}
    (hconc : c.cfg.sub = some conc) :
    (conc = true → w.var n = 0 → r.act = clip c.cfg.llim c.cfg.ulim c.cfg.off) ∧
    (conc = false → w.var n ≠ 0 → r.act = clip c.cfg.llim c.cfg.ulim c.cfg.off) ∧
    ((conc = true ↔ w.var n ≠ 0) → ∃ s, (c, s) ∈ passes l₀ ws ∧
      r = step w [] { c with master := none, cfg := { c.cfg with sub := none } } s) := by
  have hpp : passes l₀ (ws ++ [w]) = pass w (passes l₀ ws) [] := by simp [passes]
  rw [hpp] at hr
  have hb : Built parts ((passes l₀ ws).map Prod.fst) := by rw [passes_fst]; exact h
  obtain ⟨s, acts, hsm, hrs, -⟩ := pass_mem hb w hr
  have hmo : masterOff w acts c.master = decide (w.var n = 0) := by
    rw [hm]
    simp [masterOff]
  have hr' : r = ctrl c.cfg (c.law.run c.cfg)
      { dt := w.dt, sp := setpoint w c.source, pv := w.T c.part c.cell,
        error := setpoint w c.source - w.T c.part c.cell, onVal := w.onVal c.name,
        masterOff := decide (w.var n = 0) } s := by
    rw [hrs, step, if_neg hl, hmo]
  obtain ⟨k1, k2, k3, k4⟩ := C41_master_partial c.law hs
      { dt := w.dt, sp := setpoint w c.source, pv := w.T c.part c.cell,
        error := setpoint w c.source - w.T c.part c.cell, onVal := w.onVal c.name,
        masterOff := decide (w.var n = 0) } s
  have hact : r.act = clip c.cfg.llim c.cfg.ulim r.cv := by rw [hr']; rfl
  refine ⟨?_, ?_, ?_⟩
  · rintro rfl e
    rw [hact, hr', k1 hconc (by simpa using e)]
  · rintro rfl e
    rw [hact, hr', k2 hconc (by simpa using e)]
  · intro hiff
    refine ⟨s, hsm, ?_⟩
    have hrun : ∀ b, step w [] { c with master := none, cfg := { c.cfg with sub := none } } s =
        ctrl { c.cfg with sub := none } (c.law.run { c.cfg with sub := none })
      { dt := w.dt, sp := setpoint w c.source, pv := w.T c.part c.cell,
        error := setpoint w c.source - w.T c.part c.cell, onVal := w.onVal c.name, masterOff := b } s := by
      intro b
      have hstep : step w [] { c with master := none, cfg := { c.cfg with sub := none } } s =
          ctrl { c.cfg with sub := none } (c.law.run { c.cfg with sub := none })
          { dt := w.dt, sp := setpoint w c.source, pv := w.T c.part c.cell,
            error := setpoint w c.source - w.T c.part c.cell, onVal := w.onVal c.name, masterOff := false } s :=
        if_neg hl
      rw [hstep]
      cases c.law <;> rfl
    rw [hrun (decide (w.var n = 0)), hr']
    cases conc with
    | true => exact k3 hconc (by simpa using hiff)
    | false => exact k4 hconc (by simpa using hiff)

/-- The control laws leave the error alone. -/
theorem run_error (l : Law K) (c : Cfg K) (i : Inp K) (s : St K) : (l.run c i s).error = s.error := by
  cases l with
  | pid p =>
    simp only [Law.run, Pid.run, subCheck, Pid.law]
    split_ifs <;> rfl
  | bang h =>
    simp only [Law.run, bangBang, subCheck, bangBangLaw]
    split_ifs <;> rfl
  | two t =>
    simp only [Law.run, Two.run, subCheck, Two.law]
    split_ifs <;> rfl

/-- A controller with a reference part `p` that was added with the same difference `d` under both names: after every
pass, its error is the temperature at the reference plus the difference minus the temperature at the controlled
port, all of this pass. -/
theorem C177_reference_partial {parts : String → Option Part} {l₀ : List (Ctl K × St K)}
    (h : Built parts (l₀.map Prod.fst)) {cs : List (Ctl K)} {a : Args K} {c : Ctl K} (ha : add parts cs a = .ok c)
    (hl : a.mode ≠ .linked) {p : String} (hp : a.refPart = some p) {d : K} (hd : a.refSPdiff = some d)
    (hd' : a.differenceToRef = some d) (ws : List (World K)) (w : World K) {r : St K}
    (hr : (c, r) ∈ passes l₀ (ws ++ [w])) :
    ∃ P Q port i j, parts p = some P ∧ a.refPort = some port ∧ Sensor.resolve P.sensor port = some i ∧
      parts a.part = some Q ∧ Sensor.resolve Q.sensor a.port = some j ∧
      r.error = w.T p i + d - w.T a.part j := by
  have hpp : passes l₀ (ws ++ [w]) = pass w (passes l₀ ws) [] := by simp [passes]
  rw [hpp] at hr
  have hb : Built parts ((passes l₀ ws).map Prod.fst) := by rw [passes_fst]; exact h
  obtain ⟨s, acts, -, hrs, -⟩ := pass_mem hb w hr
  obtain ⟨_, _, _, hsrc, _, _, _, _, hmode, hpart, ⟨Q, hQ, hj⟩, _⟩ := add_ok ha
  unfold source at hsrc
  rw [hp] at hsrc
  obtain ⟨P, hP, hsrc⟩ := bind_ok hsrc
  obtain ⟨port, hport, hsrc⟩ := bind_ok hsrc
  obtain ⟨i, hi, hsrc⟩ := bind_ok hsrc
  rw [if_neg hl] at hsrc
  obtain ⟨_, _, hsrc⟩ := bind_ok hsrc
  obtain ⟨d', hdd, hsrc⟩ := bind_ok hsrc
  have hdd := need_ok hdd
  rw [hd'] at hdd
  cases hdd
  have hsrc : c.source = .ref p i d := (Except.ok.inj hsrc).symm
  refine ⟨P, Q, port, i, c.cell, need_ok hP, need_ok hport, need_ok hi, hQ, hj, ?_⟩
  rw [hrs, step, if_neg (hmode ▸ hl)]
  have herr : ∀ inp : Inp K, (ctrl c.cfg (c.law.run c.cfg) inp s).error = inp.error := by
    intro inp
    have h1 : (ctrl c.cfg (c.law.run c.cfg) inp s).error = (c.law.run c.cfg inp (shift c.cfg inp s)).error := by
      simp only [ctrl, processDirect, slopeLimit]
      split <;> rfl
    rw [h1, run_error]
    rfl
  rw [herr, hsrc, hpart]
  rfl

omit [Field K] [LinearOrder K] in
/-- The error message asks for `reference_part`, `reference_port` and `ref_SP_diff`.  With them and nothing else, the
controller is never added. -/
theorem C177_fails_reference (parts : String → Option Part) (cs : List (Ctl K)) (a : Args K) (hl : a.mode ≠ .linked)
    {p : String} (hp : a.refPart = some p) (hd : a.differenceToRef = none) (c : Ctl K) : add parts cs a ≠ .ok c := by
  intro h
  obtain ⟨_, _, _, hsrc, _⟩ := add_ok h
  unfold source at hsrc
  rw [hp] at hsrc
  obtain ⟨_, _, hsrc⟩ := bind_ok hsrc
  obtain ⟨_, _, hsrc⟩ := bind_ok hsrc
  obtain ⟨_, _, hsrc⟩ := bind_ok hsrc
  rw [if_neg hl, hd] at hsrc
  obtain ⟨_, _, hsrc⟩ := bind_ok hsrc
  obtain ⟨_, h0, _⟩ := bind_ok hsrc
  cases h0

omit [Field K] [LinearOrder K] in
/-- `ref_SP_diff` has to be given but its value is not used. -/
theorem C177_fails_ignored (parts : String → Option Part) (cs : List (Ctl K)) (a : Args K) (x y : K) :
    add parts cs { a with refSPdiff := some x } = add parts cs { a with refSPdiff := some y } := by
  rfl

omit [Field K] [LinearOrder K] in
theorem eq_of_name {l : List (Ctl K × St K)} (h : ((l.map Prod.fst).map Ctl.name).Nodup) {c : Ctl K} {s t : St K}
    (hs : (c, s) ∈ l) (ht : (c, t) ∈ l) : s = t := by
  rw [List.map_map] at h
  exact congrArg Prod.snd (List.inj_on_of_nodup_map h hs ht rfl)

/-- A linked controller whose actuator has to follow that of a controller already there is refused.  If one was added
all the same (before the controller of the reference), then its actuator stays as it was, whatever happens. -/
theorem C177_fails_linked {parts : String → Option Part} {l₀ : List (Ctl K × St K)}
    (h : Built parts (l₀.map Prod.fst)) :
    (∀ a : Args K, a.mode = .linked → (∃ d ∈ l₀, a.refPart = some d.1.actuator ∧ d.1.mode ≠ .linked) →
      ∀ c, add parts (l₀.map Prod.fst) a ≠ .ok c) ∧
    ∀ c s, (c, s) ∈ l₀ → c.mode = .linked → ∀ ws r, (c, r) ∈ passes l₀ ws → r = s := by
  constructor
  · rintro a hl ⟨d, hd, hr, hdl⟩ c hc
    obtain ⟨_, _, _, _, hlk, _⟩ := add_ok hc
    unfold link at hlk
    rw [if_neg (by simpa using hl)] at hlk
    obtain ⟨p, hp, hlk⟩ := bind_ok hlk
    have hp := need_ok hp
    rw [hr] at hp
    cases hp
    obtain ⟨_, _, hlk⟩ := bind_ok hlk
    have hdm : d.1 ∈ l₀.map Prod.fst := List.mem_map.2 ⟨d, hd, rfl⟩
    cases hf : (l₀.map Prod.fst).find? (fun c => c.actuator = d.1.actuator) with
    | none =>
      have := List.find?_eq_none.1 hf d.1 hdm
      simp at this
    | some e =>
      have he := List.mem_of_find?_eq_some hf
      have hea : e.actuator = d.1.actuator := by simpa using List.find?_some hf
      have : e = d.1 := List.inj_on_of_nodup_map (C177_one_each h).2.1 he hdm hea
      rw [hf, this] at hlk
      dsimp only at hlk
      rw [if_neg hdl] at hlk
      cases hlk
  · intro c s hs hl ws
    induction ws using List.reverseRecOn with
    | nil =>
      intro r hr
      exact eq_of_name (C177_one_each h).1 hr hs
    | append_singleton ws w ih =>
      intro r hr
      have hpp : passes l₀ (ws ++ [w]) = pass w (passes l₀ ws) [] := by simp [passes]
      rw [hpp] at hr
      have hb : Built parts ((passes l₀ ws).map Prod.fst) := by rw [passes_fst]; exact h
      obtain ⟨t, acts, ht, hrs, -⟩ := pass_mem hb w hr
      rw [hrs, step, if_pos hl]
      exact ih t ht

/-! ### A plant -/

/-- Two pumps, one of them with a sensor pipe behind it. -/
def exParts : String → Option Part
  | "p1" => some ⟨"PipeWithPump", Sensor.pipe 3, true, false⟩
  | "p2" => some ⟨"PipeWithPump", Sensor.pipe 3, true, false⟩
  | "pipe" => some ⟨"Pipe", Sensor.pipe 10, false, true⟩
  | _ => none

def exCfg : Cfg ℚ := ⟨0, 1, 0, 1, 0, none, false, none, false, false⟩

/-- Bang-bang control of the first pump by the temperature at the end of the pipe. -/
def exMaster : Args ℚ :=
  ⟨"c1", "p1", .direct, "pipe", .name "out", none, none, some 60, none, none, none, exCfg, .bang 0⟩

/-- The second pump goes with the first, and by the difference of two temperatures. -/
def exSub : Args ℚ :=
  ⟨"c2", "p2", .direct, "pipe", .name "in", some "pipe", some (.index (-1)), none, some 5, some 5,
    some (true, .controller "c1"), exCfg, .bang 0⟩

def exC1 : Ctl ℚ := ⟨"c1", "p1", .direct, "pipe", 9, .const 60, none, exCfg, .bang 0⟩

def exC2 : Ctl ℚ :=
  ⟨"c2", "p2", .direct, "pipe", 0, .ref "pipe" 9 5, some (.controller "c1" 0), { exCfg with sub := some true }, .bang 0⟩

theorem exBuilt : Built exParts [exC1, exC2] :=
  .snoc (.snoc .nil exMaster (c := exC1) rfl) exSub (c := exC2) rfl

/-- The pipe has `a` at its beginning and `b` at its end. -/
def exWorld (a b : ℚ) : World ℚ := ⟨fun _ i => if i = 0 then a else b, fun _ => 0, fun _ => 0, 1⟩

/-- Both pumps run; when the pipe gets hot, the second stops in the same pass as the first. -/
example : ((passes [(exC1, St.init 0), (exC2, St.init 0)] [exWorld 40 50]).map fun x => x.2.act) = [1, 1] ∧
    ((passes [(exC1, St.init 0), (exC2, St.init 0)] ([exWorld 40 50] ++ [exWorld 40 70])).map fun x => x.2.act) =
      [0, 0] := by
  decide +kernel

/-- Its own law would have kept it running: 40 is below 70 + 5. -/
example : ((passes [(exC1, St.init 0), (exC2, St.init 0)] [exWorld 40 70]).map fun x => x.2.error) = [-10, 35] := by
  decide +kernel

/-- The hypotheses of `C177_masters` and `C177_reference_partial` for this plant. -/
example : Built exParts ([(exC1, St.init 0), (exC2, St.init (0 : ℚ))].map Prod.fst) ∧
    exC2.master = some (.controller "c1" 0) ∧ exC2.mode ≠ .linked ∧ exC2.cfg.slope = none ∧
    add exParts [exC1] exSub = .ok exC2 ∧ exSub.refPart = some "pipe" ∧ exSub.refSPdiff = some 5 ∧
    exSub.differenceToRef = some 5 :=
  ⟨exBuilt, rfl, by decide, rfl, rfl, rfl, rfl, rfl⟩

/-- A pump that goes with the part `pipe`: off in the first step, when the part is off, on in the second. -/
def exC4 : Ctl ℚ := ⟨"c4", "p2", .direct, "pipe", 0, .const 60, some (.part "pipe"), { exCfg with sub := some true }, .bang 0⟩

example : Built exParts [exC4] ∧ ((passes [(exC4, St.init 0)] [exWorld 40 50]).map fun x => x.2.act) = [0] ∧
    ((passes [(exC4, St.init 0)] [exWorld 40 50, { exWorld 40 50 with var := fun _ => 1 }]).map fun x => x.2.act) = [1] :=
  ⟨.snoc .nil ⟨"c4", "p2", .direct, "pipe", .name "in", none, none, some 60, none, none, some (true, .part "pipe"), exCfg, .bang 0⟩
    (c := exC4) rfl, by decide +kernel, by decide +kernel⟩

/-- Controllers added in the other order: the dependent one is refused. -/
example : add exParts [] exSub = .error .assertion := rfl

/-- With the arguments of the error message only, a `KeyError`. -/
example : add exParts [exC1] { exSub with differenceToRef := none } = .error .key := rfl

/-- The second pump linked to the first. -/
def exLinked : Args ℚ :=
  ⟨"c3", "p2", .linked, "pipe", .name "out", some "p1", some (.name "in"), none, none, none, none, exCfg, .bang 0⟩

def exC3 : Ctl ℚ := ⟨"c3", "p2", .linked, "pipe", 9, .missing, none, exCfg, .bang 0⟩

/-- Refused after the controller of the first pump, accepted before it. -/
example : add exParts [exC1] exLinked = .error .value ∧ Built exParts [exC3, exC1] :=
  ⟨rfl, .snoc (.snoc .nil exLinked (c := exC3) rfl) exMaster (c := exC1) rfl⟩

/-- The first pump starts, the linked one does not. -/
example : ((passes [(exC3, St.init 0), (exC1, St.init 0)] [exWorld 40 50]).map fun x => x.2.act) = [0, 1] := by
  decide +kernel

end Verif.CtrlNet
