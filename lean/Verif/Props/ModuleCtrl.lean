import Verif.Model.ModuleCtrl
import Verif.Props.CtrlNet

/-!
# C178: the controllers of ready-made modules fit their parts

`C178_added_partial`: into every plant with controllers of other names and actuators, the controllers of each module can
be added, whatever the values; then each actuator of the module whose values are not given has a controller, with the
exception of the CHP plant in the mode `'el'` (`C178_fails_el`).

`C178_fails_older`: the older module for CHP plants can be built with three return ports only.
-/

namespace Verif.ModuleCtrl

open Verif.Controls Verif.CtrlNet Verif.Modules

variable {K : Type}

/-! ## Specification -/

/-- The parts of the module are in the plant, with their cells. -/
def Present (o : Opts K) (P : String → Option Part) (ps : List PSpec) : Prop :=
  ∀ p ∈ ps, ∃ q, P (p.name ++ o.seg) = some q ∧ q.sensor.rows = p.cells.fill o ∧ q.isActuator = p.actuator ∧
    q.given = p.given

/-! ## Facts on the tables -/

/-- The tables of parts agree with those of `Model/Modules.lean`. -/
theorem parts_names (m : Mod) :
    (parts m).map PSpec.name = m.calls.filterMap fun c => match c with | .part n _ => some n | _ => none := by
  cases m with
  | chp n m => cases n <;> cases m <;> rfl
  | _ => rfl

/-- The tables of controllers agree with those of `Model/Modules.lean`. -/
theorem ctrls_names (m : Mod) :
    (ctrls m).map CSpec.name = m.calls.filterMap fun c => match c with | .ctrl n => some n | _ => none := by
  cases m with
  | chp n m => cases n <;> cases m <;> rfl
  | _ => rfl

/-- Actuator of a controller. -/
def actOk (ps : List PSpec) (c : CSpec) : Bool := ps.any fun p => p.name = c.actuator && p.actuator && !p.given

/-- Sensor of a controller. -/
def sensOk (ps : List PSpec) (c : CSpec) : Bool :=
  match c.part, c.port with
  | .own n, .idx i => ps.any fun p => p.name = n && match p.cells with
      | .num k => decide (-(k : ℤ) ≤ i ∧ i < k)
      | .storeGp => false
  | .own n, .store => ps.any fun p => p.name = n && match p.cells with
      | .num _ => false
      | .storeGp => true
  | .caller, .caller => true
  | _, _ => false

/-- Master of a controller, `e` are the names of the controllers before. -/
def mastOk (ps : List PSpec) (e : List String) (c : CSpec) : Bool :=
  match c.master with
  | none => true
  | some (.controller n) => e.contains n
  | some (.part n) => ps.any fun p => p.name = n

def tableOk (ps : List PSpec) : List String → List CSpec → Bool
  | _, [] => true
  | e, c :: l => actOk ps c && sensOk ps c && mastOk ps e c && decide (c.mode ≠ .linked) && tableOk ps (e ++ [c.name]) l

theorem table (m : Mod) : tableOk (parts m) [] (ctrls m) = true ∧ ((ctrls m).map CSpec.name).Nodup ∧
    ((ctrls m).map CSpec.actuator).Nodup := by
  cases m with
  | chp n m => cases n <;> cases m <;> decide +kernel
  | _ => decide +kernel

theorem check_true {b : Prop} [Decidable b] (h : b) (e : Err) : check b e = .ok () := if_pos h

theorem need_some {α : Type} {x : Option α} {a : α} (h : x = some a) (e : Err) : need x e = .ok a := by rw [h]; rfl

theorem bind_of {α β : Type} {x : Except Err α} {a : α} {f : α → Except Err β} {y : Except Err β} (hx : x = .ok a)
    (hf : f a = y) : (x >>= f) = y := by rw [hx]; exact hf

theorem app_inj {a b s : String} (h : a ++ s = b ++ s) : a = b := by
  have := congrArg String.toList h
  simp only [String.toList_append] at this
  exact String.toList_inj.1 (List.append_cancel_right this)

theorem resolve_idx {p : Sensor.Part} {j : ℤ} (h : -(p.rows : ℤ) ≤ j ∧ j < p.rows) :
    ∃ i, Sensor.resolve p (.index j) = some i := by
  simp only [Sensor.resolve]
  rw [if_pos (by omega)]
  exact ⟨_, rfl⟩

/-- Adding one controller. -/
theorem add_one {o : Opts K} {P : String → Option Part} {ps : List PSpec} (hp : Present o P ps)
    (hs : ∀ p ∈ ps, p.cells = .storeGp → 0 < o.storeGp)
    {c : CSpec} (hext : c.part = .caller → ∃ q i, P o.part = some q ∧ Sensor.resolve q.sensor o.port = some i)
    {cs : List (Ctl K)} {e : List String} (he : ∀ n ∈ e, ∃ d ∈ cs, d.name = n ++ o.seg)
    (hn : ∀ d ∈ cs, d.name ≠ c.name ++ o.seg) (ha : ∀ d ∈ cs, d.actuator ≠ c.actuator ++ o.seg)
    (h1 : actOk ps c = true) (h2 : sensOk ps c = true) (h3 : mastOk ps e c = true) (h4 : c.mode ≠ .linked) :
    ∃ d, add P cs (c.fill o) = .ok d := by
  obtain ⟨p, hpm, hpn⟩ := List.any_eq_true.1 h1
  simp only [Bool.and_eq_true, decide_eq_true_eq, Bool.not_eq_true'] at hpn
  obtain ⟨⟨hpn, hpa⟩, hpg⟩ := hpn
  obtain ⟨q, hq, -, hqa, hqg⟩ := hp p hpm
  have hsens : ∃ q i, P (c.part.fill o) = some q ∧ Sensor.resolve q.sensor (c.port.fill o) = some i := by
    unfold sensOk at h2
    split at h2
    · rename_i n i en ei
      obtain ⟨p, hpm, hpn⟩ := List.any_eq_true.1 h2
      simp only [Bool.and_eq_true, decide_eq_true_eq] at hpn
      obtain ⟨q, hq, hr, -⟩ := hp p hpm
      rw [hpn.1] at hq
      cases hk : p.cells with
      | storeGp => rw [hk] at hpn; simp at hpn
      | num k =>
        rw [hk] at hpn hr
        have hpn2 : -(k : ℤ) ≤ i ∧ i < k := by simpa using hpn.2
        have hr : q.sensor.rows = k := hr
        rw [en, ei]
        obtain ⟨i', hi'⟩ := resolve_idx (p := q.sensor) (j := i) (by rw [hr]; exact hpn2)
        exact ⟨q, i', hq, hi'⟩
    · rename_i n en ei
      obtain ⟨p, hpm, hpn⟩ := List.any_eq_true.1 h2
      simp only [Bool.and_eq_true, decide_eq_true_eq] at hpn
      obtain ⟨q, hq, hr, -⟩ := hp p hpm
      rw [hpn.1] at hq
      cases hk : p.cells with
      | num k => rw [hk] at hpn; simp at hpn
      | storeGp =>
        rw [hk] at hr
        have hr : q.sensor.rows = o.storeGp := hr
        rw [en, ei]
        have := hs p hpm hk
        obtain ⟨i', hi'⟩ := resolve_idx (p := q.sensor) (j := ((35 * o.storeGp / 100 : ℕ) : ℤ)) (by rw [hr]; omega)
        exact ⟨q, i', hq, hi'⟩
    · rename_i en ei
      rw [en, ei]
      exact hext en
    · cases h2
  obtain ⟨q', i, hq', hi⟩ := hsens
  have hsrc : source P (c.fill o) = .ok (.const (o.setpoint c.name)) := by
    show (if (c.fill o).mode = .linked then _ else _) = _
    exact if_neg h4
  have hlink : link P cs (c.fill o) = .ok () := by
    unfold link
    rw [if_pos (show (c.fill o).mode ≠ .linked from h4)]
  have hmast : ∃ m, master P cs (c.fill o) = .ok m := by
    unfold master
    unfold mastOk at h3
    cases hm : c.master with
    | none => exact ⟨none, by simp [CSpec.fill, hm]⟩
    | some m =>
      rw [hm] at h3
      cases m with
      | controller n =>
        obtain ⟨d, hd, hdn⟩ := he n (by simpa using h3)
        have hf : (cs.find? fun c => c.name = n ++ o.seg).isSome = true := by
          rw [List.find?_isSome]
          exact ⟨d, hd, by simpa using hdn⟩
        obtain ⟨f, hf⟩ := Option.isSome_iff_exists.1 hf
        refine ⟨some (.controller (n ++ o.seg) f.cfg.off), ?_⟩
        simp only [CSpec.fill, hm, Option.map_some, MArg.fill]
        rw [hf]
        rfl
      | part n =>
        obtain ⟨p, hpm, hpn⟩ := List.any_eq_true.1 h3
        simp only [decide_eq_true_eq] at hpn
        obtain ⟨q, hq, -⟩ := hp p hpm
        rw [hpn] at hq
        refine ⟨some (.part (n ++ o.seg)), ?_⟩
        simp only [CSpec.fill, hm, Option.map_some, MArg.fill]
        rw [hq]
        rfl
  obtain ⟨m, hm⟩ := hmast
  refine ⟨⟨(c.fill o).name, (c.fill o).actuator, (c.fill o).mode, (c.fill o).part, i, .const (o.setpoint c.name), m,
    { (c.fill o).cfg with sub := (c.fill o).sub.map Prod.fst }, (c.fill o).law⟩, ?_⟩
  refine bind_of (check_true (show ∀ d ∈ cs, d.name ≠ (c.fill o).name from hn) _) ?_
  refine bind_of (need_some (show P (c.fill o).actuator = some q by rw [← hq, hpn]; rfl) _) ?_
  refine bind_of (check_true (hqa.trans hpa) _) ?_
  refine bind_of (check_true (show q.given = false ∧ ∀ d ∈ cs, d.actuator ≠ (c.fill o).actuator from
    ⟨hqg.trans hpg, ha⟩) _) ?_
  refine bind_of (need_some (show P (c.fill o).part = some q' from hq') _) ?_
  refine bind_of (need_some (show Sensor.resolve q'.sensor (c.fill o).port = some i from hi) _) ?_
  refine bind_of hsrc ?_
  refine bind_of hlink ?_
  exact bind_of hm rfl

/-- Adding several. -/
theorem add_table {o : Opts K} {P : String → Option Part} {ps : List PSpec} (hp : Present o P ps)
    (hs : ∀ p ∈ ps, p.cells = .storeGp → 0 < o.storeGp) :
    ∀ (l : List CSpec) (e : List String) (cs : List (Ctl K)), tableOk ps e l = true → (l.map CSpec.name).Nodup →
      (l.map CSpec.actuator).Nodup →
      (∀ c ∈ l, c.part = .caller → ∃ q i, P o.part = some q ∧ Sensor.resolve q.sensor o.port = some i) →
      Built P cs → (∀ n ∈ e, ∃ d ∈ cs, d.name = n ++ o.seg) → (∀ c ∈ l, ∀ d ∈ cs, d.name ≠ c.name ++ o.seg) →
      (∀ c ∈ l, ∀ d ∈ cs, d.actuator ≠ c.actuator ++ o.seg) →
      ∃ cs', addAll P cs (l.map (CSpec.fill o)) = .ok (cs ++ cs') ∧ Built P (cs ++ cs') ∧
        List.Forall₂ (fun (d : Ctl K) c => d.name = c.name ++ o.seg ∧ d.actuator = c.actuator ++ o.seg) cs' l := by
  intro l
  induction l with
  | nil =>
    intro e cs _ _ _ _ hB _ _ _
    exact ⟨[], by simp [addAll], by simpa using hB, .nil⟩
  | cons c l ih =>
    intro e cs ht hn ha hext hB he hfn hfa
    simp only [tableOk, Bool.and_eq_true, decide_eq_true_eq] at ht
    obtain ⟨⟨⟨⟨h1, h2⟩, h3⟩, h4⟩, h5⟩ := ht
    obtain ⟨d, hd⟩ := add_one hp hs (hext c (by simp)) he (hfn c (by simp)) (hfa c (by simp)) h1 h2 h3 h4
    obtain ⟨_, _, _, _, _, _, hdn, hda, _⟩ := add_ok hd
    rw [List.map_cons, List.nodup_cons] at hn ha
    obtain ⟨cs', h6, h7, h8⟩ := ih (e ++ [c.name]) (cs ++ [d]) h5 hn.2 ha.2
      (fun c' hc => hext c' (List.mem_cons_of_mem _ hc)) (.snoc hB _ hd)
      (by
        intro n hnm
        rcases List.mem_append.1 hnm with hnm | hnm
        · obtain ⟨d', hd', e'⟩ := he n hnm
          exact ⟨d', List.mem_append_left _ hd', e'⟩
        · rw [List.mem_singleton] at hnm
          exact ⟨d, by simp, by rw [hdn, hnm]; rfl⟩)
      (by
        intro c' hc' d' hd'
        rcases List.mem_append.1 hd' with hd' | hd'
        · exact hfn c' (List.mem_cons_of_mem _ hc') d' hd'
        · rw [List.mem_singleton] at hd'
          rw [hd', hdn]
          intro e'
          exact hn.1 (app_inj e' ▸ List.mem_map_of_mem hc'))
      (by
        intro c' hc' d' hd'
        rcases List.mem_append.1 hd' with hd' | hd'
        · exact hfa c' (List.mem_cons_of_mem _ hc') d' hd'
        · rw [List.mem_singleton] at hd'
          rw [hd', hda]
          intro e'
          exact ha.1 (app_inj e' ▸ List.mem_map_of_mem hc'))
    refine ⟨d :: cs', ?_, by simpa using h7, .cons ⟨hdn, hda⟩ h8⟩
    simp only [List.map_cons, addAll, hd]
    simpa using h6

theorem stored {m : Mod} {p : PSpec} (hp : p ∈ parts m) (h : p.cells = .storeGp) : m = .storeLoad := by
  cases m with
  | storeLoad => rfl
  | chp n m =>
    cases n <;> simp only [parts, chpParts, List.mem_cons, List.not_mem_nil, or_false] at hp <;>
      aesop
  | lowex => simp only [parts, lowexParts, List.mem_cons, List.not_mem_nil, or_false] at hp; aesop
  | spaceHeating => simp only [parts, spaceHeatingParts, List.mem_cons, List.not_mem_nil, or_false] at hp; aesop
  | gasboiler => simp only [parts, gasboilerParts, List.mem_cons, List.not_mem_nil, or_false] at hp; aesop

theorem calling {m : Mod} {c : CSpec} (hc : c ∈ ctrls m) (h : c.part = .caller) : m = .gasboiler := by
  cases m with
  | gasboiler => rfl
  | chp n m =>
    cases n <;> cases m <;>
      simp only [ctrls, chpModeCtrls, chpCtrls, List.mem_append, List.mem_cons, List.not_mem_nil, or_false, false_or] at hc <;>
      aesop
  | lowex => simp only [ctrls, lowexCtrls, List.mem_cons, List.not_mem_nil, or_false] at hc; aesop
  | storeLoad => simp only [ctrls, storeLoadCtrls, List.mem_cons, List.not_mem_nil, or_false] at hc; aesop
  | spaceHeating => simp only [ctrls, spaceHeatingCtrls, List.mem_cons, List.not_mem_nil, or_false] at hc; aesop

def servedB (ps : List PSpec) (cs : List CSpec) : Bool :=
  ps.all fun p => !p.actuator || p.given || cs.any fun c => c.actuator = p.name

theorem served {m : Mod} {p : PSpec} (hp : p ∈ parts m) (ha : p.actuator = true) (hg : p.given = false)
    (he : ∀ n, m ≠ .chp n .el) : ∃ c ∈ ctrls m, c.actuator = p.name := by
  have h : servedB (parts m) (ctrls m) = true := by
    cases m with
    | chp n m =>
      cases m with
      | el => exact absurd rfl (he n)
      | _ => cases n <;> decide +kernel
    | _ => decide +kernel
  have := List.all_eq_true.1 h p hp
  simpa [ha, hg] using this

/-! ## C178 -/

/-- In a plant with the parts of a module and with any controllers, none of which has a name or an actuator of those of
the module, the controllers of the module can be added.  Then each part of the module that is an actuator without given
values has exactly one controller. -/
theorem C178_added_partial {m : Mod} {o : Opts K} {P : String → Option Part} (hp : Present o P (parts m))
    (hs : m = .storeLoad → 0 < o.storeGp)
    (hext : m = .gasboiler → ∃ q i, P o.part = some q ∧ Sensor.resolve q.sensor o.port = some i)
    {cs : List (Ctl K)} (hB : Built P cs) (hfn : ∀ c ∈ ctrls m, ∀ d ∈ cs, d.name ≠ c.name ++ o.seg)
    (hfa : ∀ c ∈ ctrls m, ∀ d ∈ cs, d.actuator ≠ c.actuator ++ o.seg) :
    ∃ cs', addAll P cs ((ctrls m).map (CSpec.fill o)) = .ok (cs ++ cs') ∧ Built P (cs ++ cs') ∧
      ∀ p ∈ parts m, p.actuator = true → p.given = false → (∀ n, m ≠ .chp n .el) →
        ∃! d, d ∈ cs ++ cs' ∧ d.actuator = p.name ++ o.seg := by
  obtain ⟨t1, t2, t3⟩ := table m
  obtain ⟨cs', h1, h2, h3⟩ := add_table hp (fun p hpm hc => hs (stored hpm hc)) (ctrls m) [] cs t1 t2 t3
    (fun c hc h => hext (calling hc h)) hB (by simp) hfn hfa
  refine ⟨cs', h1, h2, fun p hpm hpa hpg hel => ?_⟩
  obtain ⟨c, hc, hca⟩ := served hpm hpa hpg hel
  obtain ⟨d, hd, -, hda⟩ : ∃ d ∈ cs', d.name = c.name ++ o.seg ∧ d.actuator = c.actuator ++ o.seg := by
    clear h1 h2 hfn hfa t1 t2 t3
    generalize ctrls m = l at h3 hc
    induction h3 with
    | nil => simp at hc
    | cons hab _ ih =>
      rcases List.mem_cons.1 hc with rfl | hc
      · exact ⟨_, by simp, hab⟩
      · obtain ⟨d, hd, h⟩ := ih hc
        exact ⟨d, List.mem_cons_of_mem _ hd, h⟩
  refine ⟨d, ⟨List.mem_append_right _ hd, by rw [hda, hca]⟩, ?_⟩
  rintro d' ⟨hd', e'⟩
  exact List.inj_on_of_nodup_map (C177_one_each h2).2.1 hd' (List.mem_append_right _ hd) (by rw [e', hda, hca])

/-- In the mode `'el'` the CHP plant, which needs a controller, gets none. -/
theorem C178_fails_el {n : Ports} {o : Opts K} {P : String → Option Part} (hp : Present o P (parts (.chp n .el)))
    {cs : List (Ctl K)} (hB : Built P cs) (hfn : ∀ c ∈ ctrls (.chp n .el), ∀ d ∈ cs, d.name ≠ c.name ++ o.seg)
    (hfa : ∀ d ∈ cs, ∀ p ∈ parts (.chp n .el), d.actuator ≠ p.name ++ o.seg) :
    ∃ cs', addAll P cs ((ctrls (.chp n .el)).map (CSpec.fill o)) = .ok (cs ++ cs') ∧
      (∃ q, P ("CHP" ++ o.seg) = some q ∧ q.isActuator = true ∧ q.given = false) ∧
      ∀ d ∈ cs ++ cs', d.actuator ≠ "CHP" ++ o.seg := by
  obtain ⟨t1, t2, t3⟩ := table (.chp n .el)
  have hact : ∀ c ∈ ctrls (.chp n .el), c.actuator ≠ "CHP" ∧ ∃ p ∈ parts (.chp n .el), p.name = c.actuator := by
    have h : ((ctrls (.chp n .el)).all fun c => decide (c.actuator ≠ "CHP") &&
        (parts (.chp n .el)).any fun p => p.name = c.actuator) = true := by
      cases n <;> decide +kernel
    intro c hc
    simpa using List.all_eq_true.1 h c hc
  have hchp : (⟨"CHP", .num 6, true, false⟩ : PSpec) ∈ parts (.chp n .el) := by
    cases n <;> exact List.mem_cons_self
  obtain ⟨cs', h1, h2, h3⟩ := add_table hp (fun p hpm hc => nomatch stored hpm hc) (ctrls (.chp n .el)) [] cs t1 t2 t3
    (fun c hc h => nomatch calling hc h) hB (by simp) hfn
    (fun c hc d hd => by obtain ⟨-, p, hpm, hpn⟩ := hact c hc; rw [← hpn]; exact hfa d hd p hpm)
  obtain ⟨q, hq, -, ha, hg⟩ := hp _ hchp
  refine ⟨cs', h1, ⟨q, hq, ha, hg⟩, fun d hd₀ => ?_⟩
  rcases List.mem_append.1 hd₀ with hd | hd
  · exact hfa d hd _ hchp
  · obtain ⟨c, hc, -, hda⟩ : ∃ c ∈ ctrls (.chp n .el), d.name = c.name ++ o.seg ∧ d.actuator = c.actuator ++ o.seg := by
      clear h1 h2 hfn hfa t1 t2 t3 hact hd₀
      generalize ctrls (.chp n .el) = l at h3
      induction h3 with
      | nil => simp at hd
      | cons hab _ ih =>
        rcases List.mem_cons.1 hd with rfl | hd
        · exact ⟨_, by simp, hab⟩
        · obtain ⟨c, hc, h⟩ := ih hd
          exact ⟨c, List.mem_cons_of_mem _ hc, h⟩
    rw [hda]
    exact fun e => (hact c hc).1 (app_inj e)

theorem addAll_each {P : String → Option Part} (l : List (Args K)) (cs cs' : List (Ctl K))
    (h : addAll P cs l = .ok cs') : ∀ a ∈ l, ∃ es c, add P es a = .ok c := by
  induction l generalizing cs with
  | nil => simp
  | cons a l ih =>
    intro b hb
    unfold addAll at h
    cases hc : add P cs a with
    | error e => rw [hc] at h; cases h
    | ok c =>
      rw [hc] at h
      rcases List.mem_cons.1 hb with rfl | hb
      · exact ⟨cs, c, hc⟩
      · exact ih _ h b hb

/-- The older module with one or two return ports, in any plant whose parts are those of the module and others of which
none is called like the second valve: its controllers are never added. -/
theorem C178_fails_older (o : Opts K) {P : String → Option Part} {n : ℕ} (hn : n = 1 ∨ n = 2) {others : List String}
    (hP : ∀ p, (P p).isSome → p ∈ olderParts o.seg n ++ others) (hv : mid o.seg "p3v_chp" "_rf_htA" ∉ others)
    (cs cs' : List (Ctl K)) : addAll P cs (olderCtrls o n) ≠ .ok cs' := by
  intro h
  have h4 := addAll_each _ _ _ h ⟨mid o.seg "c_3v_chp_htrf" "", mid o.seg "p3v_chp" "_rf_htA", .partSpecific,
    mid o.seg "p3v_chp" "_rf_htA", .index 8, none, none, some (o.setpoint "c_3v_chp_htrf"), none, none, none,
    o.cfg "c_3v_chp_htrf", o.law "c_3v_chp_htrf"⟩ (by simp [olderCtrls])
  obtain ⟨es, c, hc⟩ := h4
  obtain ⟨_, ⟨q, hq, _⟩, _⟩ := add_ok hc
  have hmem := hP _ (by rw [hq]; rfl)
  rcases List.mem_append.1 hmem with hmem | hmem
  · have hl : ∀ a b, mid o.seg "p3v_chp" "_rf_htA" = mid o.seg a b →
        "p3v_chp".toList ++ o.seg.toList ++ "_rf_htA".toList = a.toList ++ o.seg.toList ++ b.toList := by
      intro a b e
      have := congrArg String.toList e
      simpa [mid] using this
    rcases hn with rfl | rfl
    · simp only [olderParts, List.mem_cons, List.not_mem_nil, or_false] at hmem
      rcases hmem with e | e | e | e | e <;> replace e := hl _ _ e <;> simp at e
    · simp only [olderParts, List.mem_cons, List.not_mem_nil, or_false] at hmem
      rcases hmem with e | e | e | e | e | e <;> replace e := hl _ _ e <;> simp at e
  · exact hv hmem

/-! ### Examples -/

/-- Two modules of one plant: the space heating module and a CHP plant with three return ports. -/
def exOpts (seg : String) : Opts ℚ :=
  ⟨seg, 40, "tes", .index 10, fun _ => 60, fun _ => ⟨0, 1, 0, 1, 0, none, false, none, false, false⟩, fun _ => .bang 1⟩

/-- Parts by tables. -/
def exPlant (o : Opts ℚ) (ps : List PSpec) (n : String) : Option Part :=
  (ps.find? fun p => p.name ++ o.seg = n).map fun p =>
    ⟨p.name, Sensor.pipe (p.cells.fill o), p.actuator, p.given⟩

/-- The hypotheses are met. -/
example : Present (exOpts "a") (exPlant (exOpts "a") (parts .spaceHeating)) (parts .spaceHeating) := by
  intro p hp
  simp only [parts, spaceHeatingParts, List.mem_cons, List.not_mem_nil, or_false] at hp
  rcases hp with rfl | rfl | rfl | rfl | rfl | rfl <;> exact ⟨_, rfl, rfl, rfl, rfl⟩

example : Present (exOpts "2") (exPlant (exOpts "2") (parts (.chp .three .el))) (parts (.chp .three .el)) := by
  intro p hp
  simp only [parts, chpParts, List.mem_cons, List.not_mem_nil, or_false] at hp
  rcases hp with rfl | rfl | rfl | rfl | rfl | rfl | rfl <;> exact ⟨_, rfl, rfl, rfl, rfl⟩

/-- The peak boiler of the space heating module depends on the controller of its valve. -/
example : (addAll (exPlant (exOpts "a") (parts .spaceHeating)) [] ((ctrls .spaceHeating).map (CSpec.fill (exOpts "a")))).map
    (fun cs => cs.map fun c => (c.name, c.actuator, c.cell)) =
    .ok [("c_sh_3v_tesrf_a", "p3v_sh_tes_rf_a", 5), ("c_sh_3v_tesgb_a", "p3v_sh_tes_gb_a", 2),
      ("c_sh_gasb_pth_a", "ph_sh_gasb_a", 4)] := by
  rfl

/-- The older module with the parts for two return ports and a storage. -/
example : (addAll (fun p => if p ∈ olderParts "1" 2 ++ ["tes"] then some ⟨p, Sensor.pipe 10, true, false⟩ else none) []
    (olderCtrls (exOpts "1") 2)).isOk = false ∧ mid "1" "p3v_chp" "_rf_htA" ∉ ["tes"] := by
  constructor
  · rfl
  · decide +kernel

/-- With three it works. -/
example : (addAll (fun p => if p ∈ olderParts "1" 3 ++ ["tes"] then some ⟨p, Sensor.pipe 10, true, false⟩ else none) []
    (olderCtrls (exOpts "1") 3)).isOk = true := by
  rfl

end Verif.ModuleCtrl
