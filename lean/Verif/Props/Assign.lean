import Verif.Model.Assign
import Verif.Model.DynBC
import Mathlib.Tactic.NormNum
import Mathlib.Tactic.Ring
import Mathlib.Tactic.Linarith
import Mathlib.Algebra.Order.Ring.Rat

/-!
# C142, C143: targets of time series, actuators without controller
-/

namespace Verif.Assign

variable {K : Type*}

/-- Numbers of elements that mean what they mean elsewhere in Python: from the beginning, or from the end except for
the last one. -/
theorem view_nonneg {n a : ℕ} (h : a < n) : view n (a : ℤ) = some a := by
  have e1 : limit n (a : ℤ) = a := by unfold limit; rw [if_neg (by omega)]; omega
  have e2 : limit n ((a : ℤ) + 1) = a + 1 := by unfold limit; rw [if_neg (by omega)]; omega
  unfold view
  rw [e1, e2, if_pos (by omega)]

theorem view_negative {n : ℕ} {a : ℤ} (h1 : -(n : ℤ) ≤ a) (h2 : a < -1) : view n a = some (n + a).toNat := by
  have e1 : limit n a = (n + a).toNat := by unfold limit; rw [if_pos (by omega)]; omega
  have e2 : limit n (a + 1) = (n + a).toNat + 1 := by unfold limit; rw [if_pos (by omega)]; omega
  unfold view
  rw [e1, e2, if_pos (by omega)]

theorem view_last (n : ℕ) : view n (-1) = none := by
  have e2 : limit n (-1 + 1) = 0 := by unfold limit; simp
  unfold view
  rw [e2, if_neg (by omega)]

theorem view_below {n : ℕ} {a : ℤ} (h : a < -(n : ℤ)) : view n a = none := by
  have e2 : limit n (a + 1) = 0 := by
    unfold limit
    by_cases h' : a + 1 < 0
    · rw [if_pos h']; omega
    · rw [if_neg h']; omega
  unfold view
  rw [e2, if_neg (by omega)]

/-- Specification: the array and the element a user means. -/
def Meant (e : Env K) : Dest → Arr → ℕ → Prop
  | .openPort name, a, k => a = .ports ∧ e.portId name = some k
  | .part p v i, a, k => a = .variable p v ∧ ∃ l, e.arrays a = some l ∧ (k : ℤ) = if i < 0 then l.length + i else i
  | .control c, a, k => a = .setpoint c ∧ k = 0
  | .other, _, _ => False

/-- The destinations for which the property holds: existing open ports, elements of variables except for the last one
by the number minus one and those below the range, set points. -/
def Usable (e : Env K) : Dest → Prop
  | .openPort name => ∀ k l, e.portId name = some k → e.arrays .ports = some l → k < l.length
  | .part p v i => ∀ l, e.arrays (.variable p v) = some l → i ≠ -1 ∧ -(l.length : ℤ) ≤ i
  | .control c => ∀ l, e.arrays (.setpoint c) = some l → l ≠ []
  | .other => True

theorem checkTime_spec {e e' : Env K} {s : Series K} (h : checkTime e s = some e') :
    e'.arrays = e.arrays ∧ e'.portId = e.portId ∧ e'.dyn = e.dyn ∧ e'.timeframe = e.timeframe := by
  unfold checkTime at h
  split at h
  · split at h
    · cases h; exact ⟨rfl, rfl, rfl, rfl⟩
    · cases h
  · split at h
    · split at h
      · cases h; exact ⟨rfl, rfl, rfl, rfl⟩
      · cases h
    · cases h

/-- **C142**, partial: an accepted series is added behind the earlier ones with the element that was meant as its target.
For all environments, series and destinations; missing: elements with the number minus one or numbers below the range. -/
theorem C142_target_partial {e e' : Env K} {s : Series K} {d : Dest} (hu : Usable e d)
    (h : assign e s d = (e', true)) :
    e'.arrays = e.arrays ∧ ∃ a k, Meant e d a k ∧ e'.dyn = e.dyn ++ [(a, some k, s.values)] := by
  unfold assign at h
  cases hc : checkTime e s with
  | none => rw [hc] at h; simp at h
  | some f =>
    obtain ⟨h1, h2, h3, -⟩ := checkTime_spec hc
    rw [hc] at h
    simp only at h
    cases ht : target f d with
    | none => rw [ht] at h; simp at h
    | some av =>
      obtain ⟨a, v⟩ := av
      rw [ht] at h
      simp only [Prod.mk.injEq, and_true] at h
      subst h
      refine ⟨h1, ?_⟩
      cases d with
      | openPort name =>
        simp only [target, h1, h2, Option.bind_eq_some_iff, Option.map_eq_some_iff, Prod.mk.injEq] at ht
        obtain ⟨i, hi, l, hl, rfl, hv⟩ := ht
        rw [view_nonneg (hu i l hi hl)] at hv
        exact ⟨.ports, i, ⟨rfl, hi⟩, by simp [h3, hv]⟩
      | part p w i =>
        simp only [target, h1, Option.bind_eq_some_iff] at ht
        obtain ⟨l, hl, ht⟩ := ht
        by_cases hi : i < l.length
        · rw [if_pos hi] at ht
          obtain ⟨hne, hlow⟩ := hu l hl
          simp only [Option.some.injEq, Prod.mk.injEq] at ht
          obtain ⟨rfl, hv⟩ := ht
          by_cases hneg : i < 0
          · rw [view_negative hlow (by omega)] at hv
            exact ⟨_, (l.length + i).toNat, ⟨rfl, l, hl, by rw [if_pos hneg]; omega⟩, by simp [h3, hv]⟩
          · obtain ⟨j, rfl⟩ : ∃ j : ℕ, i = j := ⟨i.toNat, by omega⟩
            rw [view_nonneg (by omega)] at hv
            exact ⟨_, j, ⟨rfl, l, hl, by rw [if_neg hneg]⟩, by simp [h3, hv]⟩
        · rw [if_neg hi] at ht; cases ht
      | control c =>
        simp only [target, h1, Option.map_eq_some_iff, Prod.mk.injEq] at ht
        obtain ⟨l, hl, rfl, hv⟩ := ht
        have := view_nonneg (n := l.length) (a := 0) (List.length_pos_iff.2 (hu l hl))
        rw [Nat.cast_zero] at this
        rw [this] at hv
        exact ⟨_, _, ⟨rfl, rfl⟩, by simp [h3, hv]⟩
      | other => cases ht

/-- The series that was assigned last to an element. -/
def lastFor (dyn : List (Arr × Option ℕ × List K)) (a : Arr) (k : ℕ) : Option (List K) :=
  (dyn.reverse.find? fun x => decide (x.1 = a ∧ x.2.1 = some k)).map fun x => x.2.2

/-- **C142**: in every step every element of every array takes the value of the series assigned to it — of the last one,
if there are several — and all other elements keep theirs.  For all lists of series with targets and all ways to find
the value (first value, interpolation). -/
theorem C142_written (f : List K → Option K) (dyn : List (Arr × Option ℕ × List K)) (m : Arr → Option (List K))
    (hf : ∀ x ∈ dyn, (f x.2.2).isSome) (hv : ∀ x ∈ dyn, x.2.1.isSome) :
    ∃ m', updateAll f dyn m = some m' ∧ ∀ a l, m a = some l → ∃ l', m' a = some l' ∧ l'.length = l.length ∧
      ∀ k < l.length, l'[k]? = match lastFor dyn a k with | some vals => f vals | none => l[k]? := by
  induction dyn generalizing m with
  | nil => exact ⟨m, rfl, fun a l h => ⟨l, h, rfl, fun k _ => rfl⟩⟩
  | cons x t ih =>
    obtain ⟨b, v, vals⟩ := x
    obtain ⟨y, hy⟩ := Option.isSome_iff_exists.1 (hf _ List.mem_cons_self)
    obtain ⟨j, hj⟩ := Option.isSome_iff_exists.1 (hv _ List.mem_cons_self)
    simp only at hy hj
    subst hj
    obtain ⟨m', h1, h2⟩ := ih (fun c => if c = b then (m c).map fun l => l.set j y else m c)
      (fun x hx => hf x (List.mem_cons_of_mem _ hx)) (fun x hx => hv x (List.mem_cons_of_mem _ hx))
    refine ⟨m', ?_, ?_⟩
    · simp only [updateAll, hy, Option.bind_some, write, Option.map_some]
      exact h1
    · intro a l hl
      have split : ∀ k, lastFor ((b, some j, vals) :: t) a k =
          match lastFor t a k with | some w => some w | none => if b = a ∧ j = k then some vals else none := by
        intro k
        unfold lastFor
        rw [List.reverse_cons, List.find?_append]
        cases hfd : t.reverse.find? fun x => decide (x.1 = a ∧ x.2.1 = some k) with
        | some w => simp
        | none =>
          by_cases hbk : b = a ∧ j = k
          · simp [hbk]
          · simp [hbk]
      by_cases hb : a = b
      · subst hb
        obtain ⟨l', e1, e2, e3⟩ := h2 a (l.set j y) (by simp [hl])
        refine ⟨l', e1, by simpa using e2, fun k hk => ?_⟩
        rw [e3 k (by simpa using hk), split k]
        cases hlast : lastFor t a k with
        | some w => rfl
        | none =>
          by_cases hjk : j = k
          · subst hjk
            simp [hy, hk]
          · simp [hjk, List.getElem?_set_ne]
      · obtain ⟨l', e1, e2, e3⟩ := h2 a l (by simp [hb, hl])
        refine ⟨l', e1, e2, fun k hk => ?_⟩
        rw [e3 k hk, split k]
        cases hlast : lastFor t a k with
        | some w => rfl
        | none => simp [Ne.symm hb]

theorem assign_timevec {e e' : Env K} {s : Series K} {d : Dest} (h0 : e.timevec = none)
    (h : assign e s d = (e', true)) : e'.timevec = some (s.stamps.map (· / 1000000000)) := by
  unfold assign at h
  split at h
  · cases h
  · rename_i f hf
    have hf' : f.timevec = some (s.stamps.map (· / 1000000000)) := by
      unfold checkTime at hf
      rw [h0] at hf
      simp only at hf
      split at hf
      · split at hf
        · cases hf; rfl
        · cases hf
      · cases hf
    split at h
    · cases h
    · cases h
      exact hf'

/-- **C142**, partial: once a series has been accepted, other series with the same stamps are.  For stamps at full
seconds. -/
theorem C142_same_stamps_partial {e e' : Env K} {s s' : Series K} {d : Dest} (hs : s'.stamps = s.stamps)
    (h0 : e.timevec = none) (hsec : ∀ x ∈ s.stamps, (1000000000 : ℤ) ∣ x) (h : assign e s d = (e', true)) :
    ∀ e'', e''.timevec = e'.timevec → checkTime e'' s' = some e'' := by
  intro e'' he
  have tv := assign_timevec h0 h
  unfold checkTime
  rw [he, tv]
  simp only [hs, List.length_map, true_and]
  rw [if_pos]
  rw [List.map_map]
  conv_rhs => rw [← List.map_id s.stamps]
  exact List.map_congr_left fun x hx => Int.ediv_mul_cancel (hsec x hx)

/-- **C142** is false for the last element by the number minus one and for numbers below the range: the call is accepted,
and the initialisation of the boundary conditions fails, whatever the series. -/
theorem C142_fails_minus_one {e : Env K} {s : Series K} {p v : String} {i : ℤ} {l : List K}
    (hl : e.arrays (.variable p v) = some l) (hi : i = -1 ∨ i < -(l.length : ℤ)) (ht : (checkTime e s).isSome) :
    ∃ e', assign e s (.part p v i) = (e', true) ∧ ∀ f, updateAll f e'.dyn e'.arrays = none := by
  obtain ⟨f, hf⟩ := Option.isSome_iff_exists.1 ht
  obtain ⟨h1, -, h3, -⟩ := checkTime_spec hf
  have hv : view l.length i = none := by
    rcases hi with rfl | hi
    · exact view_last _
    · exact view_below hi
  have hlt : i < l.length := by rcases hi with rfl | hi <;> omega
  refine ⟨{ f with dyn := f.dyn ++ [(.variable p v, none, s.values)] }, ?_, ?_⟩
  · simp [assign, hf, target, h1, hl, hlt, hv]
  · intro g
    simp only
    generalize f.arrays = m
    induction f.dyn generalizing m with
    | nil =>
      simp only [List.nil_append, updateAll, write, Option.map_none, Option.bind_none]
      cases g s.values <;> rfl
    | cons x t ih =>
      obtain ⟨a, w, vals⟩ := x
      simp only [List.cons_append, updateAll]
      cases g vals with
      | none => rfl
      | some y =>
        simp only [Option.bind_some]
        cases write m a w y with
        | none => rfl
        | some m' => exact ih m'

/-- **C142** is false with stamps between full seconds: no second series can be assigned, not even with the same
stamps. -/
theorem C142_fails_subsecond {e e' : Env K} {s s' : Series K} {d : Dest} (hs : s'.stamps = s.stamps)
    (h0 : e.timevec = none) {x : ℤ} (hx : x ∈ s.stamps) (hsub : ¬ (1000000000 : ℤ) ∣ x)
    (h : assign e s d = (e', true)) (d' : Dest) : assign e' s' d' = (e', false) := by
  have tv := assign_timevec h0 h
  have : checkTime e' s' = none := by
    unfold checkTime
    rw [tv]
    simp only [hs, List.length_map, true_and]
    rw [if_neg]
    intro he
    rw [List.map_map] at he
    have h1 : ∀ y ∈ s.stamps, y / 1000000000 * 1000000000 = y := by
      have h2 : s.stamps.map ((fun x : ℤ => x * 1000000000) ∘ fun x => x / 1000000000) = s.stamps.map id := by
        rw [he, List.map_id]
      exact List.map_inj_left.1 h2
    exact hsub ⟨x / 1000000000, by rw [mul_comm]; exact (h1 x hx).symm⟩
  simp [assign, this]

/-- **C142**, partial: a refused call changes no number and assigns no series, and once the stamps are fixed it changes
nothing at all.  Missing: the stamps of a refused first call (`C142_fails_refused`). -/
theorem C142_refused_partial {e e' : Env K} {s : Series K} {d : Dest} (h : assign e s d = (e', false)) :
    e'.arrays = e.arrays ∧ e'.dyn = e.dyn ∧ e'.portId = e.portId ∧ (e.timevec ≠ none → e' = e) := by
  unfold assign at h
  rcases hc : checkTime e s with _ | f
  · rw [hc] at h
    simp only [Prod.mk.injEq, and_true] at h
    subst h
    exact ⟨rfl, rfl, rfl, fun _ => rfl⟩
  · rw [hc] at h
    have hf : f.arrays = e.arrays ∧ f.dyn = e.dyn ∧ f.portId = e.portId ∧ (e.timevec ≠ none → f = e) := by
      unfold checkTime at hc
      split at hc
      · split at hc
        · cases hc
          exact ⟨rfl, rfl, rfl, fun _ => rfl⟩
        · cases hc
      · split at hc
        · split at hc
          · cases hc
            rename_i h0 _ _ _ _ _ _
            exact ⟨rfl, rfl, rfl, fun h1 => absurd h0 h1⟩
          · cases hc
        · cases hc
    simp only at h
    split at h
    · simp only [Prod.mk.injEq, and_true] at h
      subst h
      exact hf
    · simp at h

/-- **C142** is false after a refused call: a first call that is refused because its target does not exist fixes the
stamps for all later series. -/
theorem C142_fails_refused {e f : Env K} {s : Series K} (h0 : e.timevec = none) (hc : checkTime e s = some f)
    {d : Dest} (hd : target f d = none) :
    assign e s d = (f, false) ∧ f.timevec ≠ none := by
  refine ⟨by simp [assign, hc, hd], ?_⟩
  unfold checkTime at hc
  rw [h0] at hc
  simp only at hc
  split at hc
  · split at hc
    · cases hc; simp
    · cases hc
  · cases hc

/-- **C142**, **C28** (the check of times): the first series is accepted for a target which exists exactly if it has at
least two rows and its number of rows times the distance of the first two exceeds the simulated time, which is the
condition `accepts` in the theorems on the end of a series (C28). -/
theorem C142_first_series [Field K] [LinearOrder K] [IsStrictOrderedRing K] {e : Env K} {s : Series K}
    (h0 : e.timevec = none) (hl : s.values.length = s.stamps.length) (d : Dest) (hd : (target e d).isSome) :
    (assign e s d).2 = true ↔ ∃ a b, s.stamps[0]? = some a ∧ s.stamps[1]? = some b ∧
      DynBC.accepts s.values (((b - a : ℤ) : K) / 1000000000) ((e.timeframe : K) / 1000000000) := by
  have ht : ∀ f, checkTime e s = some f → target f d = target e d := by
    intro f hf
    obtain ⟨h1, h2, -, -⟩ := checkTime_spec hf
    cases d <;> simp only [target, h1, h2]
  have hkey : (assign e s d).2 = true ↔ (checkTime e s).isSome := by
    unfold assign
    cases hc : checkTime e s with
    | none => simp
    | some f =>
      obtain ⟨x, hx⟩ := Option.isSome_iff_exists.1 hd
      have := ht f hc
      rw [hx] at this
      obtain ⟨x1, x2⟩ := x
      simp [this]
  rw [hkey]
  have hacc : ∀ a b : ℤ, DynBC.accepts s.values (((b - a : ℤ) : K) / 1000000000) ((e.timeframe : K) / 1000000000) ↔
      e.timeframe < (b - a) * s.stamps.length := by
    intro a b
    unfold DynBC.accepts
    rw [hl, div_mul_eq_mul_div, div_lt_div_iff_of_pos_right (by norm_num)]
    exact_mod_cast Iff.rfl
  unfold checkTime
  rw [h0]
  simp only [hacc]
  rcases hs : s.stamps with _ | ⟨a, _ | ⟨b, r⟩⟩
  · simp
  · simp
  · simp only [List.getElem?_cons_zero, List.getElem?_cons_succ, Option.some.injEq]
    split_ifs with h
    · simpa using h
    · simpa using h

/-- **C142** (further series): after the first series others are accepted for an existing target exactly if they have its
stamps cut to seconds. -/
theorem C142_further_series {e : Env K} {tv : List ℤ} (h0 : e.timevec = some tv) {s : Series K} (d : Dest)
    (hd : (target e d).isSome) : (assign e s d).2 = true ↔ s.stamps = tv.map (· * 1000000000) := by
  obtain ⟨x, hx⟩ := Option.isSome_iff_exists.1 hd
  obtain ⟨x1, x2⟩ := x
  unfold assign checkTime
  rw [h0]
  simp only
  split_ifs with h
  · simp [hx, h.2]
  · simp only [Bool.false_eq_true, false_iff]
    intro h'
    exact h ⟨by rw [h', List.length_map], h'.symm⟩

/-- An environment with two open ports, a pump and a controller. -/
def demoEnv : Env ℚ :=
  ⟨fun n => if n = "BC_in" then some 1 else none,
    fun a => match a with | .ports => some [10, 20, 30] | .variable "pump" "dm" => some [5] | _ => none,
    none, 7000000000, []⟩

def demoSeries : Series ℚ := ⟨[0, 4000000000], [50, 60]⟩

example : Usable demoEnv (.openPort "BC_in") := by
  intro k l hk hl
  cases hk; cases hl
  decide

example : (assign demoEnv demoSeries (.openPort "BC_in")).2 = true ∧
    ((updateAll (·[0]?) (assign demoEnv demoSeries (.openPort "BC_in")).1.dyn demoEnv.arrays).bind fun m => m .ports) =
      some [10, 50, 30] := by decide +kernel

example : demoEnv.timevec = none ∧ demoSeries.values.length = demoSeries.stamps.length ∧
    (target demoEnv (.openPort "BC_in")).isSome = true ∧
    (assign demoEnv { demoSeries with stamps := [0, 3000000000] } (.openPort "BC_in")).2 = false ∧
    (assign (assign demoEnv demoSeries (.openPort "BC_in")).1 { demoSeries with stamps := [0, 5000000000] }
      (.part "pump" "dm" 0)).2 = false ∧
    (assign (assign demoEnv demoSeries (.openPort "BC_in")).1 demoSeries (.part "pump" "dm" 0)).2 = true := by
  decide +kernel

section Actuator

variable [Field K]

/-- Specification: the value given for step `i`. -/
def given (s : Source K) (i : ℕ) : K := match s with | .const v => v | .series v => v i

/-- **C143**, partial: an actuator without controller has the given value in every step.  For all pumps, pipes with pump
and CHP plants, and for pipes with a valve at a constant opening; missing: series for valves, mixing valves. -/
theorem C143_given_partial {k : Kind} {s : Source K} (start : K) (flow : ℕ → K)
    (h : k = .pump ∨ k = .pipeWithPump ∨ k = .chp ∨ k = .pipeWithValve ∧ ∃ v, s = .const v) :
    ∃ a, initAct k start s = some a ∧ ∀ i, effect k (actAt k s flow a i) = given s i := by
  rcases h with rfl | rfl | rfl | ⟨rfl, v, rfl⟩
  · cases s with
    | const v => exact ⟨_, rfl, fun i => by induction i with | zero => rfl | succ i ih => exact ih⟩
    | series v => exact ⟨_, rfl, fun i => by cases i <;> rfl⟩
  · cases s with
    | const v => exact ⟨_, rfl, fun i => by induction i with | zero => rfl | succ i ih => exact ih⟩
    | series v => exact ⟨_, rfl, fun i => by cases i <;> rfl⟩
  · cases s with
    | const v => exact ⟨_, rfl, fun i => by induction i with | zero => rfl | succ i ih => exact ih⟩
    | series v => exact ⟨_, rfl, fun i => by cases i <;> rfl⟩
  · exact ⟨_, rfl, fun i => by induction i with | zero => rfl | succ i ih => exact ih⟩

example : (initAct .pump (1 : ℚ) (.series fun i => (i : ℚ) + 2)).map (fun a : Act ℚ × Option Var =>
    (effect .pump (actAt .pump (.series fun i => (i : ℚ) + 2) (fun _ => 7) a 3),
     effect .pipeWithValve (actAt .pipeWithValve (.series fun i => (i : ℚ) + 2) (fun _ => 7) a 3))) = some (5, 0) := by
  decide +kernel

/-- **C143** is false of pipes with a valve and a series: the valve keeps its start opening, whatever the series. -/
theorem C143_fails_valve_series (start : K) (v flow : ℕ → K) :
    ∃ a, initAct .pipeWithValve start (.series v) = some a ∧
      ∀ i, effect .pipeWithValve (actAt .pipeWithValve (.series v) flow a i) = start :=
  ⟨_, rfl, fun i => by induction i with | zero => rfl | succ i ih => exact ih⟩

/-- **C143** is false of mixing valves: neither a constant nor a series is accepted. -/
theorem C143_fails_mixing_valve (start : K) (s : Source K) : initAct .mixingValve start s = none := by
  cases s <;> rfl

/-- The constant opening of a pipe with a valve is not checked: any value is accepted, and the two openings always add
up to one, so that one of them is negative for values outside of the range from zero to one. -/
theorem C143_fails_range {K : Type*} [Field K] [LinearOrder K] [IsStrictOrderedRing K] {v : K} (start : K)
    (flow : ℕ → K) (h : v < 0 ∨ 1 < v) :
    ∃ a, initAct .pipeWithValve start (.const v) = some a ∧ ∀ i,
      let x := actAt .pipeWithValve (.const v) flow a i
      x.pfA + x.pfB = 1 ∧ (x.pfA < 0 ∨ x.pfB < 0) := by
  have key : ∀ i, let x := actAt .pipeWithValve (.const v) flow (⟨0, v, 1 - v, 0⟩, none) i
      x.pfA = v ∧ x.pfB = 1 - v := by
    intro i
    induction i with
    | zero => exact ⟨rfl, rfl⟩
    | succ i ih => exact ih
  refine ⟨_, rfl, fun i => ?_⟩
  obtain ⟨h1, h2⟩ := key i
  simp only at h1 h2 ⊢
  rw [h1, h2]
  refine ⟨by ring, ?_⟩
  rcases h with h | h
  · exact Or.inl h
  · exact Or.inr (by linarith)

example : (1 : ℚ) < 5 ∧ (initAct .pipeWithValve (0 : ℚ) (.const 5)).map (fun a => (a.1.pfA, a.1.pfB)) = some (5, -4) := by
  decide +kernel

end Actuator

end Verif.Assign
