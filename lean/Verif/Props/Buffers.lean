import Verif.Model.Buffers
import Mathlib.Tactic.Ring
import Mathlib.Tactic.Linarith

/-!
# Result buffers and ports (C58)
-/

set_option linter.unusedSectionVars false

namespace Verif.Buffers

variable {K : Type*} [Zero K]

/-- Full statement of C58: whatever happened to the buffers of a run so far, once a part has written the row of
the current step (within its buffer), the updater gives each of its ports the value of the port's cell in that
row. -/
def C58_statement (K : Type*) [Zero K] : Prop :=
  ∀ (n rows : ℕ) (m : Mem K), Fresh n rows m → ∀ (p : Port), p.part < n → p.cell < m.size p.part →
    ∀ (ops : List (Op K)) (stepnum : ℕ) (vals : List K), vals.length = m.size p.part →
      (stepnum + 1) * m.size p.part ≤ ((run n m ops).heap ((run n m ops).res p.part)).length →
      read ((run n m ops).write p.part stepnum vals) (entry m p) stepnum = vals[p.cell]?

theorem length_overwrite (xs : List K) (pos : ℕ) (vals : List K) (h : pos + vals.length ≤ xs.length) :
    (overwrite xs pos vals).length = xs.length := by
  simp [overwrite]; omega

/-- What is kept by operations other than enlarging: references and sizes stay, arrays never get shorter than
their number of rows demands — as long as rows are written within the arrays. -/
structure Same (n rows : ℕ) (m m' : Mem K) : Prop where
  res : m'.res = m.res
  size : m'.size = m.size
  len : ∀ p < n, (m'.heap (m.res p)).length = rows * m.size p

/-- Operations which do not enlarge, with rows inside of the buffers. -/
def Inside (n rows : ℕ) (m : Mem K) : Op K → Prop
  | .write part stepnum vals => part < n ∧ stepnum < rows ∧ vals.length = m.size part
  | .enlarge _ => False
  | .flush stepnum => stepnum < rows

theorem row_le {rows stepnum s : ℕ} (h : stepnum < rows) : stepnum * s + s ≤ rows * s := by
  have : (stepnum + 1) * s ≤ rows * s := Nat.mul_le_mul_right s h
  linarith [Nat.succ_mul stepnum s]

theorem same_write {n rows : ℕ} {m m' : Mem K} (h : Same n rows m m') {part stepnum : ℕ} {vals : List K}
    (hi : Inside n rows m (.write part stepnum vals)) : Same n rows m (m'.write part stepnum vals) := by
  obtain ⟨hp, hs, hv⟩ := hi
  refine ⟨h.res, h.size, ?_⟩
  intro p hpn
  simp only [Mem.write, h.res, h.size]
  by_cases e : m.res p = m.res part
  · rw [if_pos e, length_overwrite]
    · exact h.len p hpn
    · rw [e, h.len part hp, hv]
      exact row_le hs
  · rw [if_neg e]; exact h.len p hpn

theorem same_flush1 {n rows : ℕ} {m m' : Mem K} (h : Same n rows m m') {part stepnum : ℕ} (hp : part < n)
    (hs : stepnum < rows) : Same n rows m (m'.flush stepnum part) := by
  refine ⟨h.res, h.size, ?_⟩
  intro p hpn
  simp only [Mem.flush, h.res, h.size]
  by_cases e : m.res p = m.res part
  · rw [if_pos e]
    have h1 := h.len p hpn
    have h2 := h.len part hp
    rw [e] at h1 ⊢
    have h3 := row_le (s := m.size part) hs
    simp only [List.length_append, List.length_take, List.length_drop, List.length_replicate]
    rw [← h1, h2]
    have h4 : m.size part ≤ rows * m.size part - stepnum * m.size part := by omega
    rw [Nat.min_eq_left h4]
    omega
  · rw [if_neg e]; exact h.len p hpn

theorem same_flush {n rows : ℕ} {m : Mem K} {stepnum : ℕ} (hs : stepnum < rows) (ps : List ℕ) (hps : ∀ p ∈ ps, p < n) :
    ∀ m', Same n rows m m' → Same n rows m (ps.foldl (fun m part => m.flush stepnum part) m') := by
  induction ps with
  | nil => exact fun _ h => h
  | cons p ps ih =>
    intro m' h
    exact ih (fun q hq => hps q (List.mem_cons_of_mem _ hq)) _ (same_flush1 h (hps p (List.mem_cons_self ..)) hs)

theorem same_run {n rows : ℕ} {m : Mem K} (ops : List (Op K)) (hi : ∀ o ∈ ops, Inside n rows m o) :
    ∀ m', Same n rows m m' → Same n rows m (run n m' ops) := by
  induction ops with
  | nil => exact fun _ h => h
  | cons o ops ih =>
    intro m' h
    refine ih (fun q hq => hi q (List.mem_cons_of_mem _ hq)) _ ?_
    have ho := hi o (List.mem_cons_self ..)
    cases o with
    | write part stepnum vals => exact same_write h ho
    | enlarge base => exact ho.elim
    | flush stepnum => exact same_flush ho _ (fun p hp => List.mem_range.1 hp) _ h

/-- C58 for runs which never enlarge: after any number of rows written and of buffers flushed to disk, once a
part has written the row of a step, the updater gives each of its ports the value of that row. -/
theorem C58_ports_follow_results_partial {n rows : ℕ} {m : Mem K} (hf : Fresh n rows m) {p : Port} (hp : p.part < n)
    (hc : p.cell < m.size p.part) (ops : List (Op K)) (hi : ∀ o ∈ ops, Inside n rows m o) {stepnum : ℕ}
    (hs : stepnum < rows) {vals : List K} (hv : vals.length = m.size p.part) :
    read ((run n m ops).write p.part stepnum vals) (entry m p) stepnum = vals[p.cell]? := by
  have h := same_run ops hi m ⟨rfl, rfl, hf.len⟩
  have hl := h.len p.part hp
  have hr := row_le (s := m.size p.part) hs
  simp only [read, entry, Mem.write, h.res, h.size, if_true]
  rw [overwrite, List.append_assoc, List.getElem?_append_right (by simp)]
  have : (List.take (stepnum * m.size p.part) ((run n m ops).heap (m.res p.part))).length = stepnum * m.size p.part := by
    simp; omega
  rw [this, Nat.add_sub_cancel_left, List.getElem?_append_left (by simp; omega), List.getElem?_take, if_pos (by omega)]

theorem flush_fold {n : ℕ} {stepnum q : ℕ} (hq : q < n) (ps : List ℕ) (hps : ∀ p ∈ ps, p < n) (hnd : ps.Nodup) :
    ∀ m : Mem K, (∀ p < n, ∀ q < n, m.res p = m.res q → p = q) →
      let m' := ps.foldl (fun m part => m.flush stepnum part) m
      m'.res = m.res ∧ m'.size = m.size ∧ m'.heap (m.res q) =
        if q ∈ ps then (m.flush stepnum q).heap (m.res q) else m.heap (m.res q) := by
  induction ps with
  | nil => intro m _; exact ⟨rfl, rfl, by simp⟩
  | cons p ps ih =>
    intro m hinj
    obtain ⟨hn, hnd'⟩ := List.nodup_cons.1 hnd
    obtain ⟨h1, h2, h3⟩ := ih (fun x hx => hps x (List.mem_cons_of_mem _ hx)) hnd' (m.flush stepnum p) hinj
    refine ⟨h1, h2, ?_⟩
    rw [List.foldl_cons]
    have e : (m.flush stepnum p).res = m.res := rfl
    rw [e] at h3
    rw [h3]
    by_cases hqp : q = p
    · subst hqp
      rw [if_neg hn, if_pos (List.mem_cons_self ..)]
    · have hne : m.res q ≠ m.res p := fun he => hqp (hinj q hq p (hps p (List.mem_cons_self ..)) he)
      have hh : (m.flush stepnum p).heap (m.res q) = m.heap (m.res q) := by
        simp only [Mem.flush]; rw [if_neg hne]
      by_cases hin : q ∈ ps
      · rw [if_pos hin, if_pos (List.mem_cons_of_mem _ hin)]
        simp only [Mem.flush, if_true]
        rw [if_neg hne]
      · rw [if_neg hin, if_neg (by rw [List.mem_cons]; tauto), hh]

/-- C58: flushing the buffers to disk keeps the current row as row 0 of the buffers and clears the others, for every
part at once, so that the next step starts from the same values. -/
theorem C58_flush_keeps_row {n rows : ℕ} {m : Mem K} (hf : Fresh n rows m) {p : Port} (hp : p.part < n)
    (hc : p.cell < m.size p.part) (ops : List (Op K)) (hi : ∀ o ∈ ops, Inside n rows m o) {stepnum : ℕ}
    (hs : stepnum < rows) :
    read (step n (run n m ops) (.flush stepnum)) (entry m p) 0 = read (run n m ops) (entry m p) stepnum ∧
      ∀ k, 0 < k → k < rows → read (step n (run n m ops) (.flush stepnum)) (entry m p) k = some 0 := by
  have h := same_run ops hi m ⟨rfl, rfl, hf.len⟩
  generalize run n m ops = m' at *
  have hl := h.len p.part hp
  have hr := row_le (s := m.size p.part) hs
  obtain ⟨-, -, h3⟩ := flush_fold (stepnum := stepnum) hp (List.range n) (fun _ => List.mem_range.1) List.nodup_range m'
    (by rw [h.res]; exact hf.inj)
  rw [if_pos (List.mem_range.2 hp), h.res] at h3
  have hm : (m'.flush stepnum p.part).heap (m.res p.part) =
      ((m'.heap (m.res p.part)).drop (stepnum * m.size p.part)).take (m.size p.part) ++
          List.replicate ((m'.heap (m.res p.part)).length - m.size p.part) 0 := by
    simp only [Mem.flush, h.res, h.size, if_true]
  rw [hm] at h3
  have hlen : (((m'.heap (m.res p.part)).drop (stepnum * m.size p.part)).take (m.size p.part)).length
      = m.size p.part := by
    simp; omega
  simp only [read, entry, step]
  rw [h3]
  constructor
  · rw [List.getElem?_append_left (by rw [hlen]; omega), List.getElem?_take, if_pos (by omega), List.getElem?_drop]
    congr 1
    omega
  · intro k hk hk'
    have hk2 := row_le (s := m.size p.part) hk'
    have hk3 : m.size p.part ≤ k * m.size p.part := Nat.le_mul_of_pos_left _ hk
    rw [List.getElem?_append_right (by rw [hlen]; omega), hlen, List.getElem?_replicate, if_pos (by omega)]

/-- Two parts with two rows each. -/
def twoParts : Mem ℕ := ⟨fun l => if l = 0 then [1, 2, 0, 0] else if l = 1 then [5, 0] else [], 2,
  fun p => p, fun p => if p = 0 then 2 else 1⟩

theorem twoParts_fresh : Fresh 2 2 twoParts := by
  constructor
  · intro p hp; exact hp
  · intro p _ q _ h; exact h
  · intro p hp
    have : p = 0 ∨ p = 1 := by omega
    rcases this with rfl | rfl <;> rfl

example : read (((run 2 twoParts [.write 0 1 [7, 8], .flush 1]).write 0 1 [9, 10])) (entry twoParts ⟨0, 1⟩) 1
    = some 10 := by decide

/-! ## Enlarging -/

/-- An object which exists and belongs to no part any more keeps its contents. -/
structure Detached (n : ℕ) (l : ℕ) (c : List K) (m : Mem K) : Prop where
  old : l < m.next
  none : ∀ p < n, m.res p ≠ l
  heap : m.heap l = c

theorem detached_enlarge1 {n l : ℕ} {c : List K} {m : Mem K} (h : Detached n l c m) (base part : ℕ) :
    Detached n l c (m.enlarge base part) := by
  refine ⟨Nat.lt_succ_of_lt h.old, ?_, ?_⟩
  · intro p hp
    simp only [Mem.enlarge]
    by_cases e : p = part
    · rw [if_pos e]; exact (h.old).ne'
    · rw [if_neg e]; exact h.none p hp
  · simp only [Mem.enlarge]
    rw [if_neg h.old.ne]; exact h.heap

theorem detached_fold {n l : ℕ} {c : List K} (f : Mem K → ℕ → Mem K) (ps : List ℕ)
    (hf : ∀ m, ∀ p ∈ ps, Detached n l c m → Detached n l c (f m p)) :
    ∀ m, Detached n l c m → Detached n l c (ps.foldl f m) := by
  induction ps with
  | nil => exact fun _ h => h
  | cons p ps ih =>
    intro m h
    exact ih (fun m q hq => hf m q (List.mem_cons_of_mem _ hq)) _ (hf m p (List.mem_cons_self ..) h)

/-- Operations of the parts of the system. -/
def OfSystem (n : ℕ) : Op K → Prop
  | .write part _ _ => part < n
  | _ => True

theorem detached_run {n l : ℕ} {c : List K} (ops : List (Op K)) (ho : ∀ o ∈ ops, OfSystem n o) :
    ∀ m, Detached n l c m → Detached n l c (run n m ops) := by
  induction ops with
  | nil => exact fun _ h => h
  | cons o ops ih =>
    intro m h
    refine ih (fun q hq => ho q (List.mem_cons_of_mem _ hq)) _ ?_
    have := ho o (List.mem_cons_self ..)
    cases o with
    | write part stepnum vals =>
      refine ⟨h.old, h.none, ?_⟩
      simp only [step, Mem.write]
      rw [if_neg (h.none part this).symm]; exact h.heap
    | enlarge base => exact detached_fold _ _ (fun m p _ hm => detached_enlarge1 hm base p) _ h
    | flush stepnum =>
      refine detached_fold _ _ (fun m p hp hm => ?_) _ h
      refine ⟨hm.old, hm.none, ?_⟩
      simp only [Mem.flush]
      rw [if_neg (hm.none p (List.mem_range.1 hp)).symm]; exact hm.heap

/-- After the parts in `ps` have been enlarged, the first array of such a part is detached. -/
theorem enlarge_detaches {n rows : ℕ} {m : Mem K} (hf : Fresh n rows m) {q : ℕ} (hq : q < n) (base : ℕ) :
    Detached n (m.res q) (m.heap (m.res q)) (step n m (.enlarge base)) := by
  have key : ∀ k ≤ n, let m' := (List.range k).foldl (fun m part => m.enlarge base part) m
      m.next ≤ m'.next ∧ (∀ p, k ≤ p → m'.res p = m.res p) ∧ (∀ p < k, m.next ≤ m'.res p ∧ m'.res p < m'.next) ∧
        ∀ l < m.next, m'.heap l = m.heap l := by
    intro k
    induction k with
    | zero => intro _; exact ⟨le_refl _, fun _ _ => rfl, fun _ h => absurd h (Nat.not_lt_zero _), fun _ _ => rfl⟩
    | succ k ih =>
      intro hk
      obtain ⟨h1, h2, h3, h4⟩ := ih (by omega)
      rw [List.range_succ, List.foldl_append]
      generalize (List.range k).foldl (fun m part => m.enlarge base part) m = m₁ at *
      simp only [List.foldl_cons, List.foldl_nil, Mem.enlarge]
      refine ⟨by omega, ?_, ?_, ?_⟩
      · intro p hp
        rw [if_neg (by omega)]; exact h2 p (by omega)
      · intro p hp
        by_cases e : p = k
        · rw [if_pos e]; omega
        · rw [if_neg e]
          have := h3 p (by omega)
          omega
      · intro l hl
        rw [if_neg (by omega)]; exact h4 l hl
  obtain ⟨h1, -, h3, h4⟩ := key n (le_refl n)
  have hal := hf.alloc q hq
  refine ⟨lt_of_lt_of_le hal h1, ?_, h4 _ hal⟩
  intro p hp he
  have := (h3 p hp).1
  simp only [step] at he
  omega

/-- C58 fails for every system: once the buffers have been enlarged, whatever is computed and written afterwards, the
updater reads outside of the array it holds for every step beyond the first buffer. -/
theorem C58_fails_after_enlarging {n rows : ℕ} {m : Mem K} (hf : Fresh n rows m) {p : Port} (hp : p.part < n) (base : ℕ)
    (ops : List (Op K)) (ho : ∀ o ∈ ops, OfSystem n o) {stepnum : ℕ} (hs : rows ≤ stepnum) :
    read (run n m (.enlarge base :: ops)) (entry m p) stepnum = none := by
  have h := detached_run ops ho _ (enlarge_detaches hf hp base)
  simp only [read, entry]
  have hh : (run n m (.enlarge base :: ops)).heap (m.res p.part) = m.heap (m.res p.part) := h.heap
  rw [hh, List.getElem?_eq_none]
  rw [hf.len p.part hp]
  have := Nat.mul_le_mul_right (m.size p.part) hs
  omega

example : read ((run 2 twoParts [.enlarge 3, .write 0 2 [7, 8]])) (entry twoParts ⟨0, 1⟩) 2 = none ∧
    ((run 2 twoParts [.enlarge 3, .write 0 2 [7, 8]]).heap ((run 2 twoParts [.enlarge 3]).res 0)).drop 4 = [7, 8, 0, 0, 0, 0] :=
  ⟨C58_fails_after_enlarging twoParts_fresh (by decide) 3 [.write 0 2 [7, 8]]
    (by intro o ho; simp only [List.mem_singleton] at ho; subst ho; exact Nat.zero_lt_two) (le_refl _), by decide⟩

/-- C58 (enlarging loses nothing): after enlarging, the results of every part are the old ones, followed by empty
rows. -/
theorem C58_enlarge_keeps_results {n rows : ℕ} {m : Mem K} (hf : Fresh n rows m) {q : ℕ} (hq : q < n) (base : ℕ) :
    let m' := step n m (.enlarge base)
    m'.heap (m'.res q) = m.heap (m.res q) ++ List.replicate (base * m.size q) 0 := by
  have key : ∀ k ≤ n, let m' := (List.range k).foldl (fun m part => m.enlarge base part) m
      m.next ≤ m'.next ∧ m'.size = m.size ∧ (∀ p, k ≤ p → m'.res p = m.res p) ∧
        (∀ l < m.next, m'.heap l = m.heap l) ∧ ∀ p < k, m'.res p < m'.next ∧
          m'.heap (m'.res p) = m.heap (m.res p) ++ List.replicate (base * m.size p) 0 := by
    intro k
    induction k with
    | zero => intro _; exact ⟨le_refl _, rfl, fun _ _ => rfl, fun _ _ => rfl, fun _ h => absurd h (Nat.not_lt_zero _)⟩
    | succ k ih =>
      intro hk
      obtain ⟨h1, h2, h3, h4, h5⟩ := ih (by omega)
      rw [List.range_succ, List.foldl_append]
      generalize (List.range k).foldl (fun m part => m.enlarge base part) m = m₁ at *
      simp only [List.foldl_cons, List.foldl_nil, Mem.enlarge]
      refine ⟨by omega, h2, ?_, ?_, ?_⟩
      · intro p hp
        rw [if_neg (by omega)]; exact h3 p (by omega)
      · intro l hl
        rw [if_neg (by omega)]; exact h4 l hl
      · intro p hp
        by_cases e : p = k
        · rw [if_pos e, if_pos rfl, h3 k le_rfl, h4 _ (hf.alloc k (by omega)), h2, e]
          exact ⟨Nat.lt_succ_self _, rfl⟩
        · rw [if_neg e]
          obtain ⟨h6, h7⟩ := h5 p (by omega)
          rw [if_neg (by omega)]
          exact ⟨by omega, h7⟩
  exact ((key n le_rfl).2.2.2.2 q hq).2

example : (step 2 twoParts (.enlarge 3)).heap ((step 2 twoParts (.enlarge 3)).res 0) = [1, 2, 0, 0, 0, 0, 0, 0, 0, 0] :=
  C58_enlarge_keeps_results twoParts_fresh (by decide) 3

theorem C58_fails : ¬ C58_statement ℕ := by
  intro h
  have := h 2 2 twoParts twoParts_fresh ⟨0, 1⟩ (by decide) (by decide) [.enlarge 3] 2 [7, 8] rfl (by decide)
  revert this
  decide

/-- **C58, systems with heat exchangers.**  Enlarging the buffers succeeds if and only if the results of every part have
exactly one row of cells per step; then every buffer has grown by `base` rows.  A system with a numeric or condensing
heat exchanger (results with three dimensions) stops with an error instead of enlarging its buffers. -/
theorem C58_fails_shape (base numSteps : ℕ) (cells : List (List ℕ)) :
    ((enlargeShapes base (cells.map (initShape numSteps))).isSome ↔ ∀ c ∈ cells, c.length = 1) ∧
      ∀ r, enlargeShapes base (cells.map (initShape numSteps)) = some r →
        r = cells.map (initShape (numSteps + base)) := by
  have one : ∀ c : List ℕ, enlargeShape base (initShape numSteps c) =
      if c.length = 1 then some (initShape (numSteps + base) c) else none := by
    intro c
    match c with
    | [] => rfl
    | [a] => simp [enlargeShape, initShape, appendShape]; omega
    | a :: b :: t => simp [enlargeShape, initShape, appendShape]
  induction cells with
  | nil => simp [enlargeShapes]
  | cons c cs ih =>
    obtain ⟨h1, h2⟩ := ih
    simp only [enlargeShapes, List.map_cons, List.mapM_cons, one] at h1 h2 ⊢
    by_cases hc : c.length = 1
    · rw [if_pos hc]
      cases hr : List.mapM (enlargeShape base) (List.map (initShape numSteps) cs) with
      | none =>
        rw [hr] at h1
        refine ⟨⟨fun h => by simp at h, fun h => ?_⟩, fun r h => by simp at h⟩
        have := h1.2 fun d hd => h d (List.mem_cons_of_mem _ hd)
        simp at this
      | some r' =>
        rw [hr] at h1
        refine ⟨⟨fun _ d hd => ?_, fun _ => by simp⟩, fun r h => ?_⟩
        · rcases List.mem_cons.1 hd with e | e
          · rw [e]; exact hc
          · exact h1.1 rfl d e
        · have e := h2 r' hr
          simp at h
          rw [← h, e]
    · rw [if_neg hc]
      refine ⟨⟨fun h => by simp at h, fun h => absurd (h c List.mem_cons_self) hc⟩, fun r h => by simp at h⟩

/-- A pipe of three cells and a storage of five; with a heat exchanger of two rows of four cells. -/
example : enlargeShapes 10 ([[3], [5]].map (initShape 10)) = some [[21, 3], [21, 5]] ∧
    enlargeShapes 10 ([[3], [2, 4]].map (initShape 10)) = none := by decide

end Verif.Buffers
