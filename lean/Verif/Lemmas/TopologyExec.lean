import Verif.Lemmas.TopologyRun
import Verif.Props.FlowNet

/-!
# The analysis as a function, for examples
-/

namespace Verif.Topology

open Verif.FlowNet

variable (G : Net)

instance (s : State) (i : ℕ) : Decidable (eligible1 G s i) := by unfold eligible1; infer_instance
instance (s : State) (i : ℕ) : Decidable (eligible2 G s i) := by unfold eligible2; infer_instance

/-- The final check, `simenv.py:2303-2323`. -/
def Passes (s : State) : Prop := ∀ i < G.n, inHydr G s i → G.kind i = .storage

instance (s : State) : Decidable (Passes G s) := by unfold Passes; infer_instance

/-- The outermost call with at most `m` passes. -/
def call (root : ℕ) (sub : Bool) (m : ℕ) (s : State) : Option (Except Err State) :=
  match steps G root sub m (start G root s) with
  | .error e => some (.error e)
  | .ok ⟨[], s'⟩ => some (.ok s')
  | .ok ⟨_ :: _, _⟩ => none

def callPumps (m : ℕ) : List ℕ → State → Option (Except Err State)
  | [], s => some (.ok s)
  | i :: is, s => match call G i false m s with
    | some (.ok s') => callPumps m is s'
    | some (.error e) => some (.error e)
    | none => none

def callSubs (el : State → ℕ → Prop) [∀ s i, Decidable (el s i)] (m : ℕ) :
    List ℕ → State → Option (Except Err State)
  | [], s => if ∀ i < G.n, ¬ el s i then some (.ok s) else none
  | i :: is, s => if i < G.n ∧ el s i then match call G i true m s with
      | some (.ok s') => callSubs el m is s'
      | some (.error e) => some (.error e)
      | none => none
    else none

/-- The analysis with the given order of sub nets. -/
def analyse (m : ℕ) (o₁ o₂ : List ℕ) : Option (Except Err State) :=
  match callPumps G m (pumps G) (init G) with
  | some (.ok s) => match callSubs G (eligible1 G) m o₁ s with
    | some (.ok s') => callSubs G (eligible2 G) m o₂ s'
    | some (.error e) => some (.error e)
    | none => none
  | some (.error e) => some (.error e)
  | none => none

variable {G}

theorem call_sound {root : ℕ} {sub : Bool} {m : ℕ} {s : State} :
    (∀ s', call G root sub m s = some (.ok s') → Run G root sub s s') ∧
      ∀ e, call G root sub m s = some (.error e) → Raises G root sub s e := by
  unfold call
  refine ⟨fun s' h => ⟨m, ?_⟩, fun e h => ⟨m, ?_⟩⟩ <;> split at h <;> simp_all

theorem callPumps_sound {m : ℕ} : ∀ {l : List ℕ} {s : State} {r : Except Err State},
    callPumps G m l s = some r → Pumps G l s r
  | [], s, r, h => by
    simp only [callPumps, Option.some.injEq] at h; rw [← h]; exact .done s
  | i :: is, s, r, h => by
    simp only [callPumps] at h
    split at h
    · rename_i s' hs'
      exact .more (call_sound.1 _ hs') (callPumps_sound h)
    · rename_i e he
      simp only [Option.some.injEq] at h; rw [← h]
      exact .fail (call_sound.2 _ he)
    · simp at h

theorem callSubs_sound {el : State → ℕ → Prop} [∀ s i, Decidable (el s i)] {m : ℕ} :
    ∀ {l : List ℕ} {s : State} {r : Except Err State}, callSubs G el m l s = some r → Subs G el s r
  | [], s, r, h => by
    simp only [callSubs] at h
    split_ifs at h with hd
    simp only [Option.some.injEq] at h; rw [← h]; exact .done hd
  | i :: is, s, r, h => by
    simp only [callSubs] at h
    split_ifs at h with hd
    split at h
    · rename_i s' hs'
      exact .more hd.1 hd.2 (call_sound.1 _ hs') (callSubs_sound h)
    · rename_i e he
      simp only [Option.some.injEq] at h; rw [← h]
      exact .fail hd.1 hd.2 (call_sound.2 _ he)
    · simp at h

theorem analyse_sound {m : ℕ} {o₁ o₂ : List ℕ} {r : Except Err State} (h : analyse G m o₁ o₂ = some r) :
    Analysed G r := by
  unfold analyse at h
  split at h
  · rename_i s hs
    split at h
    · rename_i s' hs'
      exact .second (callPumps_sound hs) (callSubs_sound hs') (callSubs_sound h)
    · rename_i e he
      simp only [Option.some.injEq] at h; rw [← h]
      exact .first (callPumps_sound hs) (callSubs_sound he)
    · simp at h
  · rename_i e he
    simp only [Option.some.injEq] at h; rw [← h]
    exact .pumps (callPumps_sound he)
  · simp at h

/-- For examples: the analysis succeeds and the result has a property that can be computed. -/
def Succeeds (G : Net) (m : ℕ) (o₁ o₂ : List ℕ) (P : State → Prop) [∀ s, Decidable (P s)] : Bool :=
  match analyse G m o₁ o₂ with
  | some (.ok s) => decide (P s)
  | _ => false

theorem succeeds_sound {m : ℕ} {o₁ o₂ : List ℕ} {P : State → Prop} [∀ s, Decidable (P s)]
    (h : Succeeds G m o₁ o₂ P = true) : ∃ s, Analysed G (.ok s) ∧ P s := by
  unfold Succeeds at h
  split at h
  · rename_i s hs
    exact ⟨s, analyse_sound hs, of_decide_eq_true h⟩
  · simp at h

/-- For examples: the analysis raises. -/
def Fails (G : Net) (m : ℕ) (o₁ o₂ : List ℕ) (e : Err) : Bool :=
  match analyse G m o₁ o₂ with
  | some (.error e') => e' = e
  | _ => false

theorem fails_sound {m : ℕ} {o₁ o₂ : List ℕ} {e : Err} (h : Fails G m o₁ o₂ e = true) :
    Analysed G (.error e) := by
  unfold Fails at h
  split at h
  · rename_i e' he
    rw [← of_decide_eq_true h]
    exact analyse_sound he
  · simp at h

end Verif.Topology
