import Verif.Model.MeterLife
import Mathlib.Data.List.Basic
import Mathlib.Tactic.Linarith
import Mathlib.Data.Rat.Defs
import Mathlib.Algebra.Order.Ring.Rat

/-!
# C181: meters can be added to finished simulations and are dated like their results
-/

namespace Verif.MeterLife

variable {K R V : Type}

/-- Specification: the results are at hand after this history: a call of `set_disksaving` was followed by a run and not by another call. -/
def Finished (save resample : Bool) (date : Option K) (ts : List K) (rs : List R) (h : List (Event K R)) : Prop :=
  ∃ h₀, h = h₀ ++ [.disksaving save date resample .accepted, .run ts rs]

theorem after_append (h h' : List (Event K R)) : after (h ++ h') = h'.foldl step (after h) := List.foldl_append

/-- **C181**, partial: after every simulation which saved its results, meters can be added, whatever was called before; without
resampling their rows are those of the results, each dated with the given start plus its time; the dates of the saved results are the same
if the same start was given. -/
theorem C181_dated_partial [Add K] {r : Bool} {date : Option K} {ts : List K} {rs : List R} {h : List (Event K R)}
    (hf : Finished true r date ts rs h) (hlen : ts.length = rs.length) (start : K) (rsm : List (K × V) → List (K × V)) (f : R → V) :
    ∃ m, create (after h) start = .ok m ∧
      table rsm f m (after h) = .ok (if r then rsm ((ts.zip rs).map fun q => (start + q.1, f q.2))
        else (ts.zip rs).map fun q => (start + q.1, f q.2)) := by
  obtain ⟨h₀, rfl⟩ := hf
  rw [after_append]
  refine ⟨⟨ts.map (start + ·), r, true⟩, by simp [step, create], ?_⟩
  have hz : (ts.map (start + ·)).zip (rs.map f) = (ts.zip rs).map fun q => (start + q.1, f q.2) := by
    rw [List.zip_map]
    rfl
  simp [step, table, hlen, hz]

/-- Specification: the dates of the saved results. -/
def savedDates [Add K] (date : K) (ts : List K) : List K := ts.map (date + ·)

/-- **C181** fails for other starts: the start given to `Meters` is not compared with that of the results; unless both are the same, *no*
row of a meter (without resampling) is dated like the saved row of the same step. -/
theorem C181_fails_start [Add K] [IsRightCancelAdd K] {date start : K} (hne : start ≠ date) (ts : List K) (i : ℕ) (hi : i < ts.length) :
    (ts.map (start + ·))[i]'(by simpa using hi) ≠ (savedDates date ts)[i]'(by simpa [savedDates] using hi) := by
  simp only [savedDates, List.getElem_map]
  exact fun h => hne (add_right_cancel h)

/-- **C181** fails in memory: after a simulation which does not save its results, meters can never be added. -/
theorem C181_fails_memory [Add K] {r : Bool} {date : Option K} {ts : List K} {rs : List R} {h : List (Event K R)}
    (hf : Finished false r date ts rs h) (start : K) : create (after h) start = .error .key := by
  obtain ⟨h₀, rfl⟩ := hf
  rw [after_append]
  simp [step, create]

/-- Before a simulation that saves has ended, meters are refused, whatever happened before. -/
theorem C181_refused_before [Add K] (h : List (Event K R)) (r : Bool) (date : Option K) (start : K) :
    create (after (h ++ [.disksaving true date r .accepted])) start = .error .key := by
  rw [after_append]
  simp [step, create]

theorem C181_refused_new [Add K] (start : K) : create (after ([] : List (Event K R))) start = .error .attribute := rfl

/-- **C181** fails for meters of an earlier simulation: a `Meters` object which was made after the first of two simulations with the same
number of steps accepts further meters, and dates the results of the second one with the times of the first. -/
theorem C181_fails_stale [Add K] {r : Bool} {date : Option K} {ts ts' : List K} {rs rs' : List R} {h h' : List (Event K R)}
    (hf : Finished true r date ts rs h) (hf' : Finished true false date ts' rs' h') (hlen : ts.length = rs'.length) (hr : r = false)
    (start : K) (rsm : List (K × V) → List (K × V)) (f : R → V) :
    ∃ m, create (after h) start = .ok m ∧
      table rsm f m (after h') = .ok ((ts.zip rs').map fun q => (start + q.1, f q.2)) := by
  obtain ⟨h₀, rfl⟩ := hf
  obtain ⟨h₁, rfl⟩ := hf'
  rw [after_append, after_append]
  subst hr
  refine ⟨⟨ts.map (start + ·), false, true⟩, by simp [step, create], ?_⟩
  have hz : (ts.map (start + ·)).zip (rs'.map f) = (ts.zip rs').map fun q => (start + q.1, f q.2) := by
    rw [List.zip_map]
    rfl
  simp [step, table, hlen, hz]

/-- Meters of an earlier simulation with another number of steps are refused. -/
theorem C181_refused_length [Add K] {s s' : Env K R} {start : K} {m : Meters K} (hm : create s start = .ok m)
    (hlen : s.times.length ≠ s'.rows.length) (rsm : List (K × V) → List (K × V)) (f : R → V) : table rsm f m s' = .error .value := by
  have : m.index.length = s.times.length := by
    unfold create at hm
    split at hm
    · cases hm
    · split at hm
      · cases hm
      · split at hm
        · cases hm
        · rw [← Except.ok.inj hm]; simp
  unfold table
  rw [if_neg (by rw [this]; exact hlen)]

/-! ## Witnesses -/

example : ∃ m, create (after ([.disksaving false none false .accepted, .disksaving true (some 100) false .accepted,
      .run [0, 1, 3] [50, 60, 70]] : List (Event ℚ ℚ))) 100 = .ok m ∧
    table id (fun x => x) m (after ([.disksaving false none false .accepted, .disksaving true (some 100) false .accepted,
      .run [0, 1, 3] [50, 60, 70]] : List (Event ℚ ℚ))) = .ok [(100 + 0, 50), (100 + 1, 60), (100 + 3, 70)] :=
  C181_dated_partial (K := ℚ) (R := ℚ) (r := false) (date := some 100) (ts := [0, 1, 3]) (rs := [50, 60, 70])
    ⟨[.disksaving false none false .accepted], rfl⟩ rfl 100 id (fun x => x)

example : create (after ([.disksaving false none false .accepted, .run [0, 1] [50, 60]] : List (Event ℚ ℚ))) 100 = .error .key :=
  C181_fails_memory ⟨[], rfl⟩ 100

example : ((200 : ℚ) ≠ 100) ∧ ([0, 1, 3] : List ℚ).length = ([51, 61, 71] : List ℚ).length := by decide +kernel

end Verif.MeterLife
