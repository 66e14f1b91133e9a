import Verif.Props.MoreCold
import Verif.Props.Chp

/-!
# C211: the modulation of a running CHP plant does not depend on how the time is divided
-/

namespace Verif.Chp

open Verif.Controls (move move_eq move_move move_between SlopeOk sum_nonneg')

variable {K : Type} [Field K] [LinearOrder K] [IsStrictOrderedRing K]

/-- Specification: a request and temperatures that last for `d`, in one step that is accepted at once. -/
def Input.lasting (i : Input K) (d : K) : Input K := { i with hFirst := d, h := d }

/-- Specification: steps of the given lengths with the same request and the same temperatures. -/
def advance (p : Par K) (i : Input K) : K → Plant K → List K → Plant K
  | _, pl, [] => pl
  | t, pl, d :: ds => advance p i (t + d) (step p t pl (i.lasting d)) ds

/-- Specification: asked for power, and not too hot. -/
structure Wanted (p : Par K) (i : Input K) : Prop where
  req : p.modLower ≤ i.req
  inlet : inletHot p i = false
  cool : emergency p i = false

theorem ramp_move {p : Par K} {l r h : K} (hp : 0 < p.maxRamp) (hh : 0 < h) :
    ramp p l r h = move (some (-p.maxRamp, p.maxRamp)) h l r := by
  rw [move_eq hh]
  unfold ramp
  have h1 := mul_pos hp hh
  simp only [lt_div_iff₀ hh]
  rcases le_or_gt l r with hlr | hlr
  · have e : |l - r| = r - l := by rw [abs_sub_comm, abs_of_nonneg (by linarith)]
    rw [e]
    by_cases a : p.maxRamp * h < r - l
    · rw [if_pos a, if_pos (by linarith), if_neg (by intro q; linarith [q.2]), if_pos a]
    · rw [if_neg a, if_pos ⟨by linarith, by linarith⟩]
  · have e : |l - r| = l - r := abs_of_pos (by linarith)
    rw [e]
    by_cases a : p.maxRamp * h < l - r
    · rw [if_pos a, if_neg (by linarith), if_neg (by intro q; linarith [q.1]), if_neg (by linarith)]
      ring
    · rw [if_neg a, if_pos ⟨by linarith, by linarith⟩]

theorem slopeOk {p : Par K} (hp : 0 < p.maxRamp) : SlopeOk (some (-p.maxRamp, p.maxRamp)) := by
  intro a b h
  obtain ⟨rfl, rfl⟩ := Prod.mk.inj (Option.some.inj h)
  exact ⟨by linarith, hp⟩

/-- A step of a running plant. -/
theorem step_running {p : Par K} (hp : p.Valid) {i : Input K} (hi : Wanted p i) {t d : K} {pl : Plant K}
    (hr : p.modLower ≤ pl.state) (hd : 0 < d) :
    step p t pl (i.lasting d) = ⟨move (some (-p.maxRamp, p.maxRamp)) d pl.state i.req, pl.startupAt, pl.shutdownAt, 0⟩ := by
  have h0 : pl.state ≠ 0 := ne_of_gt (lt_of_lt_of_le hp.modLower_pos hr)
  have h1 : ¬ i.req < p.modLower := not_lt.mpr hi.req
  have h2 : inletHot p (i.lasting d) = false := hi.inlet
  have h3 : emergency p (i.lasting d) = false := hi.cool
  rw [← ramp_move hp.maxRamp_pos hd]
  unfold step switch
  simp only [h2, h3]
  simp [Input.lasting, h0, h1]

theorem advance_running {p : Par K} (hp : p.Valid) {i : Input K} (hi : Wanted p i) : ∀ (ds : List K) (d t : K) (pl : Plant K),
    p.modLower ≤ pl.state → (∀ x ∈ d :: ds, 0 < x) → advance p i t pl (d :: ds) =
      ⟨move (some (-p.maxRamp, p.maxRamp)) (d :: ds).sum pl.state i.req, pl.startupAt, pl.shutdownAt, 0⟩ := by
  intro ds
  induction ds with
  | nil =>
    intro d t pl hr hpos
    show step p t pl (i.lasting d) = _
    rw [step_running hp hi hr (hpos d (by simp)), List.sum_cons, List.sum_nil, add_zero]
  | cons d' ds ih =>
    intro d t pl hr hpos
    have hd := hpos d (by simp)
    have hps : 0 < (d' :: ds).sum := by
      rw [List.sum_cons]
      exact add_pos_of_pos_of_nonneg (hpos d' (by simp)) (sum_nonneg' _ fun x hx => (hpos x (by simp [hx])).le)
    show advance p i (t + d) (step p t pl (i.lasting d)) (d' :: ds) = _
    rw [step_running hp hi hr hd, ih d' (t + d) _ ?_ fun x hx => hpos x (List.mem_cons_of_mem _ hx)]
    · dsimp only
      rw [List.sum_cons (a := d), move_move (slopeOk hp.maxRamp_pos) hd hps]
    · exact (move_between (slopeOk hp.maxRamp_pos) hd (hi := max pl.state i.req) ⟨hr, le_max_left _ _⟩
        ⟨hi.req, le_max_right _ _⟩).1

/-- **C211**, partial: after an interval during which a running plant was asked for a possible power and was not too hot, its whole state
does not depend on the number and the lengths of the steps.  Missing: intervals in which it is switched on or off, since that happens at
the end of a step (`C211_fails_start`), and steps of which the first attempt was rejected (C44). -/
theorem C211_division_partial {p : Par K} (hp : p.Valid) {i : Input K} (hi : Wanted p i) (t : K) {pl : Plant K}
    (hr : p.modLower ≤ pl.state) {ds ds' : List K} (hne : ds ≠ []) (hne' : ds' ≠ []) (hpos : ∀ d ∈ ds, 0 < d)
    (hpos' : ∀ d ∈ ds', 0 < d) (hsum : ds.sum = ds'.sum) : advance p i t pl ds = advance p i t pl ds' := by
  obtain ⟨d, ds, rfl⟩ := List.exists_cons_of_ne_nil hne
  obtain ⟨d', ds', rfl⟩ := List.exists_cons_of_ne_nil hne'
  rw [advance_running hp hi ds d t pl hr hpos, advance_running hp hi ds' d' t pl hr hpos', hsum]

/-- **C211**, partial (when the power is there): a running plant delivers what it was asked for exactly as soon as the time for the change
with the largest ramp has passed, whatever the steps. -/
theorem C211_arrival_partial {p : Par K} (hp : p.Valid) {i : Input K} (hi : Wanted p i) (t : K) {pl : Plant K}
    (hr : p.modLower ≤ pl.state) {ds : List K} (hne : ds ≠ []) (hpos : ∀ d ∈ ds, 0 < d) :
    (advance p i t pl ds).state = i.req ↔ |i.req - pl.state| / p.maxRamp ≤ ds.sum := by
  obtain ⟨d, ds, rfl⟩ := List.exists_cons_of_ne_nil hne
  have hps : 0 < (d :: ds).sum := by
    rw [List.sum_cons]
    exact add_pos_of_pos_of_nonneg (hpos d (by simp)) (sum_nonneg' _ fun x hx => (hpos x (by simp [hx])).le)
  rw [advance_running hp hi ds d t pl hr hpos, div_le_iff₀ hp.maxRamp_pos, move_eq hps, abs_le]
  have h1 := mul_pos hp.maxRamp_pos hps
  constructor
  · intro h
    dsimp only at h
    split_ifs at h with a b
    · constructor <;> linarith [a.1, a.2]
    · constructor <;> linarith
    · constructor <;> linarith
  · intro h
    dsimp only
    rw [if_pos ⟨by linarith [h.1], by linarith [h.2]⟩]

/-- A plant at half power that is asked for full power; the ramp allows for 1/10 per second. -/
example : let p : Par ℚ := ⟨10, 10, 1 / 2, 1, 1 / 10, 70, 90, 5⟩
    let i : Input ℚ := ⟨0, 0, 1, [60]⟩
    p.Valid ∧ Wanted p i ∧ (advance p i 0 ⟨1 / 2, 0, -20, 0⟩ [1, 2]).state = 4 / 5 ∧
      (advance p i 0 ⟨1 / 2, 0, -20, 0⟩ [3]).state = 4 / 5 ∧ (advance p i 0 ⟨1 / 2, 0, -20, 0⟩ [3, 2]).state = 1 := by
  refine ⟨?_, ⟨by decide +kernel, by decide +kernel, by decide +kernel⟩, by decide +kernel, by decide +kernel, by decide +kernel⟩
  constructor <;> norm_num

/-- **C211** fails when the plant is started: it runs as soon as the first step ends after the pause, so that with a longer step it is
started later. -/
theorem C211_fails_start : let p : Par ℚ := ⟨10, 10, 1 / 2, 1, 1 / 10, 70, 90, 5⟩
    let i : Input ℚ := ⟨0, 0, 1, [60]⟩
    (advance p i 0 ⟨0, -20, -4, 0⟩ [6, 6]).startupAt = 6 ∧ (advance p i 0 ⟨0, -20, -4, 0⟩ [12]).startupAt = 12 := by
  decide +kernel

end Verif.Chp
