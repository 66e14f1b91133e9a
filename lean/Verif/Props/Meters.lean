import Verif.Model.Meters
import Mathlib.Algebra.Order.BigOperators.Group.List
import Mathlib.Tactic.Linarith
import Mathlib.Tactic.Positivity
import Mathlib.Tactic.FieldSimp
import Mathlib.Tactic.Ring

/-!
# Meters (C54, C55)
-/

set_option linter.unusedSectionVars false

namespace Verif.Meters

section Heat

variable {K : Type*} [Field K] [LinearOrder K] [IsStrictOrderedRing K]

theorem length_diffs : ∀ t : List K, (diffs t).length = t.length - 1
  | [] => rfl
  | [_] => rfl
  | a :: b :: t => by
    rw [diffs, List.length_cons, length_diffs (b :: t)]
    simp

theorem length_stepVec {t : List K} (h : 2 ≤ t.length) : (stepVec t).length = t.length := by
  have h1 : (diffs t).length = t.length - 1 := length_diffs t
  have hne : diffs t ≠ [] := by
    intro he
    rw [he] at h1
    simp at h1
    omega
  rw [stepVec, List.getLast?_eq_getLast_of_ne_nil hne]
  simp [h1]
  omega

theorem getElem?_diffs : ∀ (t : List K) (n : ℕ) (a b : K), t[n]? = some a → t[n + 1]? = some b →
    (diffs t)[n]? = some (b - a)
  | [], n, a, b, h, _ => by simp at h
  | [x], n, a, b, _, h => by simp at h
  | x :: y :: t, 0, a, b, h, h' => by
    simp at h h'
    simp [diffs, h, h']
  | x :: y :: t, n + 1, a, b, h, h' => by
    rw [diffs, List.getElem?_cons_succ]
    exact getElem?_diffs (y :: t) n a b (by simpa using h) (by simpa using h')

theorem sum_diffs : ∀ (a : K) (t : List K), (diffs (a :: t)).sum = (a :: t).getLast (by simp) - a
  | a, [] => by simp [diffs]
  | a, b :: t => by
    have h : (a :: b :: t).getLast (by simp) = (b :: t).getLast (by simp) := List.getLast_cons (by simp)
    rw [diffs, List.sum_cons, sum_diffs b t, h]
    ring

theorem getElem?_cumsumFrom (xs : List K) (acc : K) (n : ℕ) (h : n < xs.length) :
    (cumsumFrom acc xs)[n]? = some (acc + (xs.take (n + 1)).sum) := by
  induction xs generalizing acc n with
  | nil => simp at h
  | cons x xs ih =>
    cases n with
    | zero => simp [cumsumFrom]
    | succ n =>
      rw [cumsumFrom, List.getElem?_cons_succ, ih _ _ (by simpa using h), List.take_succ_cons, List.sum_cons,
        add_assoc]

theorem getElem?_cumsum (xs : List K) (n : ℕ) (h : n < xs.length) :
    (cumsum xs)[n]? = some (xs.take (n + 1)).sum := by
  rw [cumsum, getElem?_cumsumFrom xs 0 n h, zero_add]

theorem length_cumsum (xs : List K) : (cumsum xs).length = xs.length := by
  have : ∀ (xs : List K) acc, (cumsumFrom acc xs).length = xs.length := by
    intro xs
    induction xs with
    | nil => intro _; rfl
    | cons x xs ih => intro acc; simp [cumsumFrom, ih]
  exact this xs 0

/-- The heat in joule transported by one row during `h` seconds: mass times mean specific heat capacity times
difference of temperatures. -/
def joule (cp : K → K) (r : Row K) (h : K) : K := r.dm * h * ((cp r.Trf + cp r.Tff) / 2) * (r.Tff - r.Trf)

/-- C54 (cumulated values): for every history of at least two rows, at every row the flown mass is the sum over
the rows so far of mass flow times step length (the flown volume likewise, at the density of the return flow), and the flown heat in MJ, times a million, is the sum of the
transported joules; the kWh column is the MJ column over 3.6. The step length of a row is the time until the
next one. -/
theorem C54_sums_partial (cp rho : K → K) {rows : List (Row K)} {t : List K} (hl : rows.length = t.length)
    (h2 : 2 ≤ t.length) {n : ℕ} (hn : n < rows.length) :
    let c := heatMeter cp rho rows t
    c.mass[n]? = some ((List.zipWith (fun r h => r.dm * h) rows (stepVec t)).take (n + 1)).sum ∧
    c.volume[n]? = some ((List.zipWith (fun r h => r.dm / rho r.Trf * h) rows (stepVec t)).take (n + 1)).sum ∧
    (∃ q, c.heatMJ[n]? = some q ∧
      q * 1000000 = ((List.zipWith (joule cp) rows (stepVec t)).take (n + 1)).sum ∧
      ∃ e, c.heatkWh[n]? = some e ∧ e * 3.6 = q) ∧
    ∀ a b, t[n]? = some a → t[n + 1]? = some b → (stepVec t)[n]? = some (b - a) := by
  have hs := length_stepVec h2
  have hz : ∀ f : Row K → K → K, n < (List.zipWith f rows (stepVec t)).length := by
    intro f; simp [hs]; omega
  refine ⟨getElem?_cumsum _ n (hz _), getElem?_cumsum _ n (hz _), ?_, ?_⟩
  · have hq : (heatMeter cp rho rows t).heatMJ[n]?
        = some (((List.zipWith (fun r h => heatflow cp r * h) rows (stepVec t)).take (n + 1)).sum / 1e3) := by
      simp only [heatMeter, List.getElem?_map, getElem?_cumsum _ n (hz _), Option.map_some]
    have hk : (heatMeter cp rho rows t).heatkWh[n]?
        = some (((List.zipWith (fun r h => heatflow cp r * h) rows (stepVec t)).take (n + 1)).sum / 1e3 / 3.6) := by
      simp only [heatMeter, List.map_map, List.getElem?_map, getElem?_cumsum _ n (hz _), Option.map_some,
        Function.comp]
    refine ⟨_, hq, ?_, _, hk, ?_⟩
    · have he : ∀ (rs : List (Row K)) (hs : List K) (m : ℕ),
          ((List.zipWith (fun r h => heatflow cp r * h) rs hs).take m).sum * 1000
            = ((List.zipWith (joule cp) rs hs).take m).sum := by
        intro rs
        induction rs with
        | nil => intro hs m; simp
        | cons r rs ih =>
          intro hs m
          cases hs with
          | nil => simp
          | cons h hs =>
            cases m with
            | zero => simp
            | succ m =>
              simp only [List.zipWith_cons_cons, List.take_succ_cons, List.sum_cons, add_mul, ih]
              congr 1
              unfold heatflow joule
              norm_num
              ring
      rw [← he rows (stepVec t) (n + 1)]
      norm_num
      ring
    · field_simp
  · intro a b ha hb
    rw [stepVec, List.getElem?_append_left, getElem?_diffs t n a b ha hb]
    rw [length_diffs]
    have := (List.getElem?_eq_some_iff.1 hb).1
    omega

theorem le_clip (x : K) : x ≤ clip x := by
  unfold clip
  split_ifs with h
  · exact h.le
  · exact le_refl _

theorem clip_nonneg (x : K) : 0 ≤ clip x := by
  unfold clip
  split_ifs with h
  · exact le_refl _
  · exact not_lt.1 h

/-- Times of the rows are increasing. -/
def Increasing (t : List K) : Prop := t.Pairwise (· < ·)

theorem diffs_pos {t : List K} (h : Increasing t) : ∀ x ∈ diffs t, 0 < x := by
  induction t with
  | nil => simp [diffs]
  | cons a t ih =>
    cases t with
    | nil => simp [diffs]
    | cons b t =>
      intro x hx
      rw [diffs, List.mem_cons] at hx
      have h' := List.pairwise_cons.1 h
      rcases hx with rfl | hx
      · exact sub_pos.2 (h'.1 b (by simp))
      · exact ih h'.2 x hx

theorem stepVec_pos {t : List K} (h : Increasing t) : ∀ x ∈ stepVec t, 0 < x := by
  intro x hx
  rw [stepVec, List.mem_append] at hx
  rcases hx with hx | hx
  · exact diffs_pos h x hx
  · rw [Option.mem_toList] at hx
    exact diffs_pos h x (List.mem_of_getLast? hx)

theorem take_sum_le {f g : Row K → K → K} (rows : List (Row K)) (hs : List K) (h0 : ∀ x ∈ hs, 0 < x)
    (hfg : ∀ r x, 0 < x → f r x ≤ g r x) (m : ℕ) :
    ((List.zipWith f rows hs).take m).sum ≤ ((List.zipWith g rows hs).take m).sum := by
  induction rows generalizing hs m with
  | nil => simp
  | cons r rows ih =>
    cases hs with
    | nil => simp
    | cons x hs =>
      cases m with
      | zero => simp
      | succ m =>
        simp only [List.zipWith_cons_cons, List.take_succ_cons, List.sum_cons]
        exact add_le_add (hfg r x (h0 x (by simp))) (ih hs (fun y hy => h0 y (by simp [hy])) m)

theorem take_sum_mono {g : Row K → K → K} (rows : List (Row K)) (hs : List K) (h0 : ∀ x ∈ hs, 0 < x)
    (hg : ∀ r x, 0 < x → 0 ≤ g r x) (m : ℕ) :
    ((List.zipWith g rows hs).take m).sum ≤ ((List.zipWith g rows hs).take (m + 1)).sum := by
  induction rows generalizing hs m with
  | nil => simp
  | cons r rows ih =>
    cases hs with
    | nil => simp
    | cons x hs =>
      cases m with
      | zero =>
        simp only [List.take_zero, List.sum_nil, List.zipWith_cons_cons, List.take_succ_cons, List.sum_cons,
          add_zero]
        exact hg r x (h0 x (by simp))
      | succ m =>
        simp only [List.zipWith_cons_cons, List.take_succ_cons, List.sum_cons]
        have := ih hs (fun y hy => h0 y (by simp [hy])) m
        linarith

/-- C54 (positive-only counters): for increasing times the positive-only mass, volume (positive density) and
heat counters never decrease from row to row, are never negative and never below the signed counters. -/
theorem C54_positive_counters (cp rho : K → K) (hrho : ∀ T, 0 < rho T) {rows : List (Row K)} {t : List K}
    (hl : rows.length = t.length) (h2 : 2 ≤ t.length) (hi : Increasing t) {n : ℕ} (hn : n < rows.length) :
    let c := heatMeter cp rho rows t
    (∃ a b, c.mass[n]? = some a ∧ c.massPos[n]? = some b ∧ a ≤ b ∧ 0 ≤ b ∧
      ∀ b', c.massPos[n + 1]? = some b' → b ≤ b') ∧
    (∃ a b, c.volume[n]? = some a ∧ c.volumePos[n]? = some b ∧ a ≤ b ∧ 0 ≤ b ∧
      ∀ b', c.volumePos[n + 1]? = some b' → b ≤ b') ∧
    (∃ a b, c.heatMJ[n]? = some a ∧ c.heatPosMJ[n]? = some b ∧ a ≤ b ∧ 0 ≤ b ∧
      ∀ b', c.heatPosMJ[n + 1]? = some b' → b ≤ b') := by
  have hs := length_stepVec h2
  have hp := stepVec_pos hi
  have hz : ∀ (f : Row K → K → K) (m : ℕ), m < rows.length → m < (List.zipWith f rows (stepVec t)).length := by
    intro f m hm; simp [hs]; omega
  have gen : ∀ (f g : Row K → K → K), (∀ r x, 0 < x → f r x ≤ g r x) → (∀ r x, 0 < x → 0 ≤ g r x) →
      ∃ a b, (cumsum (List.zipWith f rows (stepVec t)))[n]? = some a ∧
        (cumsum (List.zipWith g rows (stepVec t)))[n]? = some b ∧ a ≤ b ∧ 0 ≤ b ∧
        ∀ b', (cumsum (List.zipWith g rows (stepVec t)))[n + 1]? = some b' → b ≤ b' := by
    intro f g hfg hg
    refine ⟨_, _, getElem?_cumsum _ n (hz f n hn), getElem?_cumsum _ n (hz g n hn),
      take_sum_le rows _ hp hfg _, ?_, ?_⟩
    · have := take_sum_le (f := fun _ _ => 0) (g := g) rows _ hp (fun r x hx => hg r x hx) (n + 1)
      refine le_trans (le_of_eq ?_) this
      symm
      apply List.sum_eq_zero
      intro x hx
      obtain ⟨i, hi', hx'⟩ := List.getElem_of_mem (List.mem_of_mem_take hx)
      rw [List.getElem_zipWith] at hx'
      exact hx'.symm
    · intro b' hb'
      have hlt : n + 1 < (cumsum (List.zipWith g rows (stepVec t))).length := (List.getElem?_eq_some_iff.1 hb').1
      rw [length_cumsum] at hlt
      rw [getElem?_cumsum _ (n + 1) hlt, Option.some.injEq] at hb'
      rw [← hb']
      exact take_sum_mono rows _ hp hg (n + 1)
  refine ⟨gen _ _ ?_ ?_, gen _ _ ?_ ?_, ?_⟩
  · exact fun r x hx => mul_le_mul_of_nonneg_right (le_clip _) hx.le
  · exact fun r x hx => mul_nonneg (clip_nonneg _) hx.le
  · intro r x hx
    have h1 := hrho r.Trf
    rw [div_mul_eq_mul_div]
    exact div_le_div_of_nonneg_right (mul_le_mul_of_nonneg_right (le_clip _) hx.le) h1.le
  · exact fun r x hx => div_nonneg (mul_nonneg (clip_nonneg _) hx.le) (hrho _).le
  · obtain ⟨a, b, ha, hb, hab, hb0, hm⟩ := gen (fun r h => heatflow cp r * h) (fun r h => clip (heatflow cp r) * h)
      (fun r x hx => mul_le_mul_of_nonneg_right (le_clip _) hx.le) (fun r x hx => mul_nonneg (clip_nonneg _) hx.le)
    have h3 : (0 : K) < 1e3 := by norm_num
    refine ⟨a / 1e3, b / 1e3, ?_, ?_, div_le_div_of_nonneg_right hab h3.le, div_nonneg hb0 h3.le, ?_⟩
    · simp only [heatMeter, List.getElem?_map, ha, Option.map_some]
    · simp only [heatMeter, List.getElem?_map, hb, Option.map_some]
    · intro b' hb'
      simp only [heatMeter, List.getElem?_map, Option.map_eq_some_iff] at hb'
      obtain ⟨b'', h1, rfl⟩ := hb'
      exact div_le_div_of_nonneg_right (hm b'' h1) h3.le

theorem clip_eq_max (x : K) : clip x = max x 0 := by
  unfold clip
  split_ifs with h
  · exact (max_eq_right h.le).symm
  · exact (max_eq_left (not_lt.1 h)).symm

/-- C54 (positive-only counters, value): they are the sums over the rows so far of the positive parts of the
flows times the step length. -/
theorem C54_positive_sums (cp rho : K → K) {rows : List (Row K)} {t : List K} (hl : rows.length = t.length)
    (h2 : 2 ≤ t.length) {n : ℕ} (hn : n < rows.length) :
    let c := heatMeter cp rho rows t
    c.massPos[n]? = some ((List.zipWith (fun r h => max r.dm 0 * h) rows (stepVec t)).take (n + 1)).sum ∧
    c.volumePos[n]? =
      some ((List.zipWith (fun r h => max r.dm 0 * h / rho r.Trf) rows (stepVec t)).take (n + 1)).sum ∧
    c.heatPosMJ[n]? =
      some (((List.zipWith (fun r h => max (heatflow cp r) 0 * h) rows (stepVec t)).take (n + 1)).sum / 1000) ∧
    ∀ q e, c.heatPosMJ[n]? = some q → c.heatPoskWh[n]? = some e → e * 3.6 = q := by
  have hs := length_stepVec h2
  have hz : ∀ f : Row K → K → K, n < (List.zipWith f rows (stepVec t)).length := by
    intro f; simp [hs]; omega
  have e3 : (1e3 : K) = 1000 := by norm_num
  simp only [heatMeter, clip_eq_max]
  refine ⟨getElem?_cumsum _ n (hz _), getElem?_cumsum _ n (hz _), ?_, ?_⟩
  · simp only [List.getElem?_map, getElem?_cumsum _ n (hz _), Option.map_some, e3]
  · intro q e hq he
    simp only [List.map_map, List.getElem?_map, getElem?_cumsum _ n (hz _), Option.map_some, Function.comp,
      Option.some.injEq] at hq he
    rw [← hq, ← he]
    field_simp

/-- C54 (power): the column `heatflow_kW` has one value per row; times a thousand and any duration it is the heat
in joule that the row transports in this time, and what the counter of the heat in MJ gains at a row is the power of
this row times its step length over a thousand. -/
theorem C54_power (cp rho : K → K) {rows : List (Row K)} {t : List K} (hl : rows.length = t.length)
    (h2 : 2 ≤ t.length) :
    let c := heatMeter cp rho rows t
    c.power.length = rows.length ∧
    (∀ (n : ℕ) r, rows[n]? = some r → ∃ p, c.power[n]? = some p ∧ ∀ h, p * 1000 * h = joule cp r h) ∧
    ∀ (n : ℕ) p h q q', c.power[n + 1]? = some p → (stepVec t)[n + 1]? = some h → c.heatMJ[n]? = some q →
      c.heatMJ[n + 1]? = some q' → q' = q + p * h / 1000 := by
  have hs := length_stepVec h2
  refine ⟨by simp [heatMeter], ?_, ?_⟩
  · intro n r hr
    refine ⟨heatflow cp r, by simp [heatMeter, hr], fun h => ?_⟩
    unfold heatflow joule
    norm_num
    ring
  · intro n p h q q' hp hh hq hq'
    have hlen : (List.zipWith (fun r h => heatflow cp r * h) rows (stepVec t)).length = rows.length := by
      simp [hs, hl]
    have hn : n + 1 < rows.length := by
      simp only [heatMeter, List.getElem?_map, Option.map_eq_some_iff] at hp
      obtain ⟨r, hr, -⟩ := hp
      exact (List.getElem?_eq_some_iff.1 hr).1
    have e : (List.zipWith (fun r h => heatflow cp r * h) rows (stepVec t))[n + 1]? = some (p * h) := by
      simp only [heatMeter, List.getElem?_map, Option.map_eq_some_iff] at hp
      obtain ⟨r, hr, rfl⟩ := hp
      simp [List.getElem?_zipWith, hr, hh]
    simp only [heatMeter, List.getElem?_map] at hq hq'
    rw [getElem?_cumsum _ n (by omega), Option.map_some, Option.some.injEq] at hq
    rw [getElem?_cumsum _ (n + 1) (by omega), Option.map_some, Option.some.injEq] at hq'
    obtain ⟨hb, hv⟩ := List.getElem?_eq_some_iff.1 e
    rw [← hq', ← hq, List.take_succ_eq_append_getElem hb, List.sum_append, hv]
    norm_num
    ring

/-- Two rows with 0.5 kg/s between 60 and 40 degrees. -/
example : (heatMeter (fun _ => (4200 : ℚ)) (fun _ => 1000) [⟨60, 40, 0.5⟩, ⟨60, 40, 0.5⟩, ⟨60, 50, 0.5⟩]
    [0, 10, 30]).power = [42, 42, 21] ∧
    (heatMeter (fun _ => (4200 : ℚ)) (fun _ => 1000) [⟨60, 40, 0.5⟩, ⟨60, 40, 0.5⟩, ⟨60, 50, 0.5⟩]
    [0, 10, 30]).heatMJ = [0.42, 1.26, 1.68] := by decide +kernel

/-- C54 (step lengths): the step lengths of a history of at least two rows add up to the simulated time *plus*
the last step once more. -/
theorem C54_steps_overcount (a : K) {t : List K} (h : t ≠ []) :
    ∃ l, (diffs (a :: t)).getLast? = some l ∧ (stepVec (a :: t)).sum = ((a :: t).getLast (by simp) - a) + l := by
  obtain ⟨b, t', rfl⟩ := List.exists_cons_of_ne_nil h
  have hne : diffs (a :: b :: t') ≠ [] := by simp [diffs]
  refine ⟨_, List.getLast?_eq_getLast_of_ne_nil hne, ?_⟩
  rw [stepVec, List.sum_append, sum_diffs, List.getLast?_eq_getLast_of_ne_nil hne]
  simp

/-- C54 fails: a meter over a constant flow of 1 kg/s recorded at 0, 1 and 2 s (3 rows) shows 3 kg after 2 s, and
1 kg already at time 0. -/
theorem C54_fails_one_step_ahead :
    (heatMeter (fun _ : ℚ => 4180) (fun _ => 1000) [⟨60, 40, 1⟩, ⟨60, 40, 1⟩, ⟨60, 40, 1⟩] [0, 1, 2]).mass
      = [1, 2, 3] := by
  norm_num [heatMeter, stepVec, diffs, cumsum, cumsumFrom]

/-- Case for `C54_sums_partial` and `C54_positive_counters`: flow reversal with unequal steps. -/
example : Increasing [(0 : ℚ), 2, 3] ∧
    (heatMeter (fun _ : ℚ => 4000) (fun _ => 1000) [⟨60, 50, 1⟩, ⟨60, 50, -1⟩, ⟨60, 50, 1⟩] [0, 2, 3]).heatMJ
      = [8 / 100, 4 / 100, 8 / 100] ∧
    (heatMeter (fun _ : ℚ => 4000) (fun _ => 1000) [⟨60, 50, 1⟩, ⟨60, 50, -1⟩, ⟨60, 50, 1⟩] [0, 2, 3]).massPos
      = [2, 2, 3] := by
  refine ⟨by unfold Increasing; decide +kernel, ?_, ?_⟩ <;>
    norm_num [heatMeter, stepVec, diffs, cumsum, cumsumFrom, heatflow, clip]

end Heat

section Names

variable {V : Type*}

/-- Full statement of C55: a name is refused exactly if a meter of the same kind has it, and then nothing
changes. -/
def C55_statement (V : Type*) : Prop :=
  ∀ (s : Store V) (k : Kind) (n : String) (v : V), s.add k n v = none ↔ (s.dict k n).isSome

/-- C55 for all kinds but volume flow meters: refused exactly if the kind has the name; otherwise the meter can
be read back and every other meter is as before. -/
theorem C55_unique_partial (s : Store V) {k : Kind} (hk : k ≠ .volumeflow) (n : String) (v : V) :
    (s.add k n v = none ↔ (s.dict k n).isSome) ∧
      ∀ s', s.add k n v = some s' → s'.dict k n = some v ∧
        ∀ k' n', (k', n') ≠ (k, n) → s'.dict k' n' = s.dict k' n' := by
  have hc : checked k = k := by cases k <;> first | rfl | exact absurd rfl hk
  constructor
  · unfold Store.add
    rw [hc]
    by_cases h : (s.dict k n).isSome
    · simp [h]
    · simp [h]
  · intro s' h
    unfold Store.add at h
    by_cases h' : (s.dict (checked k) n).isSome
    · rw [if_pos h'] at h; cases h
    · rw [if_neg h'] at h
      cases h
      refine ⟨by simp [Store.put], ?_⟩
      intro k' n' hne
      simp only [Store.put]
      rw [if_neg]
      rintro ⟨rfl, rfl⟩
      exact hne rfl

/-- C55 over histories: the table of a meter of those kinds survives every further sequence of calls. -/
theorem C55_first_kept_partial {k : Kind} (hk : k ≠ .volumeflow) (n : String) (v : V)
    (calls : List (Kind × String × V)) (s : Store V) (h : s.dict k n = some v) :
    (run s calls).dict k n = some v := by
  induction calls generalizing s with
  | nil => exact h
  | cons c cs ih =>
    obtain ⟨k', n', v'⟩ := c
    rw [run]
    apply ih
    cases ha : s.add k' n' v' with
    | none => exact h
    | some s' =>
      rw [Option.getD_some]
      unfold Store.add at ha
      by_cases h' : (s.dict (checked k') n').isSome
      · rw [if_pos h'] at ha; cases ha
      · rw [if_neg h'] at ha
        cases ha
        simp only [Store.put]
        rw [if_neg]
        · exact h
        · rintro ⟨rfl, rfl⟩
          have hc : checked k = k := by cases k <;> first | rfl | exact absurd rfl hk
          rw [hc, h] at h'
          exact h' rfl

example : ∃ s : Store ℕ, Store.empty.add .heat "a" 1 = some s ∧ s.add .heat "a" 2 = none ∧
    (s.add .temperature "a" 2).isSome := ⟨_, rfl, rfl, rfl⟩

/-- C55 fails for volume flow meters: a second one of the same name replaces the first. -/
theorem C55_fails_volumeflow_replaced :
    ((run (Store.empty (V := ℕ)) [(.volumeflow, "a", 1), (.volumeflow, "a", 2)]).dict .volumeflow "a") = some 2 := rfl

/-- C55 fails for volume flow meters: one is refused because a mass flow meter has the name. -/
theorem C55_fails_volumeflow_refused :
    ∃ s : Store ℕ, Store.empty.add .massflow "a" 1 = some s ∧ s.dict .volumeflow "a" = none ∧
      s.add .volumeflow "a" 2 = none := ⟨_, rfl, rfl, rfl⟩

theorem C55_fails : ¬ C55_statement ℕ := by
  intro h
  obtain ⟨s, -, h2, h3⟩ := C55_fails_volumeflow_refused
  have := (h s .volumeflow "a" 2).1 h3
  rw [h2] at this
  cases this

/-- C55 fails on disk: the store has one table per name, so a meter of another kind replaces the first table
there although both are kept in memory. -/
theorem C55_fails_disk_shared :
    ∃ s : Store ℕ, s = run Store.empty [(.heat, "a", 1), (.temperature, "a", 2)] ∧
      s.dict .heat "a" = some 1 ∧ s.dict .temperature "a" = some 2 ∧ s.disk "a" = some 2 := ⟨_, rfl, rfl, rfl, rfl⟩

end Names

end Verif.Meters
