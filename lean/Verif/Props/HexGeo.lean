import Verif.Model.HexGeo
import Mathlib.Tactic.NormNum
import Mathlib.Tactic.Linarith
import Mathlib.Tactic.FieldSimp
import Mathlib.Tactic.Positivity
import Mathlib.Tactic.Ring

/-!
# C123: geometry of plate heat exchangers
-/

namespace Verif.HexGeo

/-- Area of a rectangle with rounded corners: a cross of two rectangles and four quarters of a disc. -/
noncomputable def rounded (l w r : ℝ) : ℝ := (l - 2 * r) * w + 2 * r * (w - 2 * r) + Real.pi * r ^ 2

/-- Length of its edge: four straight pieces and a circle. -/
noncomputable def edge (l w r : ℝ) : ℝ := 2 * (l - 2 * r) + 2 * (w - 2 * r) + 2 * Real.pi * r

/-- Surface of a body of the given depth over a rectangle with rounded corners: both ends and the side. -/
noncomputable def surface (l w d r : ℝ) : ℝ := rounded l w r + rounded l w r + edge l w r * d

/-- Area of a disc with the given diameter. -/
noncomputable def disc (d : ℝ) : ℝ := Real.pi * (d / 2) ^ 2

/-- The rounding and the four ports fit on the plate. -/
def Args.Fits (a : Args) : Prop := 2 * a.rCorner ≤ a.length ∧ 2 * a.rCorner ≤ a.width ∧
  4 * disc a.dPort < rounded a.length a.width a.rCorner

theorem plateArea_eq (l w d r : ℝ) : plateArea l w d r = rounded l w r - 4 * disc d := by
  unfold plateArea rounded disc
  ring

theorem req_some {x : ℝ} (h : 0 < x) : req (some x) = some x := by simp [req, h]

theorem req_eq {o : Option ℝ} {x : ℝ} (h : req o = some x) : o = some x ∧ 0 < x := by
  unfold req at h
  obtain ⟨y, hy, h⟩ := Option.bind_eq_some_iff.mp h
  split_ifs at h with hp
  cases h
  exact ⟨hy, hp⟩

theorem opt_none (d : Option ℝ) : opt none d = d := by simp [opt]

/-- **C123**, partial (areas): if neither the area of plates nor the depth twice is given, the area of a plate is that of the rounded rectangle
without its four ports; the outer surface is that of both ends and the side, insulation is a layer around it and
enlarges it. -/
theorem C123_areas_partial (a : Args) (g : Geo) (hg : a.geometry = some g) (hf : a.Fits) (hs : 0 ≤ a.sIns)
    (hp : a.aPlate = none) (hone : a.depth = none ∨ a.depthBase = none) :
    g.aPlate = rounded a.length a.width a.rCorner - 4 * disc a.dPort ∧ 0 < g.aPlate ∧ 0 < g.depth ∧ 0 < g.aO ∧
      g.aO ≤ g.aOIns ∧ g.aO = surface a.length a.width g.depth a.rCorner ∧
      g.aOIns = surface (a.length + 2 * a.sIns) (a.width + 2 * a.sIns) (g.depth + 2 * a.sIns) a.rCorner := by
  unfold Args.geometry at hg
  split_ifs at hg with hc
  obtain ⟨depth, hd, hg⟩ := Option.bind_eq_some_iff.mp hg
  obtain ⟨c, -, hg⟩ := Option.bind_eq_some_iff.mp hg
  obtain ⟨m, -, rfl⟩ := Option.map_eq_some_iff.mp hg
  obtain ⟨hL, hW, hD, hr, -⟩ := hc
  obtain ⟨f1, f2, f3⟩ := hf
  have hpi := Real.pi_pos
  have hpl : a.plate = rounded a.length a.width a.rCorner - 4 * disc a.dPort := by
    unfold Args.plate
    rw [hp, Option.getD_none, plateArea_eq]
  have hdepth : 0 < depth := by
    unfold Args.depthOf at hd
    split_ifs at hd with h1 h2
    · obtain ⟨b, hb, hd⟩ := Option.bind_eq_some_iff.mp hd
      obtain ⟨d, hdd, rfl⟩ := Option.map_eq_some_iff.mp hd
      rcases h1 with h1 | ⟨h1, h3⟩
      · rcases hone with h | h
        · rw [h] at h1
          simp [req] at h1
        · exact absurd h h2
      · obtain ⟨x, hx⟩ := Option.ne_none_iff_exists'.mp h1
        obtain ⟨y, hy⟩ := Option.ne_none_iff_exists'.mp h3
        obtain ⟨hx, hxp⟩ := req_eq hx
        obtain ⟨hy, hyp⟩ := req_eq hy
        rw [hb] at hx
        rw [hdd] at hy
        cases hx
        cases hy
        positivity
    · rcases h1 with h1 | h1
      · obtain ⟨x, hx⟩ := Option.ne_none_iff_exists'.mp h1
        obtain ⟨hx, hp⟩ := req_eq hx
        rw [hd] at hx
        cases hx
        exact hp
      · push Not at h2
        rw [h2] at h1
        simp [req] at h1
  have hdisc : 0 < disc a.dPort := by unfold disc; positivity
  have hround : 0 < rounded a.length a.width a.rCorner := by linarith
  have hcirc : 0 ≤ circumference a.length a.width a.rCorner := by
    unfold circumference
    have : 0 ≤ a.rCorner * Real.pi := by positivity
    linarith
  have h0 : plateArea a.length a.width 0 a.rCorner = rounded a.length a.width a.rCorner := by
    rw [plateArea_eq]; simp [disc]
  have hsurf : ∀ l w d, outer l w d a.rCorner = surface l w d a.rCorner := by
    intro l w d
    unfold outer surface circumference edge rounded plateArea
    ring
  refine ⟨hpl, by simp only; rw [hpl]; linarith, hdepth, ?_, ?_, hsurf _ _ _, hsurf _ _ _⟩
  · simp only [outer, h0]
    have := mul_nonneg hcirc hdepth.le
    linarith
  · simp only [outer]
    have e1 : plateArea a.length a.width 0 a.rCorner ≤
        plateArea (a.length + 2 * a.sIns) (a.width + 2 * a.sIns) 0 a.rCorner := by
      unfold plateArea
      nlinarith [mul_nonneg hs hL.le, mul_nonneg hs hW.le, mul_nonneg hs hs]
    have e2 : circumference a.length a.width a.rCorner ≤
        circumference (a.length + 2 * a.sIns) (a.width + 2 * a.sIns) a.rCorner := by
      unfold circumference
      linarith
    have e3 := mul_le_mul e2 (by linarith : depth ≤ depth + 2 * a.sIns) hdepth.le (hcirc.trans e2)
    linarith

/-- Description by the channel width and the depth of one more plate, nothing else about plates and channels. -/
def Args.ByWidth (a : Args) (s dd : ℝ) : Prop := a.channelWidth = some s ∧ a.depthPerPlate = some dd ∧
  a.plateThickness = none ∧ a.vChannel = none ∧ a.massPerPlate = none

theorem core_byWidth {a : Args} {s dd : ℝ} (hs : 0 < s) (hdd : 0 < dd) (hw : a.ByWidth s dd) :
    a.core = some ⟨s, dd - s, a.channelArea.getD (s * a.width), s * a.plate, none⟩ := by
  obtain ⟨h1, h2, h3, h4, h5⟩ := hw
  unfold Args.core Args.byWidth
  rw [if_pos (by rw [h1]; simp), h1, req_some hs, Option.bind_some, h3, opt_none, h2, req_some hdd, Option.map_some,
    Option.bind_some, h4, opt_none, Option.map_some]

/-- A heat exchanger with 20 plates. -/
def demo : Args := { plates := 20, length := 0.5, width := 0.2, dPort := 0.02, rCorner := 0.01, sIns := 0.05, rho := 8000, depth := some 0.1, depthPerPlate := some 0.003, channelWidth := some 0.0025, massTotal := some 10 }

theorem demo_accepted : demo.geometry ≠ none := by
  have h : demo.Checked := by
    refine ⟨by norm_num [demo], by norm_num [demo], by norm_num [demo], by norm_num [demo], ?_⟩
    intro x h
    cases h
  have h1 : demo.depthOf = some 0.1 := by
    unfold Args.depthOf
    rw [if_pos (.inl (by show req (some 0.1) ≠ none; rw [req_some (by norm_num)]; simp)), if_neg (by simp [demo])]
    rfl
  unfold Args.geometry
  rw [if_pos h, h1, core_byWidth (a := demo) (s := 0.0025) (dd := 0.003) (by norm_num) (by norm_num)
    ⟨rfl, rfl, rfl, rfl, rfl⟩]
  simp [Args.mass, demo]

example : demo.Fits := by
  have := Real.pi_lt_four
  have := Real.pi_gt_three
  refine ⟨by norm_num [demo], by norm_num [demo], ?_⟩
  norm_num [demo, disc, rounded]
  linarith

/-- **C123** (totals of an accepted description): the depth and the dry mass are the given ones, or the base value
plus one share for each plate if a base value is given. -/
theorem C123_totals (a : Args) (g : Geo) (hg : a.geometry = some g) :
    (∀ b d, a.depthBase = some b → a.depthPerPlate = some d → g.depth = b + d * a.plates) ∧
    (a.depthBase = none → a.depth = some g.depth) ∧
    (∀ b m, a.massBase = some b → a.massPerPlate = some m → g.mass = b + m * a.plates) ∧
    (a.massBase = none → a.massTotal = some g.mass) ∧ a.core = some g.core := by
  unfold Args.geometry at hg
  split_ifs at hg with hc
  obtain ⟨depth, hd, hg⟩ := Option.bind_eq_some_iff.mp hg
  obtain ⟨c, hcore, hg⟩ := Option.bind_eq_some_iff.mp hg
  obtain ⟨m, hm, rfl⟩ := Option.map_eq_some_iff.mp hg
  refine ⟨?_, ?_, ?_, ?_, hcore⟩
  · intro b d hb hdd
    unfold Args.depthOf at hd
    split_ifs at hd with h1 h2
    · simpa [hb, hdd] using hd.symm
    · exact absurd hb (by push Not at h2; simp [h2])
  · intro hb
    unfold Args.depthOf at hd
    split_ifs at hd with h1 h2
    · exact absurd hb h2
    · exact hd
  · intro b mp hb hmp
    unfold Args.mass at hm
    rw [if_pos (by simp [hb]), if_pos (by simp [hmp]), hb, Option.bind_some] at hm
    obtain ⟨d, hdm, rfl⟩ := Option.map_eq_some_iff.mp hm
    have : d = mp := by
      unfold Args.core at hcore
      split_ifs at hcore with h1 h2
      · unfold Args.byWidth at hcore
        obtain ⟨_, -, hcore⟩ := Option.bind_eq_some_iff.mp hcore
        obtain ⟨_, -, hcore⟩ := Option.bind_eq_some_iff.mp hcore
        obtain ⟨_, -, rfl⟩ := Option.map_eq_some_iff.mp hcore
        cases hdm
      · unfold Args.byMass at hcore
        obtain ⟨_, -, hcore⟩ := Option.bind_eq_some_iff.mp hcore
        obtain ⟨y, hy, hcore⟩ := Option.bind_eq_some_iff.mp hcore
        obtain ⟨_, -, rfl⟩ := Option.map_eq_some_iff.mp hcore
        cases hdm
        have := (req_eq hy).1
        rw [hmp] at this
        exact (Option.some.inj this).symm
      · exact absurd hmp (by simp_all)
    simp only [this]
  · intro hb
    unfold Args.mass at hm
    rwa [if_neg (by simp [hb])] at hm

/-- The heat exchanger with 20 plates has the mass and the depth given. -/
example : ∃ g, demo.geometry = some g ∧ g.mass = 10 ∧ g.depth = 0.1 := by
  obtain ⟨g, hg⟩ := Option.ne_none_iff_exists'.mp demo_accepted
  obtain ⟨-, h1, -, h2, -⟩ := C123_totals demo g hg
  exact ⟨g, hg, (Option.some.inj (h2 rfl)).symm, (Option.some.inj (h1 rfl)).symm⟩

/-- **C123** (dry mass of a numeric heat exchanger): an accepted mass is the base mass plus one share for each plate,
or the given total mass; and with a mass per plate it is accepted. -/
theorem C123_total_numeric (a : Args) (m : ℝ) (hm : a.massPerPlate = some m) :
    (∀ b, a.massBase = some b → a.massNum = some (b + m * a.plates)) ∧ (a.massBase = none → a.massNum = a.massTotal) := by
  unfold Args.massNum
  refine ⟨fun b hb => ?_, fun hb => ?_⟩
  · simp [hm, hb]
  · simp [hm, hb]

example : { demo with massBase := some 2, massPerPlate := some 0.1 }.massNum = some 4 := by
  rw [(C123_total_numeric _ 0.1 rfl).1 2 rfl]
  norm_num [demo]

/-- **C123**, partial (equal descriptions): if one more plate with its share of the circumference weighs what the
channel width suggests, then the description by mass gives the same channels and plates. -/
theorem C123_mass_partial (a : Args) (s dd : ℝ) (hs : 0 < s) (hd : s < dd) (hw : a.ByWidth s dd) (hr : 0 < a.rho)
    (hA : 0 < a.plate) (hU : 0 ≤ circumference a.length a.width a.rCorner) (m : ℝ)
    (hm : m = a.rho * ((a.plate + dd * circumference a.length a.width a.rCorner) * (dd - s))) :
    ∃ c c', a.core = some c ∧ { a with channelWidth := none, massPerPlate := some m }.core = some c' ∧
      c'.sChannel = c.sChannel ∧ c'.sPlate = c.sPlate ∧ c'.aChannel = c.aChannel ∧ c.sChannel = s ∧
      c.sPlate + c.sChannel = dd := by
  obtain ⟨h1, h2, h3, h4, h5⟩ := hw
  have hdd : 0 < dd := by linarith
  have hA' : 0 < a.plate + dd * circumference a.length a.width a.rCorner := by
    have := mul_nonneg hdd.le hU
    linarith
  have hmp : 0 < m := by
    rw [hm]
    have : 0 < dd - s := by linarith
    positivity
  have ht : thickness m a.rho a.plate dd a.length a.width a.rCorner = dd - s := by
    unfold thickness
    rw [hm]
    field_simp
  refine ⟨⟨s, dd - s, a.channelArea.getD (s * a.width), s * a.plate, none⟩, ⟨dd - (dd - s), dd - s,
    a.channelArea.getD ((dd - (dd - s)) * a.width), (plateArea a.length a.width 0 a.rCorner - 2 * a.dPort ^ 2 *
      Real.pi / 4) * (dd - (dd - s)), some m⟩, ?_, ?_, by ring, rfl, by simp only; congr 2; ring, rfl, by ring⟩
  · exact core_byWidth hs hdd ⟨h1, h2, h3, h4, h5⟩
  · have hpl (x1 x2 x3 x4 x5 : Option ℝ) : Args.plate { a with channelWidth := x1, massPerPlate := x2, depthPerPlate := x3, plateThickness := x4, vChannel := x5 } = a.plate := rfl
    unfold Args.core Args.byMass
    simp only [ne_eq, not_true_eq_false, if_false, reduceCtorEq, not_false_eq_true, if_true, h2, req_some hdd,
      req_some hmp, Option.bind_some, h3, opt_none, Option.map_some, h4, Option.getD_none, hpl, ht]

/-- **C123** is wrong for the volume: with the same channels and plates as above, the volume by mass is larger by two
ports. -/
theorem C123_fails_ports (a : Args) (s dd : ℝ) (hs : 0 < s) (hd : s < dd) (hw : a.ByWidth s dd) (hr : 0 < a.rho)
    (hA : 0 < a.plate) (hU : 0 ≤ circumference a.length a.width a.rCorner) (hp : a.aPlate = none) (hport : 0 < a.dPort)
    (m : ℝ) (hm : m = a.rho * ((a.plate + dd * circumference a.length a.width a.rCorner) * (dd - s))) :
    ∃ c c', a.core = some c ∧ { a with channelWidth := none, massPerPlate := some m }.core = some c' ∧
      c'.vChannel = c.vChannel + 2 * disc a.dPort * s ∧ c.vChannel < c'.vChannel := by
  obtain ⟨h1, h2, h3, h4, h5⟩ := hw
  have hpi := Real.pi_pos
  have hdd : 0 < dd := by linarith
  have hA' : 0 < a.plate + dd * circumference a.length a.width a.rCorner := by
    have := mul_nonneg hdd.le hU
    linarith
  have hmp : 0 < m := by
    rw [hm]
    have : 0 < dd - s := by linarith
    positivity
  have ht : thickness m a.rho a.plate dd a.length a.width a.rCorner = dd - s := by
    unfold thickness
    rw [hm]
    field_simp
  have hv : (plateArea a.length a.width 0 a.rCorner - 2 * a.dPort ^ 2 * Real.pi / 4) * (dd - (dd - s)) =
      s * a.plate + 2 * disc a.dPort * s := by
    unfold Args.plate
    rw [hp, Option.getD_none]
    unfold plateArea disc
    ring
  have hdisc : 0 < 2 * disc a.dPort * s := by unfold disc; positivity
  refine ⟨⟨s, dd - s, a.channelArea.getD (s * a.width), s * a.plate, none⟩, ⟨dd - (dd - s), dd - s,
    a.channelArea.getD ((dd - (dd - s)) * a.width), (plateArea a.length a.width 0 a.rCorner - 2 * a.dPort ^ 2 *
      Real.pi / 4) * (dd - (dd - s)), some m⟩, ?_, ?_, hv, by simp only; rw [hv]; linarith⟩
  · exact core_byWidth hs hdd ⟨h1, h2, h3, h4, h5⟩
  · have hpl (x1 x2 x3 x4 x5 : Option ℝ) : Args.plate { a with channelWidth := x1, massPerPlate := x2, depthPerPlate := x3, plateThickness := x4, vChannel := x5 } = a.plate := rfl
    unfold Args.core Args.byMass
    simp only [ne_eq, not_true_eq_false, if_false, reduceCtorEq, not_false_eq_true, if_true, h2, req_some hdd,
      req_some hmp, Option.bind_some, h3, opt_none, Option.map_some, h4, Option.getD_none, hpl, ht]

/-- **C123** is wrong for the description by volume: if the volume that follows from a channel width is given instead
of the channel width, the channels are narrower. -/
theorem C123_fails_back (a : Args) (s dd : ℝ) (hs : 0 < s) (hd : s < dd) (hw : a.ByWidth s dd) (hp : a.aPlate = none)
    (hport : 0 < a.dPort) (hA : 0 < a.plate) :
    ∃ c c', a.core = some c ∧ { a with channelWidth := none, vChannel := some c.vChannel }.core = some c' ∧
      c.sChannel = s ∧ c'.sChannel < s := by
  obtain ⟨h1, h2, h3, h4, h5⟩ := hw
  have hpi := Real.pi_pos
  have hdd : 0 < dd := by linarith
  have hv : 0 < s * a.plate := by positivity
  have hlt : a.plate < plateArea a.length a.width 0 a.rCorner := by
    unfold Args.plate
    rw [hp, Option.getD_none]
    unfold plateArea
    have : 0 < a.dPort ^ 2 * Real.pi := by positivity
    linarith
  refine ⟨⟨s, dd - s, a.channelArea.getD (s * a.width), s * a.plate, none⟩, ⟨s * a.plate / plateArea a.length a.width 0
    a.rCorner, dd - s * a.plate / plateArea a.length a.width 0 a.rCorner, a.channelArea.getD (s * a.plate / plateArea
    a.length a.width 0 a.rCorner * a.width), s * a.plate, none⟩, ?_, ?_, rfl, ?_⟩
  · exact core_byWidth hs hdd ⟨h1, h2, h3, h4, h5⟩
  · unfold Args.core Args.byVolume
    simp only [ne_eq, not_true_eq_false, if_false, reduceCtorEq, not_false_eq_true, if_true, h2, req_some hdd,
      req_some hv, Option.bind_some, h3, opt_none, Option.map_some, h5]
  · simp only
    rw [div_lt_iff₀ (by linarith)]
    exact mul_lt_mul_of_pos_left hlt hs

example : demo.ByWidth 0.0025 0.003 ∧ 0 < demo.plate ∧ 0 ≤ circumference demo.length demo.width demo.rCorner := by
  have := Real.pi_lt_four
  have := Real.pi_gt_three
  refine ⟨⟨rfl, rfl, rfl, rfl, rfl⟩, ?_, ?_⟩
  · norm_num [demo, Args.plate, plateArea]
    linarith
  · norm_num [demo, circumference]
    linarith

/-- **C123** is wrong for the mass: with channel width, base mass and mass of a plate the exchanger can not be built;
with the total mass instead of the base mass it can. -/
theorem C123_fails_mass_base (a : Args) (s mb mp : ℝ) (h1 : a.channelWidth = some s) (h2 : a.massBase = some mb)
    (h3 : a.massPerPlate = some mp) : a.geometry = none ∧ (a.core ≠ none → a.depthOf ≠ none → a.Checked → ∀ mt,
      { a with massBase := none, massTotal := some mt }.geometry ≠ none) := by
  have hcore : ∀ c, a.core = some c → c.diffM = none := by
    intro c hc
    unfold Args.core Args.byWidth at hc
    rw [if_pos (by rw [h1]; simp)] at hc
    obtain ⟨x, -, hc⟩ := Option.bind_eq_some_iff.mp hc
    obtain ⟨y, -, hc⟩ := Option.bind_eq_some_iff.mp hc
    obtain ⟨z, -, rfl⟩ := Option.map_eq_some_iff.mp hc
    rfl
  constructor
  · unfold Args.geometry
    by_cases hc : a.Checked
    · rw [if_pos hc]
      cases hd : a.depthOf with
      | none => rfl
      | some d =>
        cases hcc : a.core with
        | none => rfl
        | some c =>
          simp only [Option.bind_some]
          unfold Args.mass
          rw [hcore c hcc, h2, h3]
          simp
    · rw [if_neg hc]
  · intro hc hd hch mt
    obtain ⟨c, hc⟩ := Option.ne_none_iff_exists'.mp hc
    obtain ⟨d, hd⟩ := Option.ne_none_iff_exists'.mp hd
    have e1 : ({ a with massBase := none, massTotal := some mt } : Args).Checked := hch
    have e2 : ({ a with massBase := none, massTotal := some mt } : Args).depthOf = some d := hd
    have e3 : ({ a with massBase := none, massTotal := some mt } : Args).core = some c := hc
    unfold Args.geometry
    rw [if_pos e1, e2, e3]
    simp [Args.mass]

example : ({ demo with massBase := some 2, massPerPlate := some 0.4 } : Args).geometry = none :=
  (C123_fails_mass_base _ 0.0025 2 0.4 rfl rfl rfl).1

/-- **C123** is wrong for impossible plates: a channel wider than the depth per plate is accepted, the plates then have
negative thickness. -/
theorem C123_fails_thickness (a : Args) (s dd : ℝ) (hs : 0 < s) (hdd : 0 < dd) (hd : dd < s) (hw : a.ByWidth s dd) :
    ∃ c, a.core = some c ∧ c.sPlate < 0 := by
  obtain ⟨h1, h2, h3, h4, h5⟩ := hw
  refine ⟨⟨s, dd - s, a.channelArea.getD (s * a.width), s * a.plate, none⟩, ?_, by simp only; linarith⟩
  exact core_byWidth hs hdd ⟨h1, h2, h3, h4, h5⟩

/-- **C123** is wrong for the depth given twice: the values that are used are not checked. -/
theorem C123_fails_depth (a : Args) (x b d : ℝ) (hx : 0 < x) (h1 : a.depth = some x) (h2 : a.depthBase = some b)
    (h3 : a.depthPerPlate = some d) : a.depthOf = some (b + d * a.plates) := by
  unfold Args.depthOf
  rw [if_pos (.inl (by rw [h1, req_some hx]; simp)), if_pos (by rw [h2]; simp), h2, h3]
  rfl

example : ({ demo with depthBase := some (-1) } : Args).depthOf = some (-1 + 0.003 * ((20 : ℕ) : ℝ)) :=
  C123_fails_depth _ 0.1 (-1) 0.003 (by norm_num) rfl rfl rfl

/-- **C123** is wrong for the numeric heat exchanger: the total mass alone, documented as sufficient, is never
accepted. -/
theorem C123_fails_total (a : Args) (h : a.massPerPlate = none) : a.massNum = none := by
  unfold Args.massNum
  rw [if_neg (by simp [h])]

end Verif.HexGeo
