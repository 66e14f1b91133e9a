import Verif.Props.Scale

/-!
# C200: only differences of temperatures matter

All temperatures of a part, its neighbours and its surroundings are stretched by a factor `a` and shifted by `b`; for `a = 1` this is another
zero of the temperature scale.
-/

set_option linter.unusedSectionVars false

namespace Verif.Cells

open Verif.Flows

variable {K : Type*} [Field K] [LinearOrder K] [IsStrictOrderedRing K]

/-- Specification: all temperatures stretched and shifted. -/
def Inp.affine (a b : K) (s : Inp K) : Inp K :=
  { s with T := fun k => a * s.T k + b, edgeTop := a * s.edgeTop + b, edgeBot := a * s.edgeBot + b, Tamb := a * s.Tamb + b }

/-- Specification: a connected port with stretched and shifted temperature. -/
def Port.affine (a b : K) (p : Port K) : Port K := { p with T := a * p.T + b }

/-- Specification: a material whose properties do not depend on temperature. -/
def Mat.const (c d l : K) : Mat K := ⟨fun _ => c, fun _ => d, fun _ => l⟩

variable (c d l : K) (g : Geo K) (s : Inp K) (a b : K)

theorem tExt_affine (j : ℕ) : tExt g (s.affine a b) j = a * tExt g s j + b := by
  unfold tExt Inp.affine
  split_ifs <;> rfl

theorem enth_affine (j : ℕ) : enth (Mat.const c d l) g (s.affine a b) j = a * enth (Mat.const c d l) g s j + c * b := by
  unfold enth
  rw [tExt_affine]
  simp only [Mat.const]
  ring

theorem uaTb_affine (j : ℕ) : uaTb (Mat.const c d l) g (s.affine a b) j = uaTb (Mat.const c d l) g s j := rfl

theorem mcp_affine (k : ℕ) : mcp (Mat.const c d l) g (s.affine a b) k = mcp (Mat.const c d l) g s k := rfl

theorem uaPort_affine (p : Port K) :
    uaPort (Mat.const c d l) g (s.affine a b) (p.affine a b) = uaPort (Mat.const c d l) g s p := rfl

theorem addAt_mul (f f' : ℕ → K) (hf : ∀ k, f' k = a * f k) (L : List (ℕ × K)) :
    ∀ k, addAt f' (L.map fun q => (q.1, a * q.2)) k = a * addAt f L k := by
  induction L generalizing f f' with
  | nil => exact hf
  | cons q L ih =>
    simp only [List.map_cons, addAt]
    refine ih _ _ fun k => ?_
    split_ifs
    · rw [hf]; ring
    · exact hf k

theorem dTcond_affine (ports : List (Port K)) (k : ℕ) :
    dTcond (Mat.const c d l) g (s.affine a b) (ports.map (Port.affine a b)) k = a * dTcond (Mat.const c d l) g s ports k := by
  have e1 : ((ports.map (Port.affine a b)).map fun p => (p.idx, uaPort (Mat.const c d l) g (s.affine a b) p *
      (p.T - (s.affine a b).T p.idx) / mcp (Mat.const c d l) g (s.affine a b) p.idx)) =
      (ports.map fun p => (p.idx, uaPort (Mat.const c d l) g s p * (p.T - s.T p.idx) / mcp (Mat.const c d l) g s p.idx)).map
        fun q => (q.1, a * q.2) := by
    rw [List.map_map, List.map_map]
    refine List.map_congr_left fun p _ => ?_
    simp only [Function.comp, uaPort_affine, mcp_affine]
    refine Prod.ext rfl ?_
    simp only [Port.affine, Inp.affine]
    ring
  unfold dTcond
  rw [e1]
  refine addAt_mul a _ _ (fun k => ?_) _ k
  simp only [uaTb_affine, mcp_affine, tExt_affine]
  simp only [Inp.affine]
  split_ifs <;> ring

theorem dTadv_affine (top bot : ℕ → K) (ports : List (Port K)) (inflow : List K) (k : ℕ) :
    dTadv (Mat.const c d l) g (s.affine a b) top bot (ports.map (Port.affine a b)) inflow k =
      a * dTadv (Mat.const c d l) g s top bot ports inflow k := by
  have e1 : (((ports.map (Port.affine a b)).zip inflow).map fun q => (q.1.idx, q.2 * ((Mat.const c d l).cp q.1.T * q.1.T -
      enth (Mat.const c d l) g (s.affine a b) (q.1.idx + 1)) / mcp (Mat.const c d l) g (s.affine a b) q.1.idx)) =
      ((ports.zip inflow).map fun q => (q.1.idx, q.2 * ((Mat.const c d l).cp q.1.T * q.1.T -
        enth (Mat.const c d l) g s (q.1.idx + 1)) / mcp (Mat.const c d l) g s q.1.idx)).map fun q => (q.1, a * q.2) := by
    rw [List.zip_map_left, List.map_map, List.map_map]
    refine List.map_congr_left fun q _ => ?_
    simp only [Function.comp, Prod.map, mcp_affine, enth_affine]
    refine Prod.ext rfl ?_
    simp only [Port.affine, Mat.const, id]
    ring
  unfold dTadv
  rw [e1]
  refine addAt_mul a _ _ (fun k => ?_) _ k
  simp only [enth_affine, mcp_affine]
  ring

/-- **C200**, partial (pipes): for a material with constant properties, stretching and shifting all temperatures stretches their changes.
Missing: properties that depend on temperature (`C200_fails_material`). -/
theorem C200_pipe_partial (io : K) (pin pout : Port K) (k : ℕ) :
    pipeDT (Mat.const c d l) g (s.affine a b) io (pin.affine a b) (pout.affine a b) k = a * pipeDT (Mat.const c d l) g s io pin pout k := by
  unfold pipeDT
  have h1 := dTcond_affine c d l g s a b [pin, pout] k
  have h2 := dTadv_affine c d l g s a b (processInvar g.n io).top (processInvar g.n io).bot [pin, pout]
    [(processInvar g.n io).portIn, (processInvar g.n io).portOut] k
  simp only [List.map_cons, List.map_nil] at h1 h2
  rw [h1, h2]
  ring

/-- **C200**, partial (storages): the same for storages and branched pipes, with the same factors of buoyancy. -/
theorem C200_storage_partial (ports : List (Port K)) (k : ℕ) :
    storageDT (Mat.const c d l) g (s.affine a b) (ports.map (Port.affine a b)) k = a * storageDT (Mat.const c d l) g s ports k := by
  have hidx : (ports.map (Port.affine a b)).map (·.idx) = ports.map (·.idx) := by rw [List.map_map]; rfl
  have hio : (ports.map (Port.affine a b)).map (·.io) = ports.map (·.io) := by rw [List.map_map]; rfl
  unfold storageDT
  rw [hidx, hio, dTcond_affine, dTadv_affine]
  ring

/-- **C200**, partial (heaters): with the power of the heater stretched as well, while it is not switched off. -/
theorem C200_heater_partial (limit : K) (q : Heat K) (io : K) (pin pout : Port K) (k : ℕ)
    (h : ∀ j < g.n + 2, tExt g s j < limit ∧ a * tExt g s j + b < limit) :
    (heatedDT (Mat.const c d l) g (s.affine a b) limit (q.scale a) io (pin.affine a b) (pout.affine a b)).1 k =
      a * (heatedDT (Mat.const c d l) g s limit q io pin pout).1 k := by
  have h1 : shutdown g s limit q.dQ = q.dQ := by
    unfold shutdown
    rw [if_neg]
    rintro ⟨j, hj, hl⟩
    exact absurd hl (not_le.2 (h j hj).1)
  have h2 : shutdown g (s.affine a b) limit (q.scale a).dQ = (q.scale a).dQ := by
    unfold shutdown
    rw [if_neg]
    rintro ⟨j, hj, hl⟩
    rw [tExt_affine] at hl
    exact absurd hl (not_le.2 (h j hj).2)
  unfold heatedDT
  dsimp only
  rw [h1, h2, C200_pipe_partial, mul_add]
  congr 1
  unfold dTheat
  by_cases hk : q.start ≤ k ∧ k < q.stop
  · rw [if_pos hk, if_pos (show (q.scale a).start ≤ k ∧ k < (q.scale a).stop from hk), mcp_affine]
    simp only [Heat.scale]
    ring
  · rw [if_neg hk, if_neg (show ¬ ((q.scale a).start ≤ k ∧ k < (q.scale a).stop) from hk), mul_zero]

/-- The material of the example of C199 is constant; its first cell warms up. -/
example : examplePipe.1 = Mat.const 4200 1000 1 ∧
    0 < pipeDT (Mat.const 4200 1000 1) examplePipe.2.1 examplePipe.2.2.1 2 examplePipe.2.2.2.1 examplePipe.2.2.2.2 0 :=
  ⟨rfl, by decide +kernel⟩

/-- With a shutdown temperature of 95 degrees a heater in this pipe is not switched off, with all temperatures 5 degrees higher neither. -/
example : ∀ j < examplePipe.2.1.n + 2, tExt examplePipe.2.1 examplePipe.2.2.1 j < 95 ∧
    1 * tExt examplePipe.2.1 examplePipe.2.2.1 j + 5 < 95 := by decide +kernel

/-- **C200** fails for materials whose heat capacity depends on temperature: the same pipe 10 degrees warmer changes its temperatures at
another rate. -/
theorem C200_fails_material : ∃ mat : Mat ℚ, pipeDT mat examplePipe.2.1 (examplePipe.2.2.1.affine 1 10) 2
      (examplePipe.2.2.2.1.affine 1 10) (examplePipe.2.2.2.2.affine 1 10) 0 ≠
    pipeDT mat examplePipe.2.1 examplePipe.2.2.1 2 examplePipe.2.2.2.1 examplePipe.2.2.2.2 0 :=
  ⟨⟨fun T => 4200 + T, fun _ => 1000, fun _ => 1⟩, by decide +kernel⟩

end Verif.Cells
