import Verif.Model.Water
import Mathlib.Tactic.Ring
import Mathlib.Tactic.Linarith
import Mathlib.Tactic.Positivity
import Mathlib.Tactic.NormNum

/-!
# Bounds of the polynomials for water between 0 and 100 degrees

Each bound is proved by writing the difference in the Bernstein basis of (a piece of) the interval, where all
coefficients are non-negative.
-/

namespace Verif.Water

variable {K : Type*} [Field K] [LinearOrder K] [IsStrictOrderedRing K]

theorem rho_ge {T : K} (h0 : 0 ≤ T) (h1 : T ≤ 100) : 958 ≤ rho T := by
  have e : rho T - 958 =
      (4188785713136213 / 10000000000000000000000) * ((T - 0) ^ 0 * (100 - T) ^ 4) +
      (862559370122507401 / 500000000000000000000000) * ((T - 0) ^ 1 * (100 - T) ^ 3) +
      (478714532079677359 / 250000000000000000000000) * ((T - 0) ^ 2 * (100 - T) ^ 2) +
      (370409582769202253 / 500000000000000000000000) * ((T - 0) ^ 3 * (100 - T) ^ 1) +
      (190206917990777 / 62500000000000000000000) * ((T - 0) ^ 4 * (100 - T) ^ 0) := by unfold rho; ring
  have a1 : 0 ≤ T - 0 := by linarith
  have a2 : 0 ≤ 100 - T := by linarith
  have : 0 ≤ rho T - 958 := by rw [e]; positivity
  linarith

theorem rho_le {T : K} (h0 : 0 ≤ T) (h1 : T ≤ 100) : rho T ≤ 1000 := by
  rcases le_total T (25 / 4) with hT | hT
  · have e : 1000 - rho T =
      (11214286863787 / 152587890625000000) * ((T - 0) ^ 0 * ((25 / 4) - T) ^ 4) +
      (11083490468853599 / 122070312500000000000) * ((T - 0) ^ 1 * ((25 / 4) - T) ^ 3) +
      (44363643633434737 / 1953125000000000000000) * ((T - 0) ^ 2 * ((25 / 4) - T) ^ 2) +
      (472196823203471383 / 7812500000000000000000) * ((T - 0) ^ 3 * ((25 / 4) - T) ^ 1) +
      (13789542313880796907 / 250000000000000000000000) * ((T - 0) ^ 4 * ((25 / 4) - T) ^ 0) := by unfold rho; ring
    have a1 : 0 ≤ T - 0 := by linarith
    have a2 : 0 ≤ (25 / 4) - T := by linarith
    have : 0 ≤ 1000 - rho T := by rw [e]; positivity
    linarith
  · rcases le_total T (25 / 2) with hT | hT
    · have e : 1000 - rho T =
      (13789542313880796907 / 250000000000000000000000) * ((T - (25 / 4)) ^ 0 * ((25 / 2) - T) ^ 4) +
      (95206040168535291 / 250000000000000000000) * ((T - (25 / 4)) ^ 1 * ((25 / 2) - T) ^ 3) +
      (30745721482894033321 / 31250000000000000000000) * ((T - (25 / 4)) ^ 2 * ((25 / 2) - T) ^ 2) +
      (8123655343567465767 / 7812500000000000000000) * ((T - (25 / 4)) ^ 3 * ((25 / 2) - T) ^ 1) +
      (5964999153720433819 / 15625000000000000000000) * ((T - (25 / 4)) ^ 4 * ((25 / 2) - T) ^ 0) := by unfold rho; ring
      have a1 : 0 ≤ T - (25 / 4) := by linarith
      have a2 : 0 ≤ (25 / 2) - T := by linarith
      have : 0 ≤ 1000 - rho T := by rw [e]; positivity
      linarith
    · rcases le_total T 25 with hT | hT
      · have e : 1000 - rho T =
      (5964999153720433819 / 250000000000000000000000) * ((T - (25 / 2)) ^ 0 * (25 - T) ^ 4) +
      (977134211759383569 / 6250000000000000000000) * ((T - (25 / 2)) ^ 1 * (25 - T) ^ 3) +
      (11393725612282840657 / 31250000000000000000000) * ((T - (25 / 2)) ^ 2 * (25 - T) ^ 2) +
      (2756586537718165749 / 7812500000000000000000) * ((T - (25 / 2)) ^ 3 * (25 - T) ^ 1) +
      (1888351443702456043 / 15625000000000000000000) * ((T - (25 / 2)) ^ 4 * (25 - T) ^ 0) := by unfold rho; ring
        have a1 : 0 ≤ T - (25 / 2) := by linarith
        have a2 : 0 ≤ 25 - T := by linarith
        have : 0 ≤ 1000 - rho T := by rw [e]; positivity
        linarith
      · rcases le_total T 50 with hT | hT
        · have e : 1000 - rho T =
      (1888351443702456043 / 250000000000000000000000) * ((T - 25) ^ 0 * (50 - T) ^ 4) +
      (145423389669460119 / 3125000000000000000000) * ((T - 25) ^ 1 * (50 - T) ^ 3) +
      (398770528541317823 / 3906250000000000000000) * ((T - 25) ^ 2 * (50 - T) ^ 2) +
      (365822389976715129 / 3906250000000000000000) * ((T - 25) ^ 3 * (50 - T) ^ 1) +
      (479320520974099381 / 15625000000000000000000) * ((T - 25) ^ 4 * (50 - T) ^ 0) := by unfold rho; ring
          have a1 : 0 ≤ T - 25 := by linarith
          have a2 : 0 ≤ 50 - T := by linarith
          have : 0 ≤ 1000 - rho T := by rw [e]; positivity
          linarith
        · have e : 1000 - rho T =
      (479320520974099381 / 250000000000000000000000) * ((T - 50) ^ 0 * (100 - T) ^ 4) +
      (141263356593773577 / 12500000000000000000000) * ((T - 50) ^ 1 * (100 - T) ^ 3) +
      (2962212255469481227 / 125000000000000000000000) * ((T - 50) ^ 2 * (100 - T) ^ 2) +
      (1303503795855092883 / 62500000000000000000000) * ((T - 50) ^ 3 * (100 - T) ^ 1) +
      (26059793082009223 / 3906250000000000000000) * ((T - 50) ^ 4 * (100 - T) ^ 0) := by unfold rho; ring
          have a1 : 0 ≤ T - 50 := by linarith
          have a2 : 0 ≤ 100 - T := by linarith
          have : 0 ≤ 1000 - rho T := by rw [e]; positivity
          linarith

theorem lam_ge {T : K} (h0 : 0 ≤ T) (h1 : T ≤ 100) : (569 / 1000) ≤ lam T := by
  have e : lam T - (569 / 1000) =
      (87912853229539 / 100000000000000000000000) * ((T - 0) ^ 0 * (100 - T) ^ 3) +
      (3628421792446871 / 20000000000000000000000) * ((T - 0) ^ 1 * (100 - T) ^ 2) +
      (60041315274784227 / 200000000000000000000000) * ((T - 0) ^ 2 * (100 - T) ^ 1) +
      (1109681575723636343 / 10000000000000000000000000) * ((T - 0) ^ 3 * (100 - T) ^ 0) := by unfold lam; ring
  have a1 : 0 ≤ T - 0 := by linarith
  have a2 : 0 ≤ 100 - T := by linarith
  have : 0 ≤ lam T - (569 / 1000) := by rw [e]; positivity
  linarith

theorem lam_le {T : K} (h0 : 0 ≤ T) (h1 : T ≤ 100) : lam T ≤ (681 / 1000) := by
  have e : (681 / 1000) - lam T =
      (11112087146770461 / 100000000000000000000000) * ((T - 0) ^ 0 * (100 - T) ^ 3) +
      (3091578207553129 / 20000000000000000000000) * ((T - 0) ^ 1 * (100 - T) ^ 2) +
      (7158684725215773 / 200000000000000000000000) * ((T - 0) ^ 2 * (100 - T) ^ 1) +
      (10318424276363657 / 10000000000000000000000000) * ((T - 0) ^ 3 * (100 - T) ^ 0) := by unfold lam; ring
  have a1 : 0 ≤ T - 0 := by linarith
  have a2 : 0 ≤ 100 - T := by linarith
  have : 0 ≤ (681 / 1000) - lam T := by rw [e]; positivity
  linarith

theorem cp_ge {T : K} (h0 : 0 ≤ T) (h1 : T ≤ 100) : 4177 ≤ cp T := by
  rcases le_total T 25 with hT | hT
  · have e : cp T - 4177 =
      (48002946772499 / 488281250000000000) * ((T - 0) ^ 0 * (25 - T) ^ 4) +
      (8147457146319843 / 39062500000000000000) * ((T - 0) ^ 1 * (25 - T) ^ 3) +
      (6082569916160739 / 39062500000000000000) * ((T - 0) ^ 2 * (25 - T) ^ 2) +
      (23910076726848787 / 500000000000000000000) * ((T - 0) ^ 3 * (25 - T) ^ 1) +
      (13955411131834319 / 2500000000000000000000) * ((T - 0) ^ 4 * (25 - T) ^ 0) := by unfold cp; ring
    have a1 : 0 ≤ T - 0 := by linarith
    have a2 : 0 ≤ 25 - T := by linarith
    have : 0 ≤ cp T - 4177 := by rw [e]; positivity
    linarith
  · rcases le_total T (75 / 2) with hT | hT
    · have e : cp T - 4177 =
      (13955411131834319 / 156250000000000000000) * ((T - 25) ^ 0 * ((75 / 2) - T) ^ 4) +
      (47914549947767893 / 312500000000000000000) * ((T - 25) ^ 1 * ((75 / 2) - T) ^ 3) +
      (66923223045145107 / 625000000000000000000) * ((T - 25) ^ 2 * ((75 / 2) - T) ^ 2) +
      (93593634554774031 / 1250000000000000000000) * ((T - 25) ^ 3 * ((75 / 2) - T) ^ 1) +
      (43775765322182141 / 1250000000000000000000) * ((T - 25) ^ 4 * ((75 / 2) - T) ^ 0) := by unfold cp; ring
      have a1 : 0 ≤ T - 25 := by linarith
      have a2 : 0 ≤ (75 / 2) - T := by linarith
      have : 0 ≤ cp T - 4177 := by rw [e]; positivity
      linarith
    · rcases le_total T 50 with hT | hT
      · have e : cp T - 4177 =
      (43775765322182141 / 1250000000000000000000) * ((T - (75 / 2)) ^ 0 * (50 - T) ^ 4) +
      (256612488022683097 / 1250000000000000000000) * ((T - (75 / 2)) ^ 1 * (50 - T) ^ 3) +
      (155725751623504353 / 312500000000000000000) * ((T - (75 / 2)) ^ 2 * (50 - T) ^ 2) +
      (38839278763914339 / 78125000000000000000) * ((T - (75 / 2)) ^ 3 * (50 - T) ^ 1) +
      (3365247539850223 / 19531250000000000000) * ((T - (75 / 2)) ^ 4 * (50 - T) ^ 0) := by unfold cp; ring
        have a1 : 0 ≤ T - (75 / 2) := by linarith
        have a2 : 0 ≤ 50 - T := by linarith
        have : 0 ≤ cp T - 4177 := by rw [e]; positivity
        linarith
      · have e : cp T - 4177 =
      (3365247539850223 / 5000000000000000000000) * ((T - 50) ^ 0 * (100 - T) ^ 4) +
      (28465672033090121 / 5000000000000000000000) * ((T - 50) ^ 1 * (100 - T) ^ 3) +
      (38961850571161359 / 2500000000000000000000) * ((T - 50) ^ 2 * (100 - T) ^ 2) +
      (17580722710974127 / 1250000000000000000000) * ((T - 50) ^ 3 * (100 - T) ^ 1) +
      (4194284835002363 / 625000000000000000000) * ((T - 50) ^ 4 * (100 - T) ^ 0) := by unfold cp; ring
        have a1 : 0 ≤ T - 50 := by linarith
        have a2 : 0 ≤ 100 - T := by linarith
        have : 0 ≤ cp T - 4177 := by rw [e]; positivity
        linarith

theorem cp_le {T : K} (h0 : 0 ≤ T) (h1 : T ≤ 100) : cp T ≤ 4219 := by
  have e : 4219 - cp T =
      (4497053227501 / 125000000000000000000) * ((T - 0) ^ 0 * (100 - T) ^ 4) +
      (7573250079079917 / 2500000000000000000000) * ((T - 0) ^ 1 * (100 - T) ^ 3) +
      (3453652137936711 / 2500000000000000000000) * ((T - 0) ^ 2 * (100 - T) ^ 2) +
      (639856665161413 / 400000000000000000000) * ((T - 0) ^ 3 * (100 - T) ^ 1) +
      (5715164997637 / 10000000000000000000000) * ((T - 0) ^ 4 * (100 - T) ^ 0) := by unfold cp; ring
  have a1 : 0 ≤ T - 0 := by linarith
  have a2 : 0 ≤ 100 - T := by linarith
  have : 0 ≤ 4219 - cp T := by rw [e]; positivity
  linarith

theorem ny_ge {T : K} (h0 : 0 ≤ T) (h1 : T ≤ 100) : (3 / 10000000) ≤ ny T := by
  rcases le_total T 50 with hT | hT
  · have e : ny T - (3 / 10000000) =
      (2952894676098831 / 12500000000000000000000000000) * ((T - 0) ^ 0 * (50 - T) ^ 4) +
      (15618877815671959 / 31250000000000000000000000000) * ((T - 0) ^ 1 * (50 - T) ^ 3) +
      (30734108829802889 / 62500000000000000000000000000) * ((T - 0) ^ 2 * (50 - T) ^ 2) +
      (116548294163423987 / 500000000000000000000000000000) * ((T - 0) ^ 3 * (50 - T) ^ 1) +
      (20691915904330341 / 500000000000000000000000000000) * ((T - 0) ^ 4 * (50 - T) ^ 0) := by unfold ny; ring
    have a1 : 0 ≤ T - 0 := by linarith
    have a2 : 0 ≤ 50 - T := by linarith
    have : 0 ≤ ny T - (3 / 10000000) := by rw [e]; positivity
    linarith
  · rcases le_total T 75 with hT | hT
    · have e : ny T - (3 / 10000000) =
      (20691915904330341 / 31250000000000000000000000000) * ((T - 50) ^ 0 * (75 - T) ^ 4) +
      (26350939337708021 / 12500000000000000000000000000) * ((T - 50) ^ 1 * (75 - T) ^ 3) +
      (314301682001445643 / 125000000000000000000000000000) * ((T - 50) ^ 2 * (75 - T) ^ 2) +
      (313258154035016507 / 250000000000000000000000000000) * ((T - 50) ^ 3 * (75 - T) ^ 1) +
      (27626683368954297 / 125000000000000000000000000000) * ((T - 50) ^ 4 * (75 - T) ^ 0) := by unfold ny; ring
      have a1 : 0 ≤ T - 50 := by linarith
      have a2 : 0 ≤ 75 - T := by linarith
      have : 0 ≤ ny T - (3 / 10000000) := by rw [e]; positivity
      linarith
    · rcases le_total T (175 / 2) with hT | hT
      · have e : ny T - (3 / 10000000) =
      (27626683368954297 / 7812500000000000000000000000) * ((T - 75) ^ 0 * ((175 / 2) - T) ^ 4) +
      (349782246819886621 / 31250000000000000000000000000) * ((T - 75) ^ 1 * ((175 / 2) - T) ^ 3) +
      (792961781534806799 / 62500000000000000000000000000) * ((T - 75) ^ 2 * ((175 / 2) - T) ^ 2) +
      (753994846011869759 / 125000000000000000000000000000) * ((T - 75) ^ 3 * ((175 / 2) - T) ^ 1) +
      (259461789823333467 / 250000000000000000000000000000) * ((T - 75) ^ 4 * ((175 / 2) - T) ^ 0) := by unfold ny; ring
        have a1 : 0 ≤ T - 75 := by linarith
        have a2 : 0 ≤ (175 / 2) - T := by linarith
        have : 0 ≤ ny T - (3 / 10000000) := by rw [e]; positivity
        linarith
      · have e : ny T - (3 / 10000000) =
      (259461789823333467 / 250000000000000000000000000000) * ((T - (175 / 2)) ^ 0 * (100 - T) ^ 4) +
      (283852313281464109 / 125000000000000000000000000000) * ((T - (175 / 2)) ^ 1 * (100 - T) ^ 3) +
      (21936995609799581 / 15625000000000000000000000000) * ((T - (175 / 2)) ^ 2 * (100 - T) ^ 2) +
      (750246094215723 / 1953125000000000000000000000) * ((T - (175 / 2)) ^ 3 * (100 - T) ^ 1) +
      (6093508225457 / 24414062500000000000000000) * ((T - (175 / 2)) ^ 4 * (100 - T) ^ 0) := by unfold ny; ring
        have a1 : 0 ≤ T - (175 / 2) := by linarith
        have a2 : 0 ≤ 100 - T := by linarith
        have : 0 ≤ ny T - (3 / 10000000) := by rw [e]; positivity
        linarith

theorem ny_le {T : K} (h0 : 0 ≤ T) (h1 : T ≤ 100) : ny T ≤ (9 / 5000000) := by
  have e : (9 / 5000000) - ny T =
      (47105323901169 / 200000000000000000000000000000) * ((T - 0) ^ 0 * (100 - T) ^ 4) +
      (3536398891205549 / 62500000000000000000000000000) * ((T - 0) ^ 1 * (100 - T) ^ 3) +
      (32951629092943511 / 500000000000000000000000000000) * ((T - 0) ^ 2 * (100 - T) ^ 2) +
      (60955936208912237 / 1000000000000000000000000000000) * ((T - 0) ^ 3 * (100 - T) ^ 1) +
      (1493906491774543 / 100000000000000000000000000000) * ((T - 0) ^ 4 * (100 - T) ^ 0) := by unfold ny; ring
  have a1 : 0 ≤ T - 0 := by linarith
  have a2 : 0 ≤ 100 - T := by linarith
  have : 0 ≤ (9 / 5000000) - ny T := by rw [e]; positivity
  linarith

theorem Pr_ge {T : K} (h0 : 0 ≤ T) (h1 : T ≤ 100) : (3 / 2) ≤ Pr T := by
  rcases le_total T 50 with hT | hT
  · have e : Pr T - (3 / 2) =
      (55390054099689529 / 625000000000000000000) * ((T - 0) ^ 0 * (50 - T) ^ 3) +
      (78358460869649817 / 625000000000000000000) * ((T - 0) ^ 1 * (50 - T) ^ 2) +
      (178314439984454613 / 2500000000000000000000) * ((T - 0) ^ 2 * (50 - T) ^ 1) +
      (601645751510019 / 39062500000000000000) * ((T - 0) ^ 3 * (50 - T) ^ 0) := by unfold Pr; ring
    have a1 : 0 ≤ T - 0 := by linarith
    have a2 : 0 ≤ 50 - T := by linarith
    have : 0 ≤ Pr T - (3 / 2) := by rw [e]; positivity
    linarith
  · have e : Pr T - (3 / 2) =
      (601645751510019 / 39062500000000000000) * ((T - 50) ^ 0 * (100 - T) ^ 3) +
      (52717528595392683 / 2500000000000000000000) * ((T - 50) ^ 1 * (100 - T) ^ 2) +
      (3890001293779713 / 156250000000000000000) * ((T - 50) ^ 2 * (100 - T) ^ 1) +
      (5770962109481 / 156250000000000000000) * ((T - 50) ^ 3 * (100 - T) ^ 0) := by unfold Pr; ring
    have a1 : 0 ≤ T - 50 := by linarith
    have a2 : 0 ≤ 100 - T := by linarith
    have : 0 ≤ Pr T - (3 / 2) := by rw [e]; positivity
    linarith

theorem Pr_le {T : K} (h0 : 0 ≤ T) (h1 : T ≤ 100) : Pr T ≤ (63 / 5) := by
  have e : (63 / 5) - Pr T =
      (109945900310471 / 5000000000000000000000) * ((T - 0) ^ 0 * (100 - T) ^ 3) +
      (175953240559768953 / 5000000000000000000000) * ((T - 0) ^ 1 * (100 - T) ^ 2) +
      (33862310298769017 / 1250000000000000000000) * ((T - 0) ^ 2 * (100 - T) ^ 1) +
      (13869229037890519 / 1250000000000000000000) * ((T - 0) ^ 3 * (100 - T) ^ 0) := by unfold Pr; ring
  have a1 : 0 ≤ T - 0 := by linarith
  have a2 : 0 ≤ 100 - T := by linarith
  have : 0 ≤ (63 / 5) - Pr T := by rw [e]; positivity
  linarith

end Verif.Water
