import Verif.Proofs.TickRound
/-! # C17: tick rounding is exact although it is computed in float64 -/
namespace Uni
namespace Props
open TickRound

/-- C17: for every tick `|x| < 2^31` and unit `0 < u ≤ 2^20`: `Floor` is the largest multiple of `u` not above `x`,
`Ceil` the smallest not below `x`, `Round` a nearest multiple, away from zero on ties. -/
theorem C17_rounding (x u : Int) (hx1 : -2 ^ 31 < x) (hx2 : x < 2 ^ 31) (hu : 0 < u) (hu2 : u ≤ 2 ^ 20) :
    (u ∣ floor x u ∧ floor x u ≤ x ∧ x < floor x u + u) ∧
    (u ∣ ceil x u ∧ ceil x u - u < x ∧ x ≤ ceil x u) ∧
    (u ∣ round x u ∧ 2 * |x - round x u| ≤ u ∧ (2 * |x - round x u| = u → |x| < |round x u|)) := by
  refine ⟨?_, ?_, ?_⟩
  · rw [floor_eq hx1 hx2 hu hu2]
    have h1 : x / u * u ≤ x := Int.ediv_mul_le _ (by omega)
    have h2 : x < (x / u + 1) * u := Int.lt_ediv_add_one_mul_self _ hu
    rw [add_mul, one_mul] at h2
    exact ⟨Dvd.intro_left _ rfl, h1, h2⟩
  · rw [ceil_eq hx1 hx2 hu hu2]
    have h1 : (-x) / u * u ≤ -x := Int.ediv_mul_le _ (by omega)
    have h2 : -x < ((-x) / u + 1) * u := Int.lt_ediv_add_one_mul_self _ hu
    rw [add_mul, one_mul] at h2
    refine ⟨Dvd.intro_left _ rfl, ?_, ?_⟩ <;> rw [neg_mul] <;> omega
  · by_cases h : 0 ≤ x
    · rw [round_nonneg_eq h hx2 hu hu2]
      have h1 : (2 * x + u) / (2 * u) * (2 * u) ≤ 2 * x + u := Int.ediv_mul_le _ (by omega)
      have h2 : 2 * x + u < ((2 * x + u) / (2 * u) + 1) * (2 * u) := Int.lt_ediv_add_one_mul_self _ (by omega)
      refine ⟨Dvd.intro_left _ rfl, ?_, ?_⟩
      · generalize (2 * x + u) / (2 * u) = k at *
        have e : k * (2 * u) = 2 * (k * u) := by ring
        have e2 : (k + 1) * (2 * u) = 2 * (k * u) + 2 * u := by ring
        rw [e] at h1; rw [e2] at h2
        have : |x - k * u| ≤ u / 2 := by rw [abs_le]; omega
        omega
      · generalize (2 * x + u) / (2 * u) = k at *
        have e : k * (2 * u) = 2 * (k * u) := by ring
        have e2 : (k + 1) * (2 * u) = 2 * (k * u) + 2 * u := by ring
        rw [e] at h1; rw [e2] at h2
        generalize k * u = m at *
        intro ht
        rcases abs_cases (x - m) with ⟨a, b⟩ | ⟨a, b⟩ <;> rcases abs_cases x with ⟨c, d⟩ | ⟨c, d⟩ <;>
          rcases abs_cases m with ⟨f, g⟩ | ⟨f, g⟩ <;> omega
    · rw [round_neg_eq hx1 (by omega) hu hu2]
      have h1 : (2 * -x + u) / (2 * u) * (2 * u) ≤ 2 * -x + u := Int.ediv_mul_le _ (by omega)
      have h2 : 2 * -x + u < ((2 * -x + u) / (2 * u) + 1) * (2 * u) := Int.lt_ediv_add_one_mul_self _ (by omega)
      refine ⟨Dvd.intro_left _ rfl, ?_, ?_⟩
      · generalize (2 * -x + u) / (2 * u) = k at *
        have e : k * (2 * u) = 2 * (k * u) := by ring
        have e2 : (k + 1) * (2 * u) = 2 * (k * u) + 2 * u := by ring
        rw [e] at h1; rw [e2] at h2
        rw [neg_mul]
        have : |x - -(k * u)| ≤ u / 2 := by rw [abs_le]; omega
        omega
      · generalize (2 * -x + u) / (2 * u) = k at *
        have e : k * (2 * u) = 2 * (k * u) := by ring
        have e2 : (k + 1) * (2 * u) = 2 * (k * u) + 2 * u := by ring
        rw [e] at h1; rw [e2] at h2
        rw [neg_mul]
        generalize k * u = m at *
        intro ht
        rcases abs_cases (x - -m) with ⟨a, b⟩ | ⟨a, b⟩ <;> rcases abs_cases x with ⟨c, d⟩ | ⟨c, d⟩ <;>
          rcases abs_cases (-m) with ⟨f, g⟩ | ⟨f, g⟩ <;> omega

example : round 887272 60 = 887280 := by decide +kernel
example : round (-15) 10 = -20 := by decide +kernel
example : floor (-7) 10 = -10 := by decide +kernel
-- the quotient really is inexact in float64
example : rnd (887272 / 60) ≠ 887272 / 60 := by decide +kernel

end Props
end Uni
