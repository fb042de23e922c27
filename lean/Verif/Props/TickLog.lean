import Verif.Proofs.TickLog
import Verif.Props.TickMath
/-! # C79: the logarithm and the table agree -/
namespace Uni
namespace Props
open U256 TickMath

/-- C79: for every valid price the fourteen-bit logarithm and the binary search in the table find the same tick. -/
theorem C79_same_tick (p : U256) (h1 : minSqrtRatio.toNat ≤ p.toNat) (h2 : p.toNat < maxSqrtRatio.toNat) :
    ∃ t, getTickByLog p = .ok t ∧ getTickAtSqrtRatio p = .ok t := by
  rw [toNat_minSqrtRatio] at h1
  rw [toNat_maxSqrtRatio] at h2
  have e : (lsh p 32).toNat = p.toNat * 2 ^ 32 := by rw [toNat_lsh, Nat.mod_eq_of_lt (by omega)]
  obtain ⟨t, ht, a, b, c, d⟩ := getTickByLog_spec p h1 h2 ((C58_msb (lsh p 32)).1 (by omega))
  obtain ⟨s, hs, a', b', c', d'⟩ := getTickAtSqrtRatio_spec p h1 h2
  exact ⟨t, ht, by rw [hs, tick_unique ⟨a, b⟩ ⟨a', b'⟩ c d c' d']⟩

/-- C79: the logarithm finds the greatest tick whose price is at most the given one, whatever the price. -/
theorem C79_greatest (p : U256) (h1 : minSqrtRatio.toNat ≤ p.toNat) (h2 : p.toNat < maxSqrtRatio.toNat) :
    ∃ t r r', getTickByLog p = .ok t ∧ getSqrtRatioAtTick t = .ok r ∧ getSqrtRatioAtTick (t + 1) = .ok r' ∧
      r.toNat ≤ p.toNat ∧ p.toNat < r'.toNat := by
  obtain ⟨t, ht, hs⟩ := C79_same_tick p h1 h2
  obtain ⟨a, b, c, d⟩ := getTickAtSqrtRatio_ok hs
  obtain ⟨r, hr, hv⟩ := getSqrtRatioAtTick_spec t a (by omega)
  obtain ⟨r', hr', hv'⟩ := getSqrtRatioAtTick_spec (t + 1) (by omega) (by omega)
  exact ⟨t, r, r', ht, hr, hr', by omega, by omega⟩

/-- C79: the logarithm inverts the table at every tick but the last. -/
theorem C79_inverse (t : Int) (r : U256) (ht : t < maxTick) (h : getSqrtRatioAtTick t = .ok r) : getTickByLog r = .ok t := by
  rw [show maxTick = 887272 by decide] at ht
  obtain ⟨h1, h2, hv⟩ := getSqrtRatioAtTick_ok h
  have hmin := ratioN_le (le_refl _) h1 h2
  have hmax := ratioN_lt h1 ht (le_refl _)
  rw [ratioN_min] at hmin
  rw [ratioN_max] at hmax
  obtain ⟨s, hs, hs'⟩ := C79_same_tick r (by rw [toNat_minSqrtRatio]; omega) (by rw [toNat_maxSqrtRatio]; omega)
  rw [hs]
  rw [C15_inverse t r ht h] at hs'
  cases hs'
  rfl

-- both ends of the range, both sides of a tick, and a price for which the two candidates differ
example : getTickByLog minSqrtRatio = .ok (-887272) ∧ getTickByLog (sub maxSqrtRatio one) = .ok 887271 ∧
    getTickByLog (ofNat 1744244129640337381386292603617839) = .ok 200000 ∧
    getTickByLog (ofNat 1744244129640337381386292603617837) = .ok 199999 := by decide +kernel
example : shiftedTick (sub (logSqrt10001 (ofNat (2 ^ 96))) magicTickLow) = -1 ∧
    shiftedTick (add (logSqrt10001 (ofNat (2 ^ 96))) magicTickHigh) = 0 ∧ getTickByLog (ofNat (2 ^ 96)) = .ok 0 := by decide +kernel

end Props
end Uni
