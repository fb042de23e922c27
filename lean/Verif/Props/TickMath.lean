import Verif.Proofs.TickMath
import Verif.Proofs.TickError
/-! # C14, C15, C16: tick/price conversion -/
namespace Uni
namespace Props
open U256 TickMath

/-- C14: the table lookup is defined exactly on [-887272, 887272], strictly increasing, with the documented
values at both ends and at 0. -/
theorem C14_table :
    (∀ t : Int, (∃ r, getSqrtRatioAtTick t = .ok r) ↔ (-887272 ≤ t ∧ t ≤ 887272)) ∧
    (∀ t : Int, ¬ (-887272 ≤ t ∧ t ≤ 887272) → getSqrtRatioAtTick t = .error .panic) ∧
    (∀ (s t : Int) (a b : U256), getSqrtRatioAtTick s = .ok a → getSqrtRatioAtTick t = .ok b → s < t →
      a.toNat < b.toNat) ∧
    getSqrtRatioAtTick (-887272) = .ok minSqrtRatio ∧
    getSqrtRatioAtTick 887272 = .ok maxSqrtRatio ∧
    getSqrtRatioAtTick 0 = .ok (ofNat (2 ^ 96)) := by
  refine ⟨?_, ?_, ?_, ?_, ?_, ?_⟩
  · intro t
    constructor
    · rintro ⟨r, hr⟩
      have := getSqrtRatioAtTick_ok hr
      exact ⟨this.1, this.2.1⟩
    · rintro ⟨h1, h2⟩
      obtain ⟨r, hr, _⟩ := getSqrtRatioAtTick_spec t h1 h2
      exact ⟨r, hr⟩
  · intro t h
    exact getSqrtRatioAtTick_panic t (by omega)
  · intro s t a b ha hb hst
    have h1 := getSqrtRatioAtTick_ok ha
    have h2 := getSqrtRatioAtTick_ok hb
    rw [h1.2.2, h2.2.2]
    exact ratioN_lt h1.1 hst h2.2.1
  · decide +kernel
  · decide +kernel
  · decide +kernel

/-- The model constants are the documented numbers. -/
theorem C14_constants : minSqrtRatio.toNat = 4295128739 ∧
    maxSqrtRatio.toNat = 1461446703485210103287273052203988822378723970342 :=
  ⟨toNat_minSqrtRatio, toNat_maxSqrtRatio⟩

example : getSqrtRatioAtTick 200000 = .ok (ofNat 1744244129640337381386292603617838) := by decide +kernel
example : getSqrtRatioAtTick 887273 = .error .panic := by decide +kernel

/-- C15: on [MinSqrtRatio, MaxSqrtRatio) the search terminates and returns the greatest tick whose price does
not exceed the argument; outside that range it panics. -/
theorem C15_tick_of_price (p : U256) :
    (minSqrtRatio.toNat ≤ p.toNat ∧ p.toNat < maxSqrtRatio.toNat →
      ∃ t lo hi, getTickAtSqrtRatio p = .ok t ∧ getSqrtRatioAtTick t = .ok lo ∧ getSqrtRatioAtTick (t + 1) = .ok hi ∧
        lo.toNat ≤ p.toNat ∧ p.toNat < hi.toNat ∧
        ∀ s r, getSqrtRatioAtTick s = .ok r → r.toNat ≤ p.toNat → s ≤ t) ∧
    (¬ (minSqrtRatio.toNat ≤ p.toNat ∧ p.toNat < maxSqrtRatio.toNat) → getTickAtSqrtRatio p = .error .panic) := by
  rw [toNat_minSqrtRatio, toNat_maxSqrtRatio]
  constructor
  · rintro ⟨h1, h2⟩
    obtain ⟨t, ht, a, b, c, d⟩ := getTickAtSqrtRatio_spec p h1 h2
    obtain ⟨lo, hlo, vlo⟩ := getSqrtRatioAtTick_spec t a (by omega)
    obtain ⟨hi, hhi, vhi⟩ := getSqrtRatioAtTick_spec (t + 1) (by omega) (by omega)
    refine ⟨t, lo, hi, ht, hlo, hhi, by omega, by omega, ?_⟩
    intro s r hs hr
    obtain ⟨s1, s2, sv⟩ := getSqrtRatioAtTick_ok hs
    by_contra hc
    have := ratioN_le (s := t + 1) (t := s) (by omega) (by omega) s2
    omega
  · intro h
    exact getTickAtSqrtRatio_panic p (by omega)

/-- C15: the two conversions are inverse on tick prices (below the maximum tick). -/
theorem C15_inverse (t : Int) (r : U256) (ht : t < 887272) (h : getSqrtRatioAtTick t = .ok r) :
    getTickAtSqrtRatio r = .ok t := by
  obtain ⟨h1, h2, hv⟩ := getSqrtRatioAtTick_ok h
  have hmin := ratioN_le (le_refl _) h1 h2
  have hmax := ratioN_lt h1 ht (le_refl _)
  rw [ratioN_min] at hmin
  rw [ratioN_max] at hmax
  obtain ⟨s, hs, a, b, c, d⟩ := getTickAtSqrtRatio_spec r (by omega) (by omega)
  rw [hs, tick_unique ⟨a, b⟩ ⟨h1, ht⟩ c d (by omega) (by rw [hv]; exact ratioN_lt h1 (by omega) (by omega))]

example : getTickAtSqrtRatio (ofNat 1744244129640337381386292603617839) = .ok 200000 := by decide +kernel
example : getTickAtSqrtRatio (ofNat 1744244129640337381386292603617837) = .ok 199999 := by decide +kernel

/-- C16: for every tick the returned price is `P = sqrt(1.0001)^t * 2^96` rounded up, with an absolute error below
`2^-26` for ticks at or below zero and an additional relative error of `P / 2^218` (below `2^-56`) for ticks above
zero. -/
theorem C16_price_error (t : Int) (r : U256) (h : getSqrtRatioAtTick t = .ok r) (P : ℝ)
    (hP : P = 2 ^ 96 * Real.sqrt 1.0001 ^ t) :
    (t ≤ 0 → P - 1 / 2 ^ 27 ≤ (r.toNat : ℝ) ∧ (r.toNat : ℝ) ≤ P + 1 + 1 / 2 ^ 28) ∧
    (0 < t → P - P ^ 2 / 2 ^ 218 - 1 / 2 ^ 31 ≤ (r.toNat : ℝ) ∧ (r.toNat : ℝ) ≤ P + 1 + P ^ 2 / 2 ^ 218) ∧
    P < 2 ^ 162 := by
  obtain ⟨h1, h2, hv⟩ := getSqrtRatioAtTick_ok h
  rw [show (1.0001 : ℝ) = 10001 / 10000 by norm_num] at hP
  have e : ∀ (h0 : 0 < t), P - P ^ 2 / 2 ^ 218 - 1 / 2 ^ 31 ≤ (r.toNat : ℝ) ∧ (r.toNat : ℝ) ≤ P + 1 + P ^ 2 / 2 ^ 218 := by
    intro h0
    obtain ⟨a, b⟩ := ratio_error_pos t h0 h2 P hP
    rw [hv]
    exact ⟨a, by linarith⟩
  refine ⟨?_, e, price_lt h1 h2 hP⟩
  intro h0
  obtain ⟨a, b⟩ := ratio_error_neg t h1 h0
  rw [hv, hP]
  exact ⟨a, b⟩

-- tick 1: sqrt(1.0001) * 2^96 = 79232123823359799118286999567.96...
example : getSqrtRatioAtTick 1 = .ok (ofNat 79232123823359799118286999568) := by decide +kernel

/-- The shift amounts `2^(k-1), ..., 2, 1`. -/
private def halves : Nat → List Nat
  | 0 => []
  | k + 1 => 2 ^ k :: halves k

private theorem msbLoop_spec (N k : Nat) (hk : k ≤ 8) (x : U256) (m : Nat) (h1 : N / 2 ^ m = x.toNat) (h2 : x.toNat < 2 ^ 2 ^ k) :
    N / 2 ^ msbLoop (halves k) x m < 2 ∧ (0 < x.toNat → 0 < N / 2 ^ msbLoop (halves k) x m) := by
  induction k generalizing x m with
  | zero =>
    show N / 2 ^ m < 2 ∧ (0 < x.toNat → 0 < N / 2 ^ m)
    rw [h1]
    exact ⟨by simpa using h2, id⟩
  | succ k ih =>
    have hp : 2 ^ k ≤ 2 ^ 7 := Nat.pow_le_pow_right (by omega) (by omega)
    have e : (exp (ofWord 2) (ofNat (2 ^ k))).toNat = 2 ^ 2 ^ k := by
      rw [toNat_exp, toNat_ofNat, Nat.mod_eq_of_lt (a := 2 ^ k) (by omega), show (ofWord 2).toNat = 2 by decide]
      apply Nat.mod_eq_of_lt
      exact Nat.pow_lt_pow_right (by omega) (by omega)
    have hsq : 2 ^ 2 ^ (k + 1) = 2 ^ 2 ^ k * 2 ^ 2 ^ k := by rw [Nat.pow_succ 2 k, Nat.mul_two, Nat.pow_add]
    show N / 2 ^ (if cmp x (exp (ofWord 2) (ofNat (2 ^ k))) ≥ 0 then msbLoop (halves k) (rsh x (2 ^ k)) (m + 2 ^ k)
      else msbLoop (halves k) x m) < 2 ∧ (0 < x.toNat → 0 < N / 2 ^ (if cmp x (exp (ofWord 2) (ofNat (2 ^ k))) ≥ 0 then
        msbLoop (halves k) (rsh x (2 ^ k)) (m + 2 ^ k) else msbLoop (halves k) x m))
    by_cases hc : cmp x (exp (ofWord 2) (ofNat (2 ^ k))) ≥ 0
    · rw [if_pos hc]
      rw [cmp_ge0, e] at hc
      obtain ⟨i1, i2⟩ := ih (by omega) (rsh x (2 ^ k)) (m + 2 ^ k) (by rw [toNat_rsh, ← h1, Nat.pow_add, Nat.div_div_eq_div_mul])
        (by rw [toNat_rsh]; rw [hsq] at h2; exact Nat.div_lt_of_lt_mul h2)
      refine ⟨i1, fun _ => i2 ?_⟩
      rw [toNat_rsh]
      exact Nat.div_pos hc (Nat.two_pow_pos _)
    · rw [if_neg hc]
      rw [cmp_ge0, e] at hc
      exact ih (by omega) x m h1 (by omega)

/-- C58: `MostSignificantBit` of a non-zero number is the position of its highest bit; for zero it is zero. -/
theorem C58_msb (x : U256) :
    (0 < x.toNat → 2 ^ mostSignificantBit x ≤ x.toNat ∧ x.toNat < 2 ^ (mostSignificantBit x + 1)) ∧
    (x = zero → mostSignificantBit x = 0) := by
  constructor
  · intro h0
    obtain ⟨h1, h2⟩ := msbLoop_spec x.toNat 8 (le_refl _) x 0 (by simp) (toNat_lt x)
    have h3 := h2 h0
    have e : msbLoop (halves 8) x 0 = mostSignificantBit x := rfl
    rw [e] at h1 h3
    rw [Nat.div_lt_iff_lt_mul (Nat.two_pow_pos _)] at h1
    refine ⟨(Nat.div_pos_iff.1 h3).2, ?_⟩
    rw [Nat.pow_succ]; omega
  · rintro rfl
    decide +kernel

example : mostSignificantBit (ofNat (2 ^ 200 + 12345)) = 200 ∧ mostSignificantBit allOne = 255 := by decide +kernel

end Props
end Uni
