import Verif.Proofs.Arith
import Verif.Proofs.FullMath
/-!
# Properties C01 – C08: the 256-bit integer type

`toNat x` is the number denoted by the four limbs (`w0 + 2^64 w1 + 2^128 w2 + 2^192 w3`), `toInt x` its two's
complement reading.  Every theorem relates the limb-level routine to plain arithmetic on those numbers.
-/
namespace Uni
namespace Props
open U256

/-! ## C01 -/

/-- C01: addition, subtraction and negation are exact modulo 2^256; overflow flags are exact. -/
theorem C01_add_sub_exact (x y : U256) (n : Word) :
    (add x y).toNat = (x.toNat + y.toNat) % 2 ^ 256 ∧
    ((sub x y).toNat : Int) = ((x.toNat : Int) - y.toNat) % 2 ^ 256 ∧
    ((neg x).toNat : Int) = (-(x.toNat : Int)) % 2 ^ 256 ∧
    (addUint64 x n).toNat = (x.toNat + n.toNat) % 2 ^ 256 ∧
    ((subUint64 x n).toNat : Int) = ((x.toNat : Int) - n.toNat) % 2 ^ 256 ∧
    (addOverflow x y).1 = add x y ∧ ((addOverflow x y).2 = true ↔ 2 ^ 256 ≤ x.toNat + y.toNat) ∧
    (subOverflow x y).1 = sub x y ∧ ((subOverflow x y).2 = true ↔ x.toNat < y.toNat) := by
  have hx := x.toNat_lt
  have hy := y.toNat_lt
  have hn := n.isLt
  refine ⟨toNat_add x y, ?_, neg_emod x, toNat_addUint64 x n, ?_, rfl, addOverflow_flag x y, rfl, subOverflow_flag x y⟩
  · rw [toNat_sub]; omega
  · rw [toNat_subUint64]; omega

/-- non-trivial instance: an overflowing addition -/
example : (addOverflow allOne (ofWord 5)).2 = true ∧ (add allOne (ofWord 5)).toNat = 4 := by decide +kernel

/-! ## C02 -/

/-- C02: full product, product modulo 2^256, exact overflow flag. -/
theorem C02_mul_exact (x y : U256) :
    (umul x y).length = 8 ∧ val (umul x y) = x.toNat * y.toNat ∧
    (mul x y).toNat = x.toNat * y.toNat % 2 ^ 256 ∧
    (squared x).toNat = x.toNat * x.toNat % 2 ^ 256 ∧
    (mulOverflow x y).1 = mul x y ∧ ((mulOverflow x y).2 = true ↔ 2 ^ 256 ≤ x.toNat * y.toNat) := by
  obtain ⟨h1, h2⟩ := mulOverflow_spec x y
  exact ⟨length_umul x y, val_umul x y, toNat_mul x y, toNat_squared x,
    ext_toNat (by rw [h1, toNat_mul]), h2⟩

example : (mulOverflow allOne allOne).2 = true ∧ (mul allOne allOne).toNat = 1 := by decide +kernel

/-! ## C03 -/

/-- C03: `Div` and `Mod` never panic and are exact; both give 0 for a zero divisor. -/
theorem C03_div_mod_exact (x y : U256) :
    ∃ q r, div x y = .ok q ∧ mod x y = .ok r ∧
      (y.toNat = 0 → q.toNat = 0 ∧ r.toNat = 0) ∧
      (y.toNat ≠ 0 → q.toNat * y.toNat + r.toNat = x.toNat ∧ r.toNat < y.toNat) := by
  obtain ⟨q, hq, hqv⟩ := div_spec x y
  obtain ⟨r, hr, hrv⟩ := mod_spec x y
  refine ⟨q, r, hq, hr, ?_, ?_⟩
  · intro h
    rw [if_pos h] at hrv
    rw [h, Nat.div_zero] at hqv
    exact ⟨hqv, hrv⟩
  · intro h
    rw [if_neg h] at hrv
    rw [hqv, hrv]
    exact ⟨by rw [Nat.mul_comm]; exact Nat.div_add_mod _ _, Nat.mod_lt _ (by omega)⟩

/-- C03: `Udivrem` on a dividend of any length (as used by `MulDiv`): whenever the quotient buffer has room
the result is the exact quotient and remainder. -/
theorem C03_udivrem_exact (n : Nat) (u : List Word) (d : U256) (hd : d.toNat ≠ 0) (hu : val u ≠ 0)
    (h1 : sigLen d.limbs ≤ sigLen u + 1) (h2 : sigLen u + 1 - sigLen d.limbs ≤ n) :
    ∃ quot rem, udivrem (List.replicate n 0) u d = .ok (quot, rem) ∧ quot.length = n ∧
      val quot * d.toNat + rem.toNat = val u ∧ rem.toNat < d.toNat := by
  obtain ⟨q, r, hr, hl, hdq, hv, hlt⟩ := udivrem_spec (List.replicate n 0) u d hd hu h1 (by simpa using h2)
  refine ⟨q, r, hr, by simpa using hl, ?_, hlt⟩
  rw [val_quot_zeros q _ n hdq]
  exact hv.symm

/-- C03: `Udivrem` returns exactly when divisor and dividend are not zero, the divisor has at most one word more than
the dividend, and the quotient buffer has room; in every other case it panics. -/
theorem C03_udivrem_returns (quot u : List Word) (d : U256) :
    ((∃ r, udivrem quot u d = .ok r) ↔ d.toNat ≠ 0 ∧ val u ≠ 0 ∧ sigLen d.limbs ≤ sigLen u + 1 ∧
      sigLen u + 1 ≤ quot.length + sigLen d.limbs) ∧
    ((∃ r, udivrem quot u d = .ok r) ∨ udivrem quot u d = .error .panic) := by
  by_cases c : d.toNat ≠ 0 ∧ val u ≠ 0 ∧ sigLen d.limbs ≤ sigLen u + 1 ∧ sigLen u + 1 ≤ quot.length + sigLen d.limbs
  · obtain ⟨q, r, hr, _⟩ := udivrem_spec quot u d c.1 c.2.1 c.2.2.1 (by omega)
    exact ⟨⟨fun _ => c, fun _ => ⟨_, hr⟩⟩, .inl ⟨_, hr⟩⟩
  · have hp : udivrem quot u d = .error .panic := by
      by_cases hd : d.toNat = 0
      · exact udivrem_zero _ _ _ (.inl hd)
      · by_cases hu : val u = 0
        · exact udivrem_zero _ _ _ (.inr hu)
        · exact udivrem_panic _ _ _ hd hu (by omega)
    refine ⟨⟨fun ⟨r, hr⟩ => ?_, fun h => absurd h c⟩, .inr hp⟩
    rw [hp] at hr
    cases hr

/-- C03: whenever `Udivrem` returns, whatever the buffer held before: the words it wrote are the exact quotient, the
words above them are as before, and the remainder is exact. -/
theorem C03_udivrem_sound (quot quot' u : List Word) (d rem : U256) (h : udivrem quot u d = .ok (quot', rem)) :
    ∃ k, quot'.length = quot.length ∧ quot'.drop k = quot.drop k ∧
      val (quot'.take k) = val u / d.toNat ∧ rem.toNat = val u % d.toNat := by
  obtain ⟨hd, hu, h1, h2⟩ := (C03_udivrem_returns quot u d).1.1 ⟨_, h⟩
  obtain ⟨q, r, hr, hl, hdq, hv, hlt⟩ := udivrem_spec quot u d hd hu h1 (by omega)
  rw [hr] at h
  cases h
  have hpos : 0 < d.toNat := by omega
  refine ⟨_, hl, hdq, ?_, ?_⟩
  · rw [hv, Nat.mul_comm, Nat.mul_add_div hpos, Nat.div_eq_of_lt hlt]; rfl
  · rw [hv, Nat.mul_comm, Nat.mul_add_mod, Nat.mod_eq_of_lt hlt]

/-- both outcomes: two words are written over old contents, and a divisor two words longer than the dividend -/
example : (∃ r, udivrem [7, 7, 7, 7] (ofNat (2 ^ 130 + 5)).limbs (ofNat (2 ^ 100)) = .ok r) ∧
    udivrem [0, 0, 0, 0] (ofNat 1).limbs (ofNat (2 ^ 128)) = .error .panic := by
  refine ⟨(C03_udivrem_returns _ _ _).1.2 (by decide +kernel), ?_⟩
  rcases (C03_udivrem_returns [0, 0, 0, 0] (ofNat 1).limbs (ofNat (2 ^ 128))).2 with h | h
  · exact absurd ((C03_udivrem_returns _ _ _).1.1 h) (by decide +kernel)
  · exact h

/-- a division that goes through the multi-word Knuth loop -/
example : div (ofNat (2 ^ 255 + 12345)) (ofNat (2 ^ 130 + 7)) = .ok (ofNat ((2 ^ 255 + 12345) / (2 ^ 130 + 7))) ∧
    mod (ofNat (2 ^ 255 + 12345)) (ofNat (2 ^ 130 + 7)) = .ok (ofNat ((2 ^ 255 + 12345) % (2 ^ 130 + 7))) := by
  decide +kernel

/-! ## C04 -/

/-- C04: the comparisons decide the numeric order (unsigned and two's complement). -/
theorem C04_comparisons (x y : U256) (n : Word) :
    (cmp x y = -1 ↔ x.toNat < y.toNat) ∧ (cmp x y = 0 ↔ x = y) ∧ (cmp x y = 1 ↔ y.toNat < x.toNat) ∧
    (lt x y = true ↔ x.toNat < y.toNat) ∧ (gt x y = true ↔ y.toNat < x.toNat) ∧ (eq x y = true ↔ x = y) ∧
    (isZero x = true ↔ x.toNat = 0) ∧ (isUint64 x = true ↔ x.toNat < 2 ^ 64) ∧
    (ltUint64 x n = true ↔ x.toNat < n.toNat) ∧ (gtUint64 x n = true ↔ n.toNat < x.toNat) ∧
    (slt x y = true ↔ x.toInt < y.toInt) ∧ (sgt x y = true ↔ y.toInt < x.toInt) ∧
    (sign x = if x.toInt < 0 then -1 else if x.toInt = 0 then 0 else 1) := by
  refine ⟨cmp_neg_iff x y, ?_, cmp_pos_iff x y, lt_iff x y, gt_iff x y, eq_iff x y, isZero_iff x, isUint64_iff x,
    ltUint64_iff x n, gtUint64_iff x n, slt_iff x y, sgt_iff x y, ?_⟩
  · rw [cmp_zero_iff, toNat_inj]
  · rw [sign_eq_toInt]
    rcases lt_trichotomy x.toInt 0 with h | h | h
    · rw [if_pos h, Int.sign_eq_neg_one_of_neg h]
    · rw [if_neg (by omega), if_pos h, h]; rfl
    · rw [if_neg (by omega), if_neg (by omega), Int.sign_eq_one_of_pos h]

/-- the two's complement reading is the usual one and distinguishes all values -/
theorem C04_toInt (x y : U256) : (-2 ^ 255 ≤ x.toInt ∧ x.toInt < 2 ^ 255) ∧ x.toInt % 2 ^ 256 = x.toNat ∧
    (x.toInt = y.toInt ↔ x = y) ∧ (x.toNat = y.toNat ↔ x = y) :=
  ⟨toInt_range x, toInt_emod x, toInt_inj, toNat_inj⟩

example : slt allOne one = true ∧ lt allOne one = false := by decide +kernel

/-! ## C05 -/

/-- C05: left shift multiplies, right shift is floor division, arithmetic right shift is floor division of the
two's complement value — for every shift width. -/
theorem C05_shifts (x : U256) (n : Nat) :
    (lsh x n).toNat = x.toNat * 2 ^ n % 2 ^ 256 ∧ (rsh x n).toNat = x.toNat / 2 ^ n ∧
    (srsh x n).toInt = x.toInt / 2 ^ n :=
  ⟨toNat_lsh x n, toNat_rsh x n, toInt_srsh x n⟩

example : (srsh (neg (ofWord 12345)) 70).toInt = -1 ∧ (lsh (ofWord 3) 130).toNat = 3 * 2 ^ 130 := by decide +kernel

/-! ## C06 -/

/-- C06 -/
theorem C06_exp (base exponent : U256) : (exp base exponent).toNat = base.toNat ^ exponent.toNat % 2 ^ 256 :=
  toNat_exp base exponent

example : (exp (ofWord 3) (ofWord 170)).toNat = 3 ^ 170 % 2 ^ 256 := by decide +kernel

/-! ## C07 -/

/-- C07: 130 iterations of the Newton loop always suffice, and the result is the floor of the square root. -/
theorem C07_sqrt (x : U256) (fuel : Nat) (hf : 130 ≤ fuel) :
    ∃ z, sqrtFuel fuel x = .ok z ∧ z.toNat * z.toNat ≤ x.toNat ∧ x.toNat < (z.toNat + 1) * (z.toNat + 1) :=
  sqrtFuel_spec x fuel hf

example : sqrtFuel 130 (ofNat (10 ^ 60 + 12345)) = .ok (ofNat (10 ^ 30)) := by decide +kernel

/-! ## C08 -/

/-- C08: `SDiv` truncates towards zero (0 for a zero divisor; `MinInt / -1` wraps because the quotient is taken
modulo 2^256), `SMod` takes the sign of the dividend, `Abs` is the absolute value (2^255 for `MinInt`). -/
theorem C08_signed (x y : U256) :
    (∃ q, sdiv x y = .ok q ∧ (q.toNat : Int) = x.toInt.tdiv y.toInt % 2 ^ 256 ∧
      (¬ (x.toInt = -2 ^ 255 ∧ y.toInt = -1) → q.toInt = x.toInt.tdiv y.toInt)) ∧
    (∃ r, smod x y = .ok r ∧ r.toInt = if y.toInt = 0 then 0 else x.toInt.tmod y.toInt) ∧
    (abs x).toNat = x.toInt.natAbs := by
  refine ⟨?_, smod_spec x y, toNat_abs x⟩
  obtain ⟨q, h1, h2⟩ := sdiv_spec x y
  refine ⟨q, h1, h2, ?_⟩
  intro hne
  have hx := toInt_range x
  have hq : |x.toInt.tdiv y.toInt| ≤ 2 ^ 255 := by
    have hxa : x.toInt.natAbs ≤ 2 ^ 255 := by omega
    have : (x.toInt.tdiv y.toInt).natAbs ≤ x.toInt.natAbs := by
      rw [Int.natAbs_tdiv]; exact Nat.div_le_self _ _
    rw [Int.abs_eq_natAbs]
    omega
  have hq2 : x.toInt.tdiv y.toInt ≠ 2 ^ 255 := by
    intro he
    apply hne
    have h3 : x.toInt.natAbs / y.toInt.natAbs = 2 ^ 255 := by
      have h4 := Int.natAbs_tdiv x.toInt y.toInt
      rw [he] at h4
      exact h4.symm
    have hxa : x.toInt.natAbs ≤ 2 ^ 255 := by omega
    have hy1 : y.toInt.natAbs = 1 := by
      rcases Nat.lt_trichotomy y.toInt.natAbs 1 with h | h | h
      · have : y.toInt.natAbs = 0 := by omega
        rw [this, Nat.div_zero] at h3
        norm_num at h3
      · exact h
      · have : x.toInt.natAbs / y.toInt.natAbs < 2 ^ 255 := by
          rw [Nat.div_lt_iff_lt_mul (by omega)]
          have : 2 ^ 255 * 2 ≤ 2 ^ 255 * y.toInt.natAbs := Nat.mul_le_mul_left _ h
          omega
        omega
    rw [hy1, Nat.div_one] at h3
    rcases Int.natAbs_eq y.toInt with hy | hy
    · rw [hy1] at hy
      rw [hy] at he
      have : x.toInt.tdiv ((1 : Nat) : Int) = x.toInt := Int.tdiv_one _
      rw [this] at he
      omega
    · rw [hy1] at hy
      exact ⟨by rw [hy] at he
                have : x.toInt.tdiv (-((1 : Nat) : Int)) = -x.toInt := by
                  rw [Int.tdiv_neg]; congr 1; exact Int.tdiv_one _
                rw [this] at he
                omega, by simpa using hy⟩
  have hr := toInt_range q
  have he := toInt_emod q
  rw [abs_le] at hq
  omega

/-- C08: the wrapping corner case really wraps -/
theorem C08_minInt_div_neg_one : sdiv (ofNat (2 ^ 255)) allOne = .ok (ofNat (2 ^ 255)) := by decide +kernel

example : sdiv (neg (ofWord 7)) (ofWord 2) = .ok (neg (ofWord 3)) ∧ smod (neg (ofWord 7)) (ofWord 2) = .ok (neg (ofWord 1)) := by
  decide +kernel

/-- modular addition (vendored `AddMod`): exact although the sum needs 257 bits -/
theorem C08_addMod (x y m : U256) : ∃ z, addMod x y m = .ok z ∧
    z.toNat = if m.toNat = 0 then 0 else (x.toNat + y.toNat) % m.toNat := addMod_spec x y m

example : addMod allOne allOne (ofWord 10) = .ok (ofWord 0) := by decide +kernel

end Props
end Uni
