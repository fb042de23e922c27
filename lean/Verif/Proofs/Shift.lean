import Verif.Proofs.Div
/-! Shifts. -/
namespace Uni
namespace U256

/-- The limb formula for a shift by less than a word. -/
def shlSmall (x : U256) (m : Nat) : U256 :=
  ⟨x.w0 <<< m, (x.w1 <<< m) ||| (x.w0 >>> (64 - m)), (x.w2 <<< m) ||| (x.w1 >>> (64 - m)),
    (x.w3 <<< m) ||| (x.w2 >>> (64 - m))⟩

theorem toNat_shlSmall (x : U256) (m : Nat) (hm : m < 64) : (shlSmall x m).toNat = x.toNat * 2 ^ m % 2 ^ 256 := by
  have h := val_shlWords m hm x.limbs 0
  have h2 : val (shlWords m 0 x.limbs) = (shlSmall x m).toNat := by
    rw [← val_limbs]
    simp only [limbs, shlWords, shlSmall]
    simp
  rw [h2, val_limbs] at h
  simp only [word_toNat_zero, Nat.zero_div, Nat.add_zero] at h
  have hl : x.limbs.length = 4 := rfl
  rw [hl] at h
  have := (shlSmall x m).toNat_lt
  rw [← h]
  omega

theorem toNat_lsh64 (x : U256) : (lsh64 x).toNat = x.toNat * 2 ^ 64 % 2 ^ 256 := by
  have h0 := x.w0.isLt; have h1 := x.w1.isLt; have h2 := x.w2.isLt; have h3 := x.w3.isLt
  simp only [lsh64, toNat, word_toNat_zero]; omega
theorem toNat_lsh128 (x : U256) : (lsh128 x).toNat = x.toNat * 2 ^ 128 % 2 ^ 256 := by
  have h0 := x.w0.isLt; have h1 := x.w1.isLt; have h2 := x.w2.isLt; have h3 := x.w3.isLt
  simp only [lsh128, toNat, word_toNat_zero]; omega
theorem toNat_lsh192 (x : U256) : (lsh192 x).toNat = x.toNat * 2 ^ 192 % 2 ^ 256 := by
  have h0 := x.w0.isLt; have h1 := x.w1.isLt; have h2 := x.w2.isLt; have h3 := x.w3.isLt
  simp only [lsh192, toNat, word_toNat_zero]; omega

theorem shl_compose (x k m : Nat) : (x * 2 ^ k % 2 ^ 256) * 2 ^ m % 2 ^ 256 = x * 2 ^ (k + m) % 2 ^ 256 := by
  rw [Nat.mod_mul_mod, pow_add, Nat.mul_assoc]

theorem shl_big (x n : Nat) (h : 256 ≤ n) : x * 2 ^ n % 2 ^ 256 = 0 := by
  rw [show n = 256 + (n - 256) by omega, pow_add, Nat.mul_left_comm, Nat.mul_mod_right]

theorem toNat_lsh (x : U256) (n : Nat) : (lsh x n).toNat = x.toNat * 2 ^ n % 2 ^ 256 := by
  unfold lsh
  by_cases h0 : n % 64 = 0
  · rw [if_pos h0]
    by_cases h1 : n = 0
    · rw [if_pos h1, h1]; have := x.toNat_lt; omega
    rw [if_neg h1]
    by_cases h2 : n = 64
    · rw [if_pos h2, h2, toNat_lsh64]
    rw [if_neg h2]
    by_cases h3 : n = 128
    · rw [if_pos h3, h3, toNat_lsh128]
    rw [if_neg h3]
    by_cases h4 : n = 192
    · rw [if_pos h4, h4, toNat_lsh192]
    rw [if_neg h4, shl_big _ _ (by omega), toNat_zero]
  · rw [if_neg h0]
    by_cases h1 : 192 < n
    · rw [if_pos h1]
      by_cases h2 : 256 < n
      · rw [if_pos h2, shl_big _ _ (by omega), toNat_zero]
      · rw [if_neg h2]
        have e : shlSmall (lsh192 x) (n - 192) = ⟨0, 0, 0, (x.w0 <<< (n - 192)) ||| 0⟩ := by
          simp [shlSmall, lsh192]
        have := toNat_shlSmall (lsh192 x) (n - 192) (by omega)
        rw [toNat_lsh192, shl_compose, show 192 + (n - 192) = n by omega, e] at this
        exact this
    · rw [if_neg h1]
      by_cases h2 : 128 < n
      · rw [if_pos h2]
        have e : shlSmall (lsh128 x) (n - 128) = ⟨0, 0, (x.w0 <<< (n - 128)) ||| 0,
            (x.w1 <<< (n - 128)) ||| (x.w0 >>> (64 - (n - 128)))⟩ := by
          simp [shlSmall, lsh128]
        have := toNat_shlSmall (lsh128 x) (n - 128) (by omega)
        rw [toNat_lsh128, shl_compose, show 128 + (n - 128) = n by omega, e] at this
        exact this
      · rw [if_neg h2]
        by_cases h3 : 64 < n
        · rw [if_pos h3]
          have e : shlSmall (lsh64 x) (n - 64) = ⟨0, (x.w0 <<< (n - 64)) ||| 0,
              (x.w1 <<< (n - 64)) ||| (x.w0 >>> (64 - (n - 64))), (x.w2 <<< (n - 64)) ||| (x.w1 >>> (64 - (n - 64)))⟩ := by
            simp [shlSmall, lsh64]
          have := toNat_shlSmall (lsh64 x) (n - 64) (by omega)
          rw [toNat_lsh64, shl_compose, show 64 + (n - 64) = n by omega, e] at this
          exact this
        · rw [if_neg h3]
          exact toNat_shlSmall x n (by omega)

/-- Limb formula for a right shift by less than a word, with `top` shifted in. -/
def shrSmall (x : U256) (m : Nat) (top : Word) : U256 :=
  ⟨(x.w0 >>> m) ||| (x.w1 <<< (64 - m)), (x.w1 >>> m) ||| (x.w2 <<< (64 - m)),
    (x.w2 >>> m) ||| (x.w3 <<< (64 - m)), (x.w3 >>> m) ||| (top <<< (64 - m))⟩

theorem mod_shift (w m : Nat) (hm : m < 64) : w * 2 ^ (64 - m) % 2 ^ 64 = (w % 2 ^ m) * 2 ^ (64 - m) := by
  have h64 : (2 : Nat) ^ 64 = 2 ^ m * 2 ^ (64 - m) := by rw [← pow_add]; congr 1; omega
  rw [h64, Nat.mul_mod_mul_right]

/-- Shifting right with `top` as a fifth limb. -/
theorem toNat_shrSmall (x : U256) (m : Nat) (hm : m < 64) (top : Word) :
    (shrSmall x m top).toNat = x.toNat / 2 ^ m + 2 ^ (256 - m) * (top.toNat % 2 ^ m) := by
  simp only [shrSmall, toNat, shr_or_shl _ _ m hm, mod_shift _ m hm]
  have h64 : (2 : Nat) ^ 64 = 2 ^ m * 2 ^ (64 - m) := by rw [← pow_add]; congr 1; omega
  have h256 : (2 : Nat) ^ (256 - m) = 2 ^ 192 * 2 ^ (64 - m) := by rw [← pow_add]; congr 1; omega
  have d0 := Nat.mod_add_div x.w0.toNat (2 ^ m)
  have d1 := Nat.mod_add_div x.w1.toNat (2 ^ m)
  have d2 := Nat.mod_add_div x.w2.toNat (2 ^ m)
  have d3 := Nat.mod_add_div x.w3.toNat (2 ^ m)
  have hb : x.w0.toNat % 2 ^ m < 2 ^ m := Nat.mod_lt _ (by positivity)
  rw [h256]
  generalize x.w0.toNat % 2 ^ m = b0 at *
  generalize x.w1.toNat % 2 ^ m = b1 at *
  generalize x.w2.toNat % 2 ^ m = b2 at *
  generalize x.w3.toNat % 2 ^ m = b3 at *
  generalize top.toNat % 2 ^ m = t at *
  generalize x.w0.toNat / 2 ^ m = a0 at *
  generalize x.w1.toNat / 2 ^ m = a1 at *
  generalize x.w2.toNat / 2 ^ m = a2 at *
  generalize x.w3.toNat / 2 ^ m = a3 at *
  have hx : x.w0.toNat + 2 ^ 64 * x.w1.toNat + 2 ^ 128 * x.w2.toNat + 2 ^ 192 * x.w3.toNat =
      b0 + 2 ^ m * (a0 + b1 * 2 ^ (64 - m) + 2 ^ 64 * (a1 + b2 * 2 ^ (64 - m)) + 2 ^ 128 * (a2 + b3 * 2 ^ (64 - m))
        + 2 ^ 192 * a3) := by
    rw [← d0, ← d1, ← d2, ← d3]
    rw [show (2 : Nat) ^ 192 = 2 ^ 64 * 2 ^ 128 by norm_num, show (2 : Nat) ^ 128 = 2 ^ 64 * 2 ^ 64 by norm_num]
    zify at h64 ⊢
    linear_combination (b1 + 2 ^ 64 * b2 + 2 ^ 64 * 2 ^ 64 * b3 : Int) * h64
  rw [hx, Nat.add_mul_div_left _ _ (by positivity), Nat.div_eq_of_lt hb]
  ring

theorem toNat_rsh64 (x : U256) : (rsh64 x).toNat = x.toNat / 2 ^ 64 := by
  have h0 := x.w0.isLt; have h1 := x.w1.isLt; have h2 := x.w2.isLt; have h3 := x.w3.isLt
  simp only [rsh64, toNat, word_toNat_zero]; omega
theorem toNat_rsh128 (x : U256) : (rsh128 x).toNat = x.toNat / 2 ^ 128 := by
  have h0 := x.w0.isLt; have h1 := x.w1.isLt; have h2 := x.w2.isLt; have h3 := x.w3.isLt
  simp only [rsh128, toNat, word_toNat_zero]; omega
theorem toNat_rsh192 (x : U256) : (rsh192 x).toNat = x.toNat / 2 ^ 192 := by
  have h0 := x.w0.isLt; have h1 := x.w1.isLt; have h2 := x.w2.isLt; have h3 := x.w3.isLt
  simp only [rsh192, toNat, word_toNat_zero]; omega

theorem shr_big (x : U256) (n : Nat) (h : 256 ≤ n) : x.toNat / 2 ^ n = 0 :=
  Nat.div_eq_of_lt (lt_of_lt_of_le x.toNat_lt (Nat.pow_le_pow_right (by norm_num) h))

theorem toNat_shrSmall_zero (x : U256) (m : Nat) (hm : m < 64) : (shrSmall x m 0).toNat = x.toNat / 2 ^ m := by
  rw [toNat_shrSmall x m hm]; simp

theorem toNat_rsh (x : U256) (n : Nat) : (rsh x n).toNat = x.toNat / 2 ^ n := by
  unfold rsh
  by_cases h0 : n % 64 = 0
  · rw [if_pos h0]
    by_cases h1 : n = 0
    · rw [if_pos h1, h1]; simp
    rw [if_neg h1]
    by_cases h2 : n = 64
    · rw [if_pos h2, h2, toNat_rsh64]
    rw [if_neg h2]
    by_cases h3 : n = 128
    · rw [if_pos h3, h3, toNat_rsh128]
    rw [if_neg h3]
    by_cases h4 : n = 192
    · rw [if_pos h4, h4, toNat_rsh192]
    rw [if_neg h4, shr_big _ _ (by omega), toNat_zero]
  · rw [if_neg h0]
    by_cases h1 : 192 < n
    · rw [if_pos h1]
      by_cases h2 : 256 < n
      · rw [if_pos h2, shr_big _ _ (by omega), toNat_zero]
      · rw [if_neg h2]
        have e : shrSmall (rsh192 x) (n - 192) 0 = ⟨(x.w3 >>> (n - 192)) ||| 0, 0, 0, 0⟩ := by
          simp [shrSmall, rsh192]
        have := toNat_shrSmall_zero (rsh192 x) (n - 192) (by omega)
        rw [toNat_rsh192, Nat.div_div_eq_div_mul, ← pow_add, show 192 + (n - 192) = n by omega, e] at this
        exact this
    · rw [if_neg h1]
      by_cases h2 : 128 < n
      · rw [if_pos h2]
        have e : shrSmall (rsh128 x) (n - 128) 0 = ⟨(x.w2 >>> (n - 128)) ||| (x.w3 <<< (64 - (n - 128))),
            (x.w3 >>> (n - 128)) ||| 0, 0, 0⟩ := by
          simp [shrSmall, rsh128]
        have := toNat_shrSmall_zero (rsh128 x) (n - 128) (by omega)
        rw [toNat_rsh128, Nat.div_div_eq_div_mul, ← pow_add, show 128 + (n - 128) = n by omega, e] at this
        exact this
      · rw [if_neg h2]
        by_cases h3 : 64 < n
        · rw [if_pos h3]
          have e : shrSmall (rsh64 x) (n - 64) 0 = ⟨(x.w1 >>> (n - 64)) ||| (x.w2 <<< (64 - (n - 64))),
              (x.w2 >>> (n - 64)) ||| (x.w3 <<< (64 - (n - 64))), (x.w3 >>> (n - 64)) ||| 0, 0⟩ := by
            simp [shrSmall, rsh64]
          have := toNat_shrSmall_zero (rsh64 x) (n - 64) (by omega)
          rw [toNat_rsh64, Nat.div_div_eq_div_mul, ← pow_add, show 64 + (n - 64) = n by omega, e] at this
          exact this
        · rw [if_neg h3]
          have e : shrSmall x n 0 = ⟨(x.w0 >>> n) ||| (x.w1 <<< (64 - n)),
              (x.w1 >>> n) ||| (x.w2 <<< (64 - n)), (x.w2 >>> n) ||| (x.w3 <<< (64 - n)), x.w3 >>> n⟩ := by
            simp [shrSmall]
          have := toNat_shrSmall_zero x n (by omega)
          rw [e] at this
          exact this

theorem toNat_rsh1 (x : U256) : (rsh1 x).toNat = x.toNat / 2 := by
  have := toNat_shrSmall_zero x 1 (by omega)
  have e : shrSmall x 1 0 = rsh1 x := by simp [shrSmall, rsh1]
  rwa [e, pow_one] at this

/-! ### Arithmetic right shift -/

theorem isBitSet_255 (x : U256) : x.isBitSet 255 = true ↔ 2 ^ 255 ≤ x.toNat := by
  have h := w3_lt_iff x
  rw [word_lt_iff] at h
  have e : x.isBitSet 255 = (x.w3 &&& 0x8000000000000000#64 != 0) := rfl
  rw [e]
  have hm : (x.w3 &&& 0x8000000000000000#64).toNat = if x.w3.toNat < 2 ^ 63 then 0 else 2 ^ 63 := by
    have e8 : (0x8000000000000000#64 : Word) = BitVec.twoPow 64 63 := by decide
    have hw := x.w3.isLt
    rw [e8, BitVec.and_twoPow, BitVec.getLsbD, Nat.testBit_eq_decide_div_mod_eq]
    by_cases h1 : x.w3.toNat < 2 ^ 63
    · have h2 : x.w3.toNat / 2 ^ 63 = 0 := by omega
      rw [if_pos h1, h2]; rfl
    · have h2 : x.w3.toNat / 2 ^ 63 = 1 := by omega
      rw [if_neg h1, h2]; rfl
  have h8 : (0x8000000000000000#64 : Word).toNat = 2 ^ 63 := rfl
  rw [h8] at h
  constructor
  · intro hb
    by_contra hc
    have h1 : x.w3.toNat < 2 ^ 63 := h.2 (by omega)
    rw [if_pos h1] at hm
    have : x.w3 &&& 0x8000000000000000#64 = 0 := word_ext hm
    rw [this] at hb
    simp at hb
  · intro hb
    have h1 : ¬ x.w3.toNat < 2 ^ 63 := fun h2 => by have := h.1 h2; omega
    rw [if_neg h1] at hm
    rw [bne_iff_ne]
    intro h0
    rw [h0] at hm
    simp at hm

/-- Floor division of the two's complement value of a negative word. -/
theorem sra_value (x n : Nat) (hn : n ≤ 256) :
    ((x : Int) - 2 ^ 256) / 2 ^ n = (x / 2 ^ n + (2 ^ 256 - 2 ^ (256 - n)) : Nat) - 2 ^ 256 := by
  have e : (2 : Int) ^ 256 = 2 ^ n * 2 ^ (256 - n) := by rw [← pow_add]; congr 1; omega
  have hle : (2 : Nat) ^ (256 - n) ≤ 2 ^ 256 := Nat.pow_le_pow_right (by norm_num) (by omega)
  rw [Int.sub_eq_add_neg, e, ← Int.mul_neg, Int.add_mul_ediv_left _ _ (by positivity), ← e]
  rw [Nat.cast_add, Nat.cast_sub hle]
  push_cast
  ring

theorem toNat_shrSmall_ones (x : U256) (m : Nat) (hm : m < 64) :
    (shrSmall x m (BitVec.allOnes 64)).toNat = x.toNat / 2 ^ m + (2 ^ 256 - 2 ^ (256 - m)) := by
  rw [toNat_shrSmall x m hm]
  congr 1
  have h1 : (BitVec.allOnes 64).toNat % 2 ^ m = 2 ^ m - 1 := by
    rw [BitVec.toNat_allOnes]
    have h64 : (2 : Nat) ^ 64 = 2 ^ m * 2 ^ (64 - m) := by rw [← pow_add]; congr 1; omega
    have hp : 0 < (2 : Nat) ^ (64 - m) := by positivity
    have hp2 : 0 < (2 : Nat) ^ m := by positivity
    obtain ⟨k, hk⟩ : ∃ k, (2 : Nat) ^ (64 - m) = k + 1 := ⟨2 ^ (64 - m) - 1, by omega⟩
    rw [h64, hk, Nat.mul_add, Nat.mul_one]
    rw [show 2 ^ m * k + 2 ^ m - 1 = 2 ^ m * k + (2 ^ m - 1) by omega, Nat.mul_add_mod]
    exact Nat.mod_eq_of_lt (by omega)
  rw [h1, Nat.mul_sub, Nat.mul_one, ← pow_add, show 256 - m + m = 256 by omega]

theorem toInt_of_ge {x : U256} (h : 2 ^ 255 ≤ x.toNat) : x.toInt = x.toNat - 2 ^ 256 := by
  unfold toInt
  rw [if_neg (by omega)]

/-- The pieces of `SRsh` for negative values. -/
theorem toNat_srsh_neg (x : U256) (n : Nat) (h : 2 ^ 255 ≤ x.toNat) (hn : n ≤ 256) :
    (srsh x n).toNat = x.toNat / 2 ^ n + (2 ^ 256 - 2 ^ (256 - n)) := by
  unfold srsh
  have hb := (isBitSet_255 x).2 h
  rw [hb, if_neg (by simp)]
  have ho : ∀ m : Nat, 0 < m → m < 64 → BitVec.allOnes 64 >>> m ||| BitVec.allOnes 64 <<< (64 - m) = BitVec.allOnes 64 := by
    intro m h1 h2
    apply word_ext
    rw [shr_or_shl _ _ m h2, mod_shift _ m h2, BitVec.toNat_allOnes]
    have h64 : (2 : Nat) ^ 64 = 2 ^ m * 2 ^ (64 - m) := by rw [← pow_add]; congr 1; omega
    have hp : 0 < (2 : Nat) ^ (64 - m) := by positivity
    have hp2 : 0 < (2 : Nat) ^ m := by positivity
    obtain ⟨k, hk⟩ : ∃ k, (2 : Nat) ^ (64 - m) = k + 1 := ⟨2 ^ (64 - m) - 1, by omega⟩
    have e : (2 : Nat) ^ 64 - 1 = 2 ^ m * k + (2 ^ m - 1) := by rw [h64, hk, Nat.mul_add, Nat.mul_one]; omega
    rw [e, Nat.mul_add_mod, Nat.mod_eq_of_lt (show 2 ^ m - 1 < 2 ^ m by omega), Nat.mul_add_div hp2,
      Nat.div_eq_of_lt (show 2 ^ m - 1 < 2 ^ m by omega), Nat.sub_mul, hk, Nat.mul_add, Nat.mul_one]
    have : 2 ^ m * k ≥ k := Nat.le_mul_of_pos_left k hp2
    omega
  have h0 := x.w0.isLt; have h1 := x.w1.isLt; have h2 := x.w2.isLt; have h3 := x.w3.isLt
  have hao : (BitVec.allOnes 64).toNat = 2 ^ 64 - 1 := BitVec.toNat_allOnes
  have s64 : (srsh64 x).toNat = x.toNat / 2 ^ 64 + (2 ^ 256 - 2 ^ (256 - 64)) := by
    simp only [srsh64, toNat, hao]; omega
  have s128 : (srsh128 x).toNat = x.toNat / 2 ^ 128 + (2 ^ 256 - 2 ^ (256 - 128)) := by
    simp only [srsh128, toNat, hao]; omega
  have s192 : (srsh192 x).toNat = x.toNat / 2 ^ 192 + (2 ^ 256 - 2 ^ (256 - 192)) := by
    simp only [srsh192, toNat, hao]; omega
  have comp : ∀ k : Nat, ∀ z : U256, k ≤ n → n - k < 64 → z.toNat = x.toNat / 2 ^ k + (2 ^ 256 - 2 ^ (256 - k)) →
      (shrSmall z (n - k) (BitVec.allOnes 64)).toNat = x.toNat / 2 ^ n + (2 ^ 256 - 2 ^ (256 - n)) := by
    intro k z hk hlt hz
    have e1 := toNat_shrSmall_ones z (n - k) hlt
    rw [e1, hz]
    have p1 : (2 : Nat) ^ (256 - k) = 2 ^ (n - k) * 2 ^ (256 - n) := by rw [← pow_add]; congr 1; omega
    have p2 : (2 : Nat) ^ 256 = 2 ^ (n - k) * 2 ^ (256 - (n - k)) := by rw [← pow_add]; congr 1; omega
    have p3 : (2 : Nat) ^ (256 - n) ≤ 2 ^ (256 - (n - k)) := Nat.pow_le_pow_right (by norm_num) (by omega)
    have p4 : (2 : Nat) ^ (256 - (n - k)) ≤ 2 ^ 256 := Nat.pow_le_pow_right (by norm_num) (by omega)
    have e2 : (2 : Nat) ^ 256 - 2 ^ (256 - k) = 2 ^ (n - k) * (2 ^ (256 - (n - k)) - 2 ^ (256 - n)) := by
      rw [Nat.mul_sub, ← p1, ← p2]
    rw [e2, Nat.add_mul_div_left _ _ (by positivity), Nat.div_div_eq_div_mul, ← pow_add, show k + (n - k) = n by omega]
    omega
  by_cases c0 : n % 64 = 0
  · rw [if_pos c0]
    by_cases c1 : n = 0
    · rw [if_pos c1, c1]; simp
    rw [if_neg c1]
    by_cases c2 : n = 64
    · rw [if_pos c2, c2]; exact s64
    rw [if_neg c2]
    by_cases c3 : n = 128
    · rw [if_pos c3, c3]; exact s128
    rw [if_neg c3]
    by_cases c4 : n = 192
    · rw [if_pos c4, c4]; exact s192
    have : n = 256 := by omega
    subst this
    rw [if_neg c4, shr_big _ _ (by omega), toNat_allOne]; norm_num
  · rw [if_neg c0]
    dsimp only
    by_cases c1 : 192 < n
    · rw [if_pos c1, if_neg (by omega)]
      have := comp 192 (srsh192 x) (by omega) (by omega) s192
      have hm : n % 64 = n - 192 := by omega
      rw [← this, hm]
      congr 1
      simp only [shrSmall, srsh192, ho (n - 192) (by omega) (by omega)]
    · rw [if_neg c1]
      by_cases c2 : 128 < n
      · rw [if_pos c2]
        have := comp 128 (srsh128 x) (by omega) (by omega) s128
        have hm : n % 64 = n - 128 := by omega
        rw [← this, hm]
        congr 1
        simp only [shrSmall, srsh128, ho (n - 128) (by omega) (by omega)]
      · rw [if_neg c2]
        by_cases c3 : 64 < n
        · rw [if_pos c3]
          have := comp 64 (srsh64 x) (by omega) (by omega) s64
          have hm : n % 64 = n - 64 := by omega
          rw [← this, hm]
          congr 1
          simp only [shrSmall, srsh64, ho (n - 64) (by omega) (by omega)]
        · rw [if_neg c3]
          have := comp 0 x (by omega) (by omega) (by simp)
          have hm : n % 64 = n := by omega
          rw [← this, hm, Nat.sub_zero]
          rfl

/-- `SRsh` is floor division of the two's complement value. -/
theorem toInt_srsh (x : U256) (n : Nat) : (srsh x n).toInt = x.toInt / 2 ^ n := by
  by_cases h : 2 ^ 255 ≤ x.toNat
  · by_cases hn : n ≤ 256
    · have e := toNat_srsh_neg x n h hn
      have hlt := x.toNat_lt
      have hge : 2 ^ 255 ≤ (srsh x n).toNat := by
        rw [e]
        by_cases h0 : n = 0
        · rw [h0]; simp; omega
        · have : (2 : Nat) ^ (256 - n) ≤ 2 ^ 255 := Nat.pow_le_pow_right (by norm_num) (by omega)
          have : (2 : Nat) ^ 256 = 2 * 2 ^ 255 := by norm_num
          generalize x.toNat / 2 ^ n = c
          omega
      rw [toInt_of_ge h, toInt_of_ge hge, e]
      exact (sra_value _ _ hn).symm
    · have e : srsh x n = allOne := by
        unfold srsh
        rw [(isBitSet_255 x).2 h, if_neg (by simp)]
        by_cases c0 : n % 64 = 0
        · rw [if_pos c0, if_neg (by omega), if_neg (by omega), if_neg (by omega), if_neg (by omega)]
        · rw [if_neg c0]
          dsimp only
          rw [if_pos (by omega), if_pos (by omega)]
      have hao : allOne.toInt = -1 := by decide +kernel
      rw [e, hao]
      have hr := toInt_range x
      have hneg : x.toInt < 0 := by rw [toInt_of_ge h]; have := x.toNat_lt; omega
      have hp : (2 : Int) ^ 256 ≤ 2 ^ n := pow_le_pow_right₀ (by norm_num) (by omega)
      have h255 : (2 : Int) ^ 255 ≤ 2 ^ 256 := by norm_num
      have hb : -(2 : Int) ^ n ≤ x.toInt := by omega
      generalize (2 : Int) ^ n = P at *
      have hP : 0 < P := by omega
      symm
      apply Int.le_antisymm
      · have := Int.ediv_lt_of_lt_mul hP (show x.toInt < 0 * P by omega)
        omega
      · exact Int.le_ediv_of_mul_le hP (by omega)
  · have hb : x.isBitSet 255 = false := by
      by_contra hc
      exact h ((isBitSet_255 x).1 (by simpa using hc))
    unfold srsh
    rw [hb, if_pos (by simp)]
    have hx : x.toNat < 2 ^ 255 := by omega
    have hlt : (rsh x n).toNat < 2 ^ 255 := by
      rw [toNat_rsh]; exact lt_of_le_of_lt (Nat.div_le_self _ _) hx
    rw [toInt_of_lt hlt, toInt_of_lt hx, toNat_rsh]
    push_cast
    rfl

end U256
end Uni
