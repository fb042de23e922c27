import Verif.Proofs.Bitwise
import Verif.Proofs.MulMod
/-!
# Properties C69, C70: bitwise operations, sign extension and modular multiplication

`&&&`, `|||` and `^^^` on natural numbers are Lean's bitwise operations on binary representations.
-/
namespace Uni
namespace Props
open U256

/-! ## C69 -/

/-- C69: the bitwise operations act on the binary representation of the number; `Not` is the complement in 256 bits. -/
theorem C69_bitwise (x y : U256) :
    (U256.and x y).toNat = x.toNat &&& y.toNat ∧ (U256.or x y).toNat = x.toNat ||| y.toNat ∧
    (U256.xor x y).toNat = x.toNat ^^^ y.toNat ∧ (U256.not x).toNat + x.toNat = 2 ^ 256 - 1 := by
  refine ⟨toNat_and x y, toNat_or x y, toNat_xor x y, ?_⟩
  have := x.toNat_lt
  rw [toNat_not]
  omega

/-- C69: `BitLen` and `ByteLen` are the least numbers of bits and bytes in which the number fits; `leadingZeros` counts the
remaining bits. -/
theorem C69_length (x : U256) (k : Nat) :
    (bitLen x ≤ k ↔ x.toNat < 2 ^ k) ∧ (byteLen x ≤ k ↔ x.toNat < 256 ^ k) ∧ leadingZeros x + bitLen x = 256 :=
  ⟨bitLen_le_iff x k, byteLen_le_iff x k, leadingZeros_add x⟩

/-- C69: `Uint64WithOverflow` gives the number modulo `2^64` and whether it does not fit. -/
theorem C69_uint64 (x : U256) :
    x.uint64WithOverflow.1.toNat = x.toNat % 2 ^ 64 ∧ (x.uint64WithOverflow.2 = true ↔ 2 ^ 64 ≤ x.toNat) :=
  uint64WithOverflow_spec x

/-- C69: `Byte(n)` is the `n`-th byte of the 32-byte big-endian representation, and 0 from the 32nd on. -/
theorem C69_byte (x n : U256) :
    (n.toNat < 32 → (byte x n).toNat = x.toNat / 256 ^ (31 - n.toNat) % 256) ∧ (32 ≤ n.toNat → (byte x n).toNat = 0) := by
  rw [byte_spec]
  exact ⟨fun h => if_pos h, fun h => if_neg (by omega)⟩

/-- C69: `ExtendSign(x, k)` reads the `k + 1` lowest bytes of `x` as a two's complement number; nothing happens for `k > 31`. -/
theorem C69_extendSign (x n : U256) :
    (n.toNat < 32 → -2 ^ (8 * n.toNat + 7) ≤ (extendSign x n).toInt ∧ (extendSign x n).toInt < 2 ^ (8 * n.toNat + 7) ∧
      ((extendSign x n).toInt - x.toNat) % 2 ^ (8 * n.toNat + 8) = 0) ∧
    (32 ≤ n.toNat → extendSign x n = x) := by
  refine ⟨fun h => ?_, extendSign_big x n⟩
  rw [extendSign_small x n h]
  have hp : (2 : Int) ^ (8 * n.toNat + 8) = 2 ^ (8 * n.toNat + 7) * 2 := pow_succ _ _
  have hpos : (0 : Int) < 2 ^ (8 * n.toNat + 7) := by positivity
  have h1 := Int.emod_nonneg (x.toNat : Int) (show (2 : Int) ^ (8 * n.toNat + 8) ≠ 0 by positivity)
  have h2 := Int.emod_lt_of_pos (x.toNat : Int) (show (0 : Int) < 2 ^ (8 * n.toNat + 8) by positivity)
  have hd : ((x.toNat : Int) % 2 ^ (8 * n.toNat + 8) - x.toNat) % 2 ^ (8 * n.toNat + 8) = 0 := by
    rw [← Int.emod_eq_emod_iff_emod_sub_eq_zero, Int.emod_emod_of_dvd _ (dvd_refl _)]
  have hc : (x.toNat % 2 ^ (8 * n.toNat + 8) < 2 ^ (8 * n.toNat + 7)) ↔
      (x.toNat : Int) % 2 ^ (8 * n.toNat + 8) < 2 ^ (8 * n.toNat + 7) := by
    rw [← Int.ofNat_lt]; push_cast; rfl
  simp only [hc]
  generalize (x.toNat : Int) = X at *
  split_ifs with c
  · exact ⟨by omega, c, hd⟩
  · refine ⟨by omega, by omega, ?_⟩
    rw [show X % 2 ^ (8 * n.toNat + 8) - 2 ^ (8 * n.toNat + 8) - X =
      (X % 2 ^ (8 * n.toNat + 8) - X) - 2 ^ (8 * n.toNat + 8) by ring, Int.sub_emod_right]
    exact hd

/-- non-trivial instances -/
example : (U256.and (ofNat (2 ^ 200 + 12)) (ofNat (2 ^ 200 + 10))).toNat = 2 ^ 200 + 8 ∧
    (U256.xor (ofNat (2 ^ 200 + 12)) (ofNat (2 ^ 100 + 10))).toNat = 2 ^ 200 + 2 ^ 100 + 6 ∧
    bitLen (ofNat (2 ^ 200)) = 201 ∧ byteLen (ofNat (2 ^ 200)) = 26 ∧
    (byte (ofNat (2 ^ 200)) (ofNat 6)).toNat = 1 ∧ (extendSign (ofNat 0x1280) (ofNat 0)).toInt = -128 ∧
    (extendSign (ofNat 0x1280) (ofNat 1)).toInt = 0x1280 := by decide +kernel

/-! ## C70 -/

/-- C70: `MulMod` is exact for all numbers, 0 for a zero modulus, and finishes (nine steps of the correction loop are always
enough); the product is not truncated. -/
theorem C70_mulMod (x y m : U256) (fuel : Nat) (hf : 9 ≤ fuel) :
    ∃ z, mulMod fuel x y m = .ok z ∧ (m.toNat = 0 → z.toNat = 0) ∧ (m.toNat ≠ 0 → z.toNat = x.toNat * y.toNat % m.toNat) := by
  obtain ⟨z, h1, h2⟩ := mulMod_spec fuel hf x y m
  exact ⟨z, h1, fun h => by rw [h2, if_pos h], fun h => by rw [h2, if_neg h]⟩

/-- C70: `Reciprocal` is 0 for moduli below `2^192`, and otherwise `2^512 / m` or at most two less. -/
theorem C70_reciprocal (m : U256) :
    ∃ mu, reciprocal m = .ok mu ∧ (m.toNat < 2 ^ 192 → mu.toNat = 0) ∧
      (2 ^ 192 ≤ m.toNat → mu.toNat ≤ 2 ^ 512 / m.toNat ∧ 2 ^ 512 / m.toNat ≤ mu.toNat + 2) := by
  obtain ⟨mu, h1, h2, h3⟩ := reciprocal_ok m
  refine ⟨mu, h1, h2, fun h => ?_⟩
  obtain ⟨a, b⟩ := h3 h
  have hm : 0 < m.toNat := lt_of_lt_of_le (by norm_num) h
  exact ⟨(Nat.le_div_iff_mul_le hm).2 a, Nat.le_of_lt_succ ((Nat.div_lt_iff_lt_mul hm).2 b)⟩

/-- C70: `MulModWithReciprocal` is exact with the result of `Reciprocal` for the same modulus (computed once, used for many
products), and with every other number that is at most two below `2^512 / m`. -/
theorem C70_withReciprocal (x y m : U256) (mu : Words5) (fuel : Nat) (hf : 9 ≤ fuel)
    (h : reciprocal m = .ok mu ∨ (mu.toNat ≤ 2 ^ 512 / m.toNat ∧ 2 ^ 512 / m.toNat ≤ mu.toNat + 2)) :
    ∃ z, mulModWithReciprocal fuel x y m mu = .ok z ∧ (m.toNat = 0 → z.toNat = 0) ∧
      (m.toNat ≠ 0 → z.toNat = x.toNat * y.toNat % m.toNat) := by
  have key : 2 ^ 192 ≤ m.toNat → mu.toNat * m.toNat ≤ 2 ^ 512 ∧ 2 ^ 512 < (mu.toNat + 3) * m.toNat := by
    intro hm
    have hpos : 0 < m.toNat := lt_of_lt_of_le (by norm_num) hm
    rcases h with h | ⟨h1, h2⟩
    · obtain ⟨mu', e, _, b⟩ := reciprocal_ok m
      rw [h] at e
      cases e
      exact b hm
    · exact ⟨(Nat.le_div_iff_mul_le hpos).1 h1, (Nat.div_lt_iff_lt_mul hpos).1 (by omega)⟩
  obtain ⟨z, h1, h2⟩ := mulModWithReciprocal_spec fuel hf x y m mu key
  exact ⟨z, h1, fun h => by rw [h2, if_pos h], fun h => by rw [h2, if_neg h]⟩

/-- non-trivial instances: a product of 512 bits with moduli of 256, 193 and 130 bits -/
example : mulMod 9 (ofNat (2 ^ 256 - 3)) (ofNat (2 ^ 256 - 5)) (ofNat (2 ^ 256 - 7)) = .ok (ofNat 8) ∧
    mulMod 9 (ofNat (2 ^ 256 - 3)) (ofNat (2 ^ 256 - 5)) (ofNat (2 ^ 192 + 1)) = .ok (ofNat (((2 ^ 256 - 3) * (2 ^ 256 - 5)) % (2 ^ 192 + 1))) ∧
    mulMod 9 (ofNat (2 ^ 256 - 3)) (ofNat (2 ^ 256 - 5)) (ofNat (2 ^ 129 + 1)) = .ok (ofNat (((2 ^ 256 - 3) * (2 ^ 256 - 5)) % (2 ^ 129 + 1))) ∧
    (∃ mu, reciprocal (ofNat (2 ^ 255 + 12345)) = .ok mu ∧ mu.toNat ≠ 0) := by
  refine ⟨by decide +kernel, by decide +kernel, by decide +kernel, ?_⟩
  obtain ⟨mu, h1, _, h2⟩ := C70_reciprocal (ofNat (2 ^ 255 + 12345))
  refine ⟨mu, h1, ?_⟩
  have := h2 (by decide +kernel)
  have e : 2 ^ 512 / (ofNat (2 ^ 255 + 12345)).toNat = 231584178474632390847141970017375815706539969331281128078915168015826259230492 := by decide +kernel
  omega

end Props
end Uni
