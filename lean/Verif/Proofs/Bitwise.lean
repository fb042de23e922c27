import Verif.Proofs.Bytes
import Verif.Model.Mod
import Mathlib.Tactic.IntervalCases
/-! Bitwise operations, byte extraction, sign extension, bit and byte length. -/
namespace Uni
namespace U256

/-- the `i`-th bit of the number, read from the limbs -/
theorem testBit_toNat (x : U256) (i : Nat) :
    x.toNat.testBit i = if i < 64 then x.w0.toNat.testBit i
      else if i < 128 then x.w1.toNat.testBit (i - 64)
      else if i < 192 then x.w2.toNat.testBit (i - 128)
      else x.w3.toNat.testBit (i - 192) := by
  have e : x.toNat = 2 ^ 64 * (2 ^ 64 * (2 ^ 64 * x.w3.toNat + x.w2.toNat) + x.w1.toNat) + x.w0.toNat := by
    unfold toNat; ring
  rw [e, Nat.testBit_two_pow_mul_add _ x.w0.isLt, Nat.testBit_two_pow_mul_add _ x.w1.isLt,
    Nat.testBit_two_pow_mul_add _ x.w2.isLt]
  by_cases h0 : i < 64
  · simp [h0]
  · by_cases h1 : i < 128
    · simp [h0, h1, show i - 64 < 64 by omega]
    · by_cases h2 : i < 192
      · have h3 : i - 128 < 64 := by omega
        simp only [h0, h1, h2, show ¬ i - 64 < 64 by omega, show i - 64 - 64 = i - 128 by omega, h3, if_true, if_false]
      · simp [h0, h1, h2, show ¬ i - 64 < 64 by omega, show ¬ i - 64 - 64 < 64 by omega,
          show i - 64 - 64 - 64 = i - 192 by omega]

set_option maxRecDepth 4000 in
theorem toNat_and (x y : U256) : (and x y).toNat = x.toNat &&& y.toNat := by
  apply Nat.eq_of_testBit_eq
  intro i
  rw [Nat.testBit_and, testBit_toNat, testBit_toNat, testBit_toNat]
  simp only [U256.and, BitVec.toNat_and, Nat.testBit_and]
  split_ifs <;> rfl

set_option maxRecDepth 4000 in
theorem toNat_or (x y : U256) : (or x y).toNat = x.toNat ||| y.toNat := by
  apply Nat.eq_of_testBit_eq
  intro i
  rw [Nat.testBit_or, testBit_toNat, testBit_toNat, testBit_toNat]
  simp only [U256.or, BitVec.toNat_or, Nat.testBit_or]
  split_ifs <;> rfl

set_option maxRecDepth 4000 in
theorem toNat_xor (x y : U256) : (xor x y).toNat = x.toNat ^^^ y.toNat := by
  apply Nat.eq_of_testBit_eq
  intro i
  rw [Nat.testBit_xor, testBit_toNat, testBit_toNat, testBit_toNat]
  simp only [U256.xor, BitVec.toNat_xor, Nat.testBit_xor]
  split_ifs <;> rfl

theorem toNat_not (x : U256) : (not x).toNat = 2 ^ 256 - 1 - x.toNat := by
  have h0 := x.w0.isLt; have h1 := x.w1.isLt; have h2 := x.w2.isLt; have h3 := x.w3.isLt
  simp only [not, toNat, BitVec.toNat_not]
  omega

theorem isBitSet_eq (x : U256) (n : Nat) (hn : n < 256) : isBitSet x n = x.toNat.testBit n := by
  have key : ∀ (w : Word) (k : Nat), k < 64 → ((w &&& (1#64 <<< k)) != 0) = w.toNat.testBit k := by
    intro w k hk
    rw [← BitVec.getLsbD.eq_1]
    by_cases h : w.getLsbD k = true
    · rw [h, bne_iff_ne]
      intro e
      have := congrArg (fun v => BitVec.getLsbD v k) e
      rw [BitVec.getLsbD_and, h] at this
      simp [hk] at this
    · simp only [Bool.not_eq_true] at h
      rw [h, bne_eq_false_iff_eq]
      apply BitVec.eq_of_getLsbD_eq
      intro i hi
      simp only [BitVec.getLsbD_and, BitVec.getLsbD_shiftLeft, BitVec.getLsbD_one, BitVec.ofNat_eq_ofNat, BitVec.getLsbD_zero]
      by_cases hik : i = k
      · subst hik; simp [h]
      · have : (decide (i < k)) = true ∨ decide (i - k = 0) = false := by
          by_cases c : i < k
          · exact Or.inl (decide_eq_true c)
          · exact Or.inr (decide_eq_false (by omega))
        rcases this with t | t <;> simp [t] <;> omega
  rw [testBit_toNat]
  unfold isBitSet
  dsimp only
  rw [key _ _ (Nat.mod_lt _ (by norm_num))]
  by_cases h0 : n < 64
  · rw [if_pos (show n / 64 = 0 by omega), if_pos h0, show n % 64 = n by omega]
  · rw [if_neg (show ¬ n / 64 = 0 by omega), if_neg h0]
    by_cases h1 : n < 128
    · rw [if_pos (show n / 64 = 1 by omega), if_pos h1, show n % 64 = n - 64 by omega]
    · rw [if_neg (show ¬ n / 64 = 1 by omega), if_neg h1]
      by_cases h2 : n < 192
      · rw [if_pos (show n / 64 = 2 by omega), if_pos h2, show n % 64 = n - 128 by omega]
      · rw [if_neg (show ¬ n / 64 = 2 by omega), if_neg h2, show n % 64 = n - 192 by omega]

theorem bitLen_le_iff (z : U256) (k : Nat) : bitLen z ≤ k ↔ z.toNat < 2 ^ k := by
  obtain ⟨h1, h2, h3, h4⟩ := bitLen_spec z
  constructor
  · intro h
    exact lt_of_lt_of_le h1 (Nat.pow_le_pow_right (by norm_num) h)
  · intro h
    by_contra hk
    rcases Nat.eq_zero_or_pos z.toNat with hz | hz
    · have : bitLen z = 0 := by
        have hz' : z = zero := ext_toNat (by rw [hz]; rfl)
        rw [hz']; decide
      omega
    · have := h2 (by omega)
      have h5 : 2 ^ k ≤ 2 ^ (bitLen z - 1) := Nat.pow_le_pow_right (by norm_num) (by omega)
      omega

theorem byteLen_le_iff (z : U256) (k : Nat) : byteLen z ≤ k ↔ z.toNat < 256 ^ k := by
  rw [show (256 : Nat) = 2 ^ 8 by norm_num, ← pow_mul, ← bitLen_le_iff]
  unfold byteLen
  omega

theorem leadingZeros_add (z : U256) : leadingZeros z + bitLen z = 256 := by
  have hz : ∀ w : Word, ((w = 0) = True ∧ len64 w = 0) ∨ ((w = 0) = False ∧ 1 ≤ len64 w ∧ len64 w ≤ 64) := by
    intro w
    obtain ⟨_, _, h3, h4⟩ := len64_spec w
    by_cases h : w = 0
    · exact Or.inl ⟨eq_true h, by rw [h]; rfl⟩
    · exact Or.inr ⟨eq_false h, h3 fun e => h (word_ext e), h4⟩
  unfold leadingZeros bitLen leadingZeros64
  simp only [bne_iff_ne, ne_eq]
  rcases hz z.w3 with ⟨e3, f3⟩ | ⟨e3, f3, g3⟩ <;> rcases hz z.w2 with ⟨e2, f2⟩ | ⟨e2, f2, g2⟩ <;>
    rcases hz z.w1 with ⟨e1, f1⟩ | ⟨e1, f1, g1⟩ <;> rcases hz z.w0 with ⟨e0, f0⟩ | ⟨e0, f0, g0⟩ <;>
    simp only [e3, e2, e1, not_true_eq_false, not_false_eq_true, if_true, if_false] <;> split_ifs <;> omega

theorem uint64WithOverflow_spec (x : U256) :
    x.uint64WithOverflow.1.toNat = x.toNat % 2 ^ 64 ∧ (x.uint64WithOverflow.2 = true ↔ 2 ^ 64 ≤ x.toNat) := by
  have h0 := x.w0.isLt
  constructor
  · simp only [uint64WithOverflow, toNat]; omega
  · simp only [uint64WithOverflow, bne_iff_ne, ne_eq, hi_zero_iff]
    have h := isUint64_iff x
    rw [isUint64, beq_iff_eq, hi_zero_iff] at h
    rw [h]; omega

theorem mask_shift (w : Word) (s : Nat) (m : Word) (h : m >>> s = 255#64) :
    ((w &&& m) >>> s).toNat = w.toNat / 2 ^ s % 256 := by
  rw [BitVec.ushiftRight_and_distrib, h, BitVec.toNat_and, BitVec.toNat_ushiftRight, Nat.shiftRight_eq_div_pow]
  exact Nat.and_two_pow_sub_one_eq_mod _ 8

theorem byte_spec (z n : U256) :
    (byte z n).toNat = if n.toNat < 32 then z.toNat / 256 ^ (31 - n.toNat) % 256 else 0 := by
  obtain ⟨hu1, hu2⟩ := uint64WithOverflow_spec n
  have h0 := z.w0.isLt; have h1 := z.w1.isLt; have h2 := z.w2.isLt; have h3 := z.w3.isLt
  by_cases hn : n.toNat < 32
  · rw [if_pos hn]
    have e : n = ofWord (BitVec.ofNat 64 n.toNat) := ext_toNat (by rw [toNat_ofWord, BitVec.toNat_ofNat]; omega)
    rw [e]
    generalize n.toNat = k at hn
    clear e hu1 hu2
    have red : ∀ k, k < 32 → byte z (ofWord (BitVec.ofNat 64 k)) =
        ofWord (((if 3 - k / 8 = 0 then z.w0 else if 3 - k / 8 = 1 then z.w1 else if 3 - k / 8 = 2 then z.w2 else z.w3) &&&
          (0xff00000000000000#64 >>> (8 * (k % 8)))) >>> (56 - 8 * (k % 8))) := by
      intro k hk
      interval_cases k <;> rfl
    have hmask : ∀ j, j < 8 → (0xff00000000000000#64 >>> (8 * j)) >>> (56 - 8 * j) = 255#64 := by
      intro j hj
      interval_cases j <;> rfl
    rw [red k hn, toNat_ofWord, mask_shift _ _ _ (hmask _ (Nat.mod_lt _ (by norm_num))), toNat_ofWord, BitVec.toNat_ofNat,
      Nat.mod_eq_of_lt (show k < 2 ^ 64 by omega)]
    unfold toNat
    interval_cases k <;> norm_num <;> omega
  · rw [if_neg hn]
    unfold byte
    dsimp only
    rw [if_neg]
    · rfl
    · rintro ⟨a, b⟩
      simp only [Bool.not_eq_true'] at a
      have : ¬ 2 ^ 64 ≤ n.toNat := fun h => by rw [hu2.2 h] at a; cases a
      omega

theorem or_high (x b : Nat) (hx : x < 2 ^ 256) (hb : b ≤ 256) :
    x ||| (2 ^ 256 - 1 - (2 ^ b - 1)) = 2 ^ 256 - 2 ^ b + x % 2 ^ b := by
  have hp : 2 ^ 256 = 2 ^ b * 2 ^ (256 - b) := by rw [← pow_add]; congr 1; omega
  have h1 : 1 ≤ 2 ^ b := Nat.one_le_two_pow
  have h2 : 1 ≤ 2 ^ (256 - b) := Nat.one_le_two_pow
  have e : 2 ^ 256 - 1 - (2 ^ b - 1) = 2 ^ b * (2 ^ (256 - b) - 1) + 0 := by
    rw [hp, Nat.mul_sub]; omega
  have e2 : 2 ^ 256 - 2 ^ b = 2 ^ b * (2 ^ (256 - b) - 1) := by rw [hp, Nat.mul_sub]; omega
  rw [e, e2]
  apply Nat.eq_of_testBit_eq
  intro i
  rw [Nat.testBit_or, Nat.testBit_two_pow_mul_add _ (by positivity), Nat.testBit_two_pow_mul_add _ (Nat.mod_lt _ (by positivity)),
    Nat.testBit_mod_two_pow, Nat.zero_testBit, Nat.testBit_two_pow_sub_one]
  by_cases hi : i < b
  · simp [hi]
  · by_cases hi2 : i < 256
    · simp [hi, show i - b < 256 - b by omega]
    · have : x.testBit i = false := Nat.testBit_lt_two_pow (lt_of_lt_of_le hx (Nat.pow_le_pow_right (by norm_num) (by omega)))
      simp [hi, this, show ¬ i - b < 256 - b by omega]

theorem extendSign_big (x n : U256) (h : 32 ≤ n.toNat) : extendSign x n = x := by
  unfold extendSign
  rw [if_pos ((gtUint64_iff _ _).2 (by show 31 < _; omega))]

theorem extendSign_small (x n : U256) (h : n.toNat < 32) :
    (extendSign x n).toInt = if x.toNat % 2 ^ (8 * n.toNat + 8) < 2 ^ (8 * n.toNat + 7)
      then (x.toNat % 2 ^ (8 * n.toNat + 8) : Int) else (x.toNat % 2 ^ (8 * n.toNat + 8) : Int) - 2 ^ (8 * n.toNat + 8) := by
  have hw : n.w0.toNat = n.toNat := by
    have := (uint64WithOverflow_spec n).1
    simp only [uint64WithOverflow] at this
    omega
  unfold extendSign
  rw [if_neg (fun c => by have := (gtUint64_iff _ _).1 c; change 31 < _ at this; omega)]
  dsimp only
  rw [hw, show n.toNat * 8 + 7 = 8 * n.toNat + 7 by ring]
  have hb : 8 * n.toNat + 7 ≤ 255 := by omega
  rw [show 8 * n.toNat + 8 = (8 * n.toNat + 7) + 1 by ring]
  generalize 8 * n.toNat + 7 = b at hb
  have hx := x.toNat_lt
  have hpb : 2 ^ b ≤ 2 ^ 255 := Nat.pow_le_pow_right (by norm_num) hb
  have h1 : 1 ≤ 2 ^ b := Nat.one_le_two_pow
  have hm : (subUint64 (lsh one b) 1).toNat = 2 ^ b - 1 := by
    rw [toNat_subUint64, toNat_lsh, toNat_one]
    change ((1 * 2 ^ b % 2 ^ 256) + (2 ^ 256 - 1)) % 2 ^ 256 = _
    rw [Nat.one_mul, Nat.mod_eq_of_lt (show 2 ^ b < 2 ^ 256 by omega)]
    omega
  rw [isBitSet_eq _ _ (by omega)]
  have hmod := Nat.mod_pow_succ (b := 2) (x := x.toNat) (k := b)
  have hlt : x.toNat % 2 ^ b < 2 ^ b := Nat.mod_lt _ (by positivity)
  have hps : (2 : Int) ^ (b + 1) = 2 ^ b + 2 ^ b := by ring
  have hcast : ((x.toNat : Int) % 2 ^ (b + 1)) = ((x.toNat % 2 ^ (b + 1) : Nat) : Int) := by push_cast; rfl
  rw [hcast, hmod]
  have htb : x.toNat.testBit b = decide (x.toNat / 2 ^ b % 2 = 1) := Nat.testBit_eq_decide_div_mod_eq
  by_cases hbit : x.toNat / 2 ^ b % 2 = 1
  · rw [htb, decide_eq_true hbit, if_pos rfl, hbit, Nat.mul_one, if_neg (by omega)]
    have hv : (or x (not (subUint64 (lsh one b) 1))).toNat = 2 ^ 256 - 2 ^ b + x.toNat % 2 ^ b := by
      rw [toNat_or, toNat_not, hm, or_high _ _ hx (by omega)]
    unfold toInt
    have hpz : ((2 ^ b : Nat) : Int) = 2 ^ b := by push_cast; rfl
    rw [hv, if_neg (by omega), hps, ← hpz]
    generalize 2 ^ b = P at *
    omega
  · have h0 : x.toNat / 2 ^ b % 2 = 0 := by omega
    rw [htb, decide_eq_false hbit, h0, Nat.mul_zero, Nat.add_zero, if_pos hlt]
    have hv : (and x (subUint64 (lsh one b) 1)).toNat = x.toNat % 2 ^ b := by
      rw [toNat_and, hm, Nat.and_two_pow_sub_one_eq_mod]
    simp only [Bool.false_eq_true, if_false]
    rw [toInt_of_lt (by rw [hv]; omega), hv]

end U256
end Uni
