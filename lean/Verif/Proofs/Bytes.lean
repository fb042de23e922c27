import Verif.Proofs.SetBytes
import Verif.Proofs.Shift
/-! Byte string encodings, RLP and math/big. -/
namespace Uni
namespace U256
open Spec

theorem limb_toNat (z : U256) (k : Nat) (hk : k < 4) : (limb z k).toNat = z.toNat / 2 ^ (64 * k) % 2 ^ 64 := by
  have h0 := z.w0.isLt; have h1 := z.w1.isLt; have h2 := z.w2.isLt; have h3 := z.w3.isLt
  unfold toNat
  match k, hk with
  | 0, _ => show z.w0.toNat = _; norm_num; omega
  | 1, _ => show z.w1.toNat = _; norm_num; omega
  | 2, _ => show z.w2.toNat = _; norm_num; omega
  | 3, _ => show z.w3.toNat = _; norm_num; omega

theorem div_mod_byte (x r : Nat) (hr : r < 8) : x % 2 ^ 64 / 2 ^ (8 * r) % 256 = x / 2 ^ (8 * r) % 256 := by
  have hd : 2 ^ (8 * r) * 256 ∣ 2 ^ 64 := by
    rw [show (256 : Nat) = 2 ^ 8 by norm_num, ← pow_add]
    exact Nat.pow_dvd_pow 2 (by omega)
  rw [← Nat.mod_mul_right_div_self, Nat.mod_mod_of_dvd _ hd, Nat.mod_mul_right_div_self]

theorem byteOf_toNat (z : U256) (i : Nat) (hi : i < 32) : (byteOf z i).toNat = z.toNat / 256 ^ i % 256 := by
  unfold byteOf
  rw [BitVec.toNat_setWidth, BitVec.toNat_ushiftRight, Nat.shiftRight_eq_div_pow, limb_toNat z (i / 8) (by omega),
    show (2 : Nat) ^ 8 = 256 by norm_num, div_mod_byte _ _ (by omega), Nat.div_div_eq_div_mul, ← pow_add]
  rw [show (256 : Nat) = 2 ^ 8 by norm_num, ← pow_mul, show 64 * (i / 8) + 8 * (i % 8) = 8 * i by omega]

theorem byteOf_eq (z : U256) (i : Nat) (hi : i < 32) : byteOf z i = BitVec.ofNat 8 (z.toNat / 256 ^ i) := by
  apply BitVec.eq_of_toNat_eq
  rw [byteOf_toNat z i hi, BitVec.toNat_ofNat]

theorem high_zero (z : U256) (i : Nat) (hi : 32 ≤ i) : z.toNat / 256 ^ i = 0 := by
  apply Nat.div_eq_of_lt
  calc z.toNat < 2 ^ 256 := toNat_lt z
    _ = 256 ^ 32 := by norm_num
    _ ≤ 256 ^ i := Nat.pow_le_pow_right (by norm_num) hi

theorem writeToArray32_eq (z : U256) : writeToArray32 z = beBytes 32 z.toNat := by
  unfold writeToArray32 beBytes
  apply List.map_congr_left
  intro j hj
  rw [byteOf_eq z _ (by omega)]

theorem writeToArray20_eq (z : U256) : writeToArray20 z = beBytes 20 z.toNat := by
  unfold writeToArray20 beBytes
  apply List.map_congr_left
  intro j hj
  rw [byteOf_eq z _ (by omega)]

theorem writeToSlice_eq (z : U256) (d : List Byte) :
    writeToSlice z d = beBytes (min d.length 32) z.toNat ++ d.drop (min d.length 32) := by
  unfold writeToSlice beBytes
  dsimp only
  congr 1
  apply List.map_congr_left
  intro j hj
  rw [List.mem_range] at hj
  rw [byteOf_eq z _ (by omega)]

theorem paddedBytes_eq (z : U256) (n : Nat) : paddedBytes z n = beBytes n z.toNat := by
  unfold paddedBytes beBytes
  apply List.map_congr_left
  intro j hj
  by_cases h : n - 1 - j < 32
  · rw [if_pos h, byteOf_eq z _ h]
  · rw [if_neg h, high_zero z _ (by omega)]
    rfl

theorem bytes32_write (z : U256) : bytes32 z = writeToArray32 z := rfl
theorem bytes20_write (z : U256) : bytes20 z = writeToArray20 z := rfl
theorem bytes32_eq (z : U256) : bytes32 z = beBytes 32 z.toNat := writeToArray32_eq z
theorem bytes20_eq (z : U256) : bytes20 z = beBytes 20 z.toNat := writeToArray20_eq z

theorem beBytes_length (n v : Nat) : (beBytes n v).length = n := by
  unfold beBytes; rw [List.length_map, List.length_range]

theorem beBytes_succ (n v : Nat) : beBytes (n + 1) v = BitVec.ofNat 8 (v / 256 ^ n) :: beBytes n v := by
  unfold beBytes
  rw [List.range_succ_eq_map, List.map_cons, List.map_map]
  congr 1
  apply List.map_congr_left
  intro j hj
  rw [List.mem_range] at hj
  show BitVec.ofNat 8 (v / 256 ^ (n + 1 - 1 - (j + 1))) = _
  rw [show n + 1 - 1 - (j + 1) = n - 1 - j by omega]

theorem beBytes_drop (n k v : Nat) : (beBytes (k + n) v).drop k = beBytes n v := by
  induction k with
  | zero => rw [Nat.zero_add, List.drop_zero]
  | succ k ih => rw [show k + 1 + n = (k + n) + 1 by omega, beBytes_succ, List.drop_succ_cons, ih]

theorem beVal_beBytes (n v : Nat) : beVal (beBytes n v) = v % 256 ^ n := by
  induction n with
  | zero => simp [beBytes, beVal, Nat.mod_one]
  | succ n ih =>
    rw [beBytes_succ, beVal_cons, ih, beBytes_length, BitVec.toNat_ofNat, show (2 : Nat) ^ 8 = 256 by norm_num, pow_succ,
      Nat.mod_mul]
    ring

theorem beBytes_beVal (l : List Byte) : beBytes l.length (beVal l) = l := by
  induction l with
  | nil => rfl
  | cons b l ih =>
    rw [List.length_cons, beBytes_succ, beVal_cons]
    have hp : 0 < 256 ^ l.length := Nat.pow_pos (by norm_num)
    congr 1
    · apply BitVec.eq_of_toNat_eq
      rw [BitVec.toNat_ofNat, Nat.add_comm, Nat.add_mul_div_right _ _ hp, Nat.div_eq_of_lt (beVal_lt l), Nat.zero_add,
        Nat.mod_eq_of_lt b.isLt]
    · conv_rhs => rw [← ih]
      have e : ∀ n a b, a % 256 ^ n = b % 256 ^ n → beBytes n a = beBytes n b := by
        intro n a b
        induction n with
        | zero => intro _; rfl
        | succ n ih2 =>
          intro h
          have h3 : a % 256 ^ n = b % 256 ^ n := by
            have := congrArg (· % 256 ^ n) h
            rwa [Nat.mod_mod_of_dvd _ (Dvd.intro _ (pow_succ 256 n).symm), Nat.mod_mod_of_dvd _ (Dvd.intro _ (pow_succ 256 n).symm)] at this
          rw [beBytes_succ, beBytes_succ, ih2 h3]
          congr 1
          apply BitVec.eq_of_toNat_eq
          rw [BitVec.toNat_ofNat, BitVec.toNat_ofNat, show (2 : Nat) ^ 8 = 256 by norm_num, ← Nat.mod_mul_right_div_self,
            ← Nat.mod_mul_right_div_self, ← pow_succ, h]
      apply e
      rw [Nat.add_comm, Nat.add_mul_mod_self_right]

theorem byteLen_spec (z : U256) : byteLen z ≤ 32 ∧ z.toNat < 256 ^ byteLen z ∧ (z.toNat ≠ 0 → 1 ≤ byteLen z ∧ 256 ^ (byteLen z - 1) ≤ z.toNat) := by
  obtain ⟨h1, h2, h3, h4⟩ := bitLen_spec z
  unfold byteLen
  refine ⟨by omega, ?_, ?_⟩
  · rw [show (256 : Nat) = 2 ^ 8 by norm_num, ← pow_mul]
    exact lt_of_lt_of_le h1 (Nat.pow_le_pow_right (by norm_num) (by omega))
  · intro hz
    have := h4 hz
    refine ⟨by omega, ?_⟩
    rw [show (256 : Nat) = 2 ^ 8 by norm_num, ← pow_mul]
    exact le_trans (Nat.pow_le_pow_right (by norm_num) (by omega)) (h2 hz)

theorem bytes_eq (z : U256) : bytes z = beBytes (byteLen z) z.toNat := by
  have h := (byteLen_spec z).1
  unfold bytes
  rw [bytes32_eq]
  conv_lhs => rw [show (32 : Nat) = (32 - byteLen z) + byteLen z by omega]
  rw [show 32 - byteLen z + byteLen z - byteLen z = 32 - byteLen z by omega, beBytes_drop]

/-- shortest big-endian encoding -/
theorem bytes_minimal (z : U256) : Minimal (bytes z) z.toNat := by
  obtain ⟨h1, h2, h3⟩ := byteLen_spec z
  constructor
  · rw [bytes_eq, beVal_beBytes, Nat.mod_eq_of_lt h2]
  · by_cases hz : z.toNat = 0
    · rw [bytes_eq, hz]
      have : byteLen z = 0 := by
        rw [toNat_inj.1 (hz.trans (by rfl : (0 : Nat) = zero.toNat))]
        rfl
      rw [this]
      intro h; cases h
    · obtain ⟨h4, h5⟩ := h3 hz
      rw [bytes_eq]
      obtain ⟨n, hn⟩ : ∃ n, byteLen z = n + 1 := ⟨byteLen z - 1, by omega⟩
      rw [hn] at h2 h5 ⊢
      rw [beBytes_succ, List.head?_cons]
      intro h
      have h6 := congrArg BitVec.toNat (Option.some.inj h)
      rw [BitVec.toNat_ofNat, Nat.mod_eq_of_lt] at h6
      · rw [Nat.add_sub_cancel] at h5
        have := Nat.div_pos h5 (Nat.pow_pos (by norm_num))
        change _ = 0 at h6
        omega
      · rw [Nat.div_lt_iff_lt_mul (Nat.pow_pos (by norm_num))]
        rw [pow_succ, Nat.mul_comm] at h2
        exact h2

theorem encodeRLP_eq (z : U256) : encodeRLP z = rlpString (bytes z) := by
  obtain ⟨h1, h2, h3, h4⟩ := bitLen_spec z
  have hb : bytes z = beBytes ((bitLen z + 7) / 8) z.toNat := bytes_eq z
  unfold encodeRLP
  dsimp only
  by_cases c0 : bitLen z = 0
  · rw [if_pos c0, hb, c0]; rfl
  · rw [if_neg c0]
    have hz : z.toNat ≠ 0 := by
      intro h
      apply c0
      rw [toNat_inj.1 (h.trans (by rfl : (0 : Nat) = zero.toNat))]; rfl
    by_cases c1 : bitLen z ≤ 7
    · rw [if_pos c1]
      have hl : z.toNat < 128 := lt_of_lt_of_le h1 (by calc 2 ^ bitLen z ≤ 2 ^ 7 := Nat.pow_le_pow_right (by norm_num) c1
                                                       _ = 128 := by norm_num)
      have e : bytes z = [BitVec.ofNat 8 z.toNat] := by
        rw [hb, show (bitLen z + 7) / 8 = 0 + 1 by omega, beBytes_succ, pow_zero, Nat.div_one]; rfl
      have hw : z.w0.toNat = z.toNat := by
        have := limb_toNat z 0 (by omega)
        change z.w0.toNat = _ at this
        rw [this, Nat.mul_zero, pow_zero, Nat.div_one]
        omega
      have e2 : z.w0.setWidth 8 = BitVec.ofNat 8 z.toNat := by
        apply BitVec.eq_of_toNat_eq
        rw [BitVec.toNat_setWidth, BitVec.toNat_ofNat, hw]
      rw [e, e2]
      unfold rlpString
      rw [if_pos]
      exact ⟨rfl, by show (BitVec.ofNat 8 z.toNat).toNat < 128; rw [BitVec.toNat_ofNat]; omega⟩
    · rw [if_neg c1, bytes32_eq]
      generalize hn : (bitLen z + 7) / 8 = n at hb ⊢
      have hn1 : 1 ≤ n := by omega
      have hn2 : n ≤ 32 := by omega
      have hl : (bytes z).length = n := by rw [hb, beBytes_length]
      unfold rlpString
      rw [if_neg, hl]
      · have key : ∀ (k : Nat) (b : Byte) (x y : Byte), ((x :: beBytes (k + n) z.toNat).set k b).drop k = b :: beBytes n z.toNat := by
          intro k
          induction k with
          | zero => intro b x y; rw [Nat.zero_add]; rfl
          | succ k ih =>
            intro b x y
            rw [List.set_cons_succ, List.drop_succ_cons, show k + 1 + n = (k + n) + 1 by omega, beBytes_succ]
            exact ih b _ y
        have := key (32 - n) (BitVec.ofNat 8 (0x80 + n)) 0 0
        rw [show 32 - n + n = 32 by omega] at this
        rw [this, hb]
      · rintro ⟨h5, h6⟩
        rw [hl] at h5
        rw [hb, h5] at h6
        have h7 : (128 : Nat) ≤ z.toNat := by
          refine le_trans ?_ (h2 hz)
          calc 128 = 2 ^ 7 := by norm_num
            _ ≤ _ := Nat.pow_le_pow_right (by norm_num) (by omega)
        have h8 : z.toNat < 256 := by
          have := (byteLen_spec z).2.1
          rw [show byteLen z = 1 by unfold byteLen; omega] at this
          exact this
        rw [show (1 : Nat) = 0 + 1 from rfl, beBytes_succ, pow_zero, Nat.div_one] at h6
        change (BitVec.ofNat 8 z.toNat).toNat < 128 at h6
        rw [BitVec.toNat_ofNat] at h6
        omega

/-! ### math/big -/

theorem toBig_eq (z : U256) : toBig z = z.toNat := by
  unfold toBig toNat
  simp only [val]
  congr 1
  ring

theorem natWords_zero : natWords 0 = [] := by rw [natWords]; rfl
theorem natWords_ne {n : Nat} (h : n ≠ 0) : natWords n = BitVec.ofNat 64 n :: natWords (n / 2 ^ 64) := by
  rw [natWords, dif_neg h]

theorem natWords_getD (n i : Nat) : ((natWords n).getD i 0).toNat = n / 2 ^ (64 * i) % 2 ^ 64 := by
  induction i generalizing n with
  | zero =>
    by_cases h : n = 0
    · subst h; rw [natWords_zero]; rfl
    · rw [natWords_ne h, List.getD_cons_zero, BitVec.toNat_ofNat, Nat.mul_zero, pow_zero, Nat.div_one]
  | succ i ih =>
    by_cases h : n = 0
    · subst h; rw [natWords_zero, Nat.zero_div]; rfl
    · rw [natWords_ne h, List.getD_cons_succ, ih, Nat.div_div_eq_div_mul, ← pow_add, show 64 + 64 * i = 64 * (i + 1) by ring]

theorem natWords_length (n k : Nat) : k < (natWords n).length ↔ 2 ^ (64 * k) ≤ n := by
  induction k generalizing n with
  | zero =>
    by_cases h : n = 0
    · subst h; rw [natWords_zero]; simp
    · rw [natWords_ne h, List.length_cons, Nat.mul_zero, pow_zero]; omega
  | succ k ih =>
    by_cases h : n = 0
    · subst h; rw [natWords_zero]
      have : 0 < 2 ^ (64 * (k + 1)) := Nat.pow_pos (by norm_num)
      simp
    · rw [natWords_ne h, List.length_cons, Nat.add_lt_add_iff_right, ih, Nat.le_div_iff_mul_le (Nat.pow_pos (by norm_num)), ← pow_add,
        show 64 * k + 64 = 64 * (k + 1) by ring]

theorem words_toNat (n : Nat) :
    (⟨(natWords n).getD 0 0, (natWords n).getD 1 0, (natWords n).getD 2 0, (natWords n).getD 3 0⟩ : U256).toNat = n % 2 ^ 256 := by
  unfold toNat
  dsimp only
  rw [natWords_getD, natWords_getD, natWords_getD, natWords_getD]
  norm_num
  omega

theorem fromBig_value (b : Int) : ((fromBig b).1.toNat : Int) = b % 2 ^ 256 := by
  unfold fromBig setFromBig
  dsimp only
  have h := words_toNat b.natAbs
  split
  · rename_i hb
    rw [toNat_neg, h]
    have : (b.natAbs : Int) = -b := by omega
    generalize b.natAbs = n at *
    omega
  · rename_i hb
    rw [h]
    have : (b.natAbs : Int) = b := by omega
    generalize b.natAbs = n at *
    omega

theorem fromBig_overflow (b : Int) : (fromBig b).2 = true ↔ 2 ^ 256 ≤ b.natAbs := by
  unfold fromBig setFromBig
  dsimp only
  rw [decide_eq_true_iff]
  exact natWords_length b.natAbs 4

theorem sToBig_eq (z : U256) : sToBig z = z.toInt := by
  unfold sToBig
  dsimp only
  have hl := toNat_lt z
  rw [toBig_eq, toBig_eq, sign_eq_toInt]
  have hx : (xor ⟨0xffffffffffffffff#64, 0xffffffffffffffff#64, 0xffffffffffffffff#64, 0xffffffffffffffff#64⟩ z).toNat = 2 ^ 256 - 1 - z.toNat := by
    have e : ∀ w : Word, (0xffffffffffffffff#64 ^^^ w).toNat = 2 ^ 64 - 1 - w.toNat := by
      intro w
      rw [show 0xffffffffffffffff#64 ^^^ w = ~~~w from BitVec.allOnes_xor,
        BitVec.toNat_not]
    have h0 := z.w0.isLt; have h1 := z.w1.isLt; have h2 := z.w2.isLt; have h3 := z.w3.isLt
    unfold xor toNat
    dsimp only
    rw [e, e, e, e]
    omega
  split
  · rename_i h
    have h2 : z.toInt < 0 := Int.sign_neg_iff.1 h
    have h3 : 2 ^ 255 ≤ z.toNat := by unfold toInt at h2; split at h2 <;> omega
    rw [toInt_of_ge h3, toNat_add, hx, show (ofWord 1).toNat = 1 from rfl]
    omega
  · rename_i h
    have h2 : ¬ z.toInt < 0 := fun hc => h (Int.sign_neg_iff.2 hc)
    unfold toInt at h2 ⊢
    split
    · rfl
    · rename_i h3
      rw [if_neg h3] at h2
      omega

end U256
end Uni
