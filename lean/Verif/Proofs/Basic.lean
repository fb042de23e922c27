import Verif.Model.U256
import Verif.Proofs.Word
/-! Numeric meaning of the linear operations and the comparisons of `U256`. -/
namespace Uni
namespace U256

theorem toNat_lt (x : U256) : x.toNat < 2 ^ 256 := by
  have h0 := x.w0.isLt
  have h1 := x.w1.isLt
  have h2 := x.w2.isLt
  have h3 := x.w3.isLt
  unfold toNat
  omega

theorem ext_toNat {x y : U256} (h : x.toNat = y.toNat) : x = y := by
  have h0 := x.w0.isLt
  have h1 := x.w1.isLt
  have h2 := x.w2.isLt
  have h3 := x.w3.isLt
  have k0 := y.w0.isLt
  have k1 := y.w1.isLt
  have k2 := y.w2.isLt
  have k3 := y.w3.isLt
  unfold toNat at h
  have e0 : x.w0 = y.w0 := word_ext (by omega)
  have e1 : x.w1 = y.w1 := word_ext (by omega)
  have e2 : x.w2 = y.w2 := word_ext (by omega)
  have e3 : x.w3 = y.w3 := word_ext (by omega)
  cases x; cases y; simp_all

theorem toNat_inj {x y : U256} : x.toNat = y.toNat ↔ x = y := ⟨ext_toNat, fun h => by rw [h]⟩

@[simp] theorem toNat_ofNat (n : Nat) : (ofNat n).toNat = n % 2 ^ 256 := by
  simp only [toNat, ofNat, BitVec.toNat_ofNat]
  omega

theorem toNat_ofNat_of_lt {n : Nat} (h : n < 2 ^ 256) : (ofNat n).toNat = n := by
  rw [toNat_ofNat, Nat.mod_eq_of_lt h]

@[simp] theorem ofNat_toNat (x : U256) : ofNat x.toNat = x :=
  ext_toNat (toNat_ofNat_of_lt x.toNat_lt)

@[simp] theorem toNat_zero : zero.toNat = 0 := by decide +kernel
@[simp] theorem toNat_one : one.toNat = 1 := by decide +kernel
@[simp] theorem toNat_allOne : allOne.toNat = 2 ^ 256 - 1 := by decide +kernel
@[simp] theorem toNat_ofWord (w : Word) : (ofWord w).toNat = w.toNat := by
  simp [ofWord, toNat]

theorem val_limbs (x : U256) : val x.limbs = x.toNat := by
  simp only [limbs, val_cons, val_nil, toNat]
  ring

theorem chain_add {x0 x1 x2 x3 y0 y1 y2 y3 r0 r1 r2 r3 c0 c1 c2 c3 : Nat}
    (h0 : r0 + 2 ^ 64 * c0 = x0 + y0 + 0) (h1 : r1 + 2 ^ 64 * c1 = x1 + y1 + c0)
    (h2 : r2 + 2 ^ 64 * c2 = x2 + y2 + c1) (h3 : r3 + 2 ^ 64 * c3 = x3 + y3 + c2) :
    (r0 + 2 ^ 64 * r1 + 2 ^ 128 * r2 + 2 ^ 192 * r3) + 2 ^ 256 * c3 =
    (x0 + 2 ^ 64 * x1 + 2 ^ 128 * x2 + 2 ^ 192 * x3) + (y0 + 2 ^ 64 * y1 + 2 ^ 128 * y2 + 2 ^ 192 * y3) := by
  omega

theorem chain_sub {x0 x1 x2 x3 y0 y1 y2 y3 r0 r1 r2 r3 c0 c1 c2 c3 : Nat}
    (h0 : x0 + 2 ^ 64 * c0 = r0 + y0 + 0) (h1 : x1 + 2 ^ 64 * c1 = r1 + y1 + c0)
    (h2 : x2 + 2 ^ 64 * c2 = r2 + y2 + c1) (h3 : x3 + 2 ^ 64 * c3 = r3 + y3 + c2) :
    (x0 + 2 ^ 64 * x1 + 2 ^ 128 * x2 + 2 ^ 192 * x3) + 2 ^ 256 * c3 =
    (r0 + 2 ^ 64 * r1 + 2 ^ 128 * r2 + 2 ^ 192 * r3) + (y0 + 2 ^ 64 * y1 + 2 ^ 128 * y2 + 2 ^ 192 * y3) := by
  omega

theorem flag_mul {c : Word} (h : c.toNat ≤ 1) : (if (c != 0) then 2 ^ 256 else 0) = 2 ^ 256 * c.toNat := by
  by_cases hc : c = 0
  · subst hc; rfl
  · have : c.toNat ≠ 0 := fun e => hc (word_ext (by simpa using e))
    have h1 : c.toNat = 1 := by omega
    rw [h1, if_pos (by simpa using hc)]
    rfl

theorem addOverflow_spec (x y : U256) :
    (addOverflow x y).1.toNat + (if (addOverflow x y).2 then 2 ^ 256 else 0) = x.toNat + y.toNat := by
  have s0 := add64_spec x.w0 y.w0 0 (by simp)
  have s1 := add64_spec x.w1 y.w1 _ s0.2
  have s2 := add64_spec x.w2 y.w2 _ s1.2
  have s3 := add64_spec x.w3 y.w3 _ s2.2
  have := flag_mul s3.2
  unfold addOverflow
  dsimp only
  rw [this]
  exact chain_add s0.1 s1.1 s2.1 s3.1

theorem add_eq (x y : U256) : add x y = (addOverflow x y).1 := rfl

theorem toNat_add (x y : U256) : (add x y).toNat = (x.toNat + y.toNat) % 2 ^ 256 := by
  have h := addOverflow_spec x y
  have hl := (add x y).toNat_lt
  rw [← add_eq] at h
  split at h <;> omega

theorem addOverflow_flag (x y : U256) : (addOverflow x y).2 = true ↔ 2 ^ 256 ≤ x.toNat + y.toNat := by
  have h := addOverflow_spec x y
  have hl := (addOverflow x y).1.toNat_lt
  cases hf : (addOverflow x y).2 <;> simp [hf] at h ⊢ <;> omega

theorem toNat_add_of_lt {x y : U256} (h : x.toNat + y.toNat < 2 ^ 256) :
    (add x y).toNat = x.toNat + y.toNat := by
  rw [toNat_add, Nat.mod_eq_of_lt h]

theorem toNat_addUint64 (x : U256) (y : Word) : (addUint64 x y).toNat = (x.toNat + y.toNat) % 2 ^ 256 := by
  have : addUint64 x y = add x (ofWord y) := rfl
  rw [this, toNat_add, toNat_ofWord]

theorem subOverflow_spec (x y : U256) :
    x.toNat + (if (subOverflow x y).2 then 2 ^ 256 else 0) = (subOverflow x y).1.toNat + y.toNat := by
  have s0 := sub64_spec x.w0 y.w0 0 (by simp)
  have s1 := sub64_spec x.w1 y.w1 _ s0.2
  have s2 := sub64_spec x.w2 y.w2 _ s1.2
  have s3 := sub64_spec x.w3 y.w3 _ s2.2
  have := flag_mul s3.2
  unfold subOverflow
  dsimp only
  rw [this]
  exact chain_sub s0.1 s1.1 s2.1 s3.1

theorem subOverflow_flag (x y : U256) : (subOverflow x y).2 = true ↔ x.toNat < y.toNat := by
  have h := subOverflow_spec x y
  have hl := (subOverflow x y).1.toNat_lt
  cases hf : (subOverflow x y).2 <;> simp [hf] at h ⊢ <;> omega

theorem sub_eq (x y : U256) : sub x y = (subOverflow x y).1 := rfl

theorem toNat_sub (x y : U256) : (sub x y).toNat = (x.toNat + (2 ^ 256 - y.toNat)) % 2 ^ 256 := by
  have h := subOverflow_spec x y
  have hl := (sub x y).toNat_lt
  have hy := y.toNat_lt
  have hx := x.toNat_lt
  rw [← sub_eq] at h
  split at h <;> omega

theorem toNat_sub_of_le {x y : U256} (h : y.toNat ≤ x.toNat) : (sub x y).toNat = x.toNat - y.toNat := by
  rw [toNat_sub]
  have hx := x.toNat_lt
  have hy := y.toNat_lt
  omega

theorem toNat_subUint64 (x : U256) (y : Word) :
    (subUint64 x y).toNat = (x.toNat + (2 ^ 256 - y.toNat)) % 2 ^ 256 := by
  have : subUint64 x y = sub x (ofWord y) := rfl
  rw [this, toNat_sub, toNat_ofWord]

theorem toNat_neg (x : U256) : (neg x).toNat = (2 ^ 256 - x.toNat) % 2 ^ 256 := by
  unfold neg
  rw [toNat_sub]
  simp

theorem lt_eq (z x : U256) : lt z x = (subOverflow z x).2 := by
  simp only [lt, subOverflow]

theorem lt_iff (z x : U256) : lt z x = true ↔ z.toNat < x.toNat := by
  rw [lt_eq, subOverflow_flag]

theorem lt_eq_decide (z x : U256) : lt z x = decide (z.toNat < x.toNat) := by
  rw [Bool.eq_iff_iff, lt_iff]; simp

theorem gt_iff (z x : U256) : gt z x = true ↔ x.toNat < z.toNat := lt_iff x z

theorem gt_eq_decide (z x : U256) : gt z x = decide (x.toNat < z.toNat) := lt_eq_decide x z

theorem eq_iff (z x : U256) : eq z x = true ↔ z = x := by
  cases z; cases x
  simp [eq, and_assoc]

theorem eq_eq_decide (z x : U256) : eq z x = decide (z.toNat = x.toNat) := by
  rw [Bool.eq_iff_iff, eq_iff]; simp [toNat_inj]

theorem isZero_iff (x : U256) : isZero x = true ↔ x.toNat = 0 := by
  have : x.toNat = 0 ↔ x = zero := by rw [← toNat_inj]; simp
  rw [this]
  cases x
  simp only [isZero, beq_iff_eq, word_or_eq_zero, zero, U256.mk.injEq, and_assoc]

theorem isZero_eq_decide (x : U256) : isZero x = decide (x.toNat = 0) := by
  rw [Bool.eq_iff_iff, isZero_iff]; simp

theorem hi_zero_iff (x : U256) : (x.w1 ||| x.w2 ||| x.w3) = 0 ↔ x.toNat = x.w0.toNat := by
  rw [word_or_eq_zero, word_or_eq_zero]
  constructor
  · rintro ⟨⟨h1, h2⟩, h3⟩
    simp [toNat, h1, h2, h3]
  · intro h
    unfold toNat at h
    exact ⟨⟨word_ext (by simp; omega), word_ext (by simp; omega)⟩, word_ext (by simp; omega)⟩

theorem toNat_eq_w0_iff (x : U256) : x.toNat = x.w0.toNat ↔ x.toNat < 2 ^ 64 := by
  have h0 := x.w0.isLt
  unfold toNat
  omega

theorem isUint64_iff (x : U256) : isUint64 x = true ↔ x.toNat < 2 ^ 64 := by
  rw [isUint64, beq_iff_eq, hi_zero_iff, toNat_eq_w0_iff]

theorem ltUint64_iff (z : U256) (n : Word) : ltUint64 z n = true ↔ z.toNat < n.toNat := by
  have hn := n.isLt
  simp only [ltUint64, Bool.and_eq_true, decide_eq_true_eq, beq_iff_eq, hi_zero_iff, word_lt_iff]
  have := z.toNat_eq_w0_iff
  constructor
  · rintro ⟨h1, h2⟩; omega
  · intro h
    have h2 : z.toNat = z.w0.toNat := this.2 (by omega)
    exact ⟨by omega, h2⟩

theorem gtUint64_iff (z : U256) (n : Word) : gtUint64 z n = true ↔ n.toNat < z.toNat := by
  have hn := n.isLt
  simp only [gtUint64, Bool.or_eq_true, decide_eq_true_eq, bne_iff_ne, ne_eq, hi_zero_iff, word_lt_iff]
  have h := z.toNat_eq_w0_iff
  constructor
  · rintro (h1 | h1)
    · unfold toNat; omega
    · rw [h] at h1; omega
  · intro h1
    by_cases h2 : z.toNat = z.w0.toNat
    · left; omega
    · exact Or.inr h2

theorem cmp_spec (z x : U256) :
    cmp z x = if z.toNat < x.toNat then -1 else if z.toNat = x.toNat then 0 else 1 := by
  have s0 := sub64_spec z.w0 x.w0 0 (by simp)
  have s1 := sub64_spec z.w1 x.w1 _ s0.2
  have s2 := sub64_spec z.w2 x.w2 _ s1.2
  have s3 := sub64_spec z.w3 x.w3 _ s2.2
  have hc : z.toNat + 2 ^ 256 * _ = toNat ⟨_, _, _, _⟩ + x.toNat := chain_sub s0.1 s1.1 s2.1 s3.1
  have h3 := s3.2
  unfold cmp
  dsimp only
  generalize sub64 z.w3 x.w3 _ = r3 at *
  generalize sub64 z.w2 x.w2 _ = r2 at *
  generalize sub64 z.w1 x.w1 _ = r1 at *
  generalize sub64 z.w0 x.w0 _ = r0 at *
  have hd := toNat_lt ⟨r0.1, r1.1, r2.1, r3.1⟩
  have hz := isZero_iff ⟨r0.1, r1.1, r2.1, r3.1⟩
  generalize toNat ⟨r0.1, r1.1, r2.1, r3.1⟩ = d at *
  unfold isZero at hz
  clear s0 s1 s2 s3
  by_cases h : (r3.2 == 1) = true
  · have h1 : r3.2 = 1 := by simpa using h
    have h1' : r3.2.toNat = 1 := by rw [h1]; rfl
    rw [if_pos h, if_pos (by omega)]
  · have h1 : ¬ r3.2 = 1 := by simpa using h
    have h1' : ¬ r3.2.toNat = 1 := fun e => h1 (word_ext e)
    rw [if_neg h]
    by_cases h2 : ((r0.1 ||| r1.1 ||| r2.1 ||| r3.1) == 0) = true
    · have := hz.1 h2
      rw [if_pos h2, if_neg (by omega), if_pos (by omega)]
    · have : ¬ d = 0 := fun e => h2 (hz.2 e)
      rw [if_neg h2, if_neg (by omega), if_neg (by omega)]

theorem cmp_neg_iff (z x : U256) : cmp z x = -1 ↔ z.toNat < x.toNat := by
  rw [cmp_spec]
  by_cases h : z.toNat < x.toNat
  · simp [h]
  · by_cases h2 : z.toNat = x.toNat <;> simp [h, h2]

theorem cmp_zero_iff (z x : U256) : cmp z x = 0 ↔ z.toNat = x.toNat := by
  rw [cmp_spec]
  by_cases h : z.toNat < x.toNat
  · simp [h]; omega
  · by_cases h2 : z.toNat = x.toNat <;> simp [h, h2]

theorem cmp_pos_iff (z x : U256) : cmp z x = 1 ↔ x.toNat < z.toNat := by
  rw [cmp_spec]
  by_cases h : z.toNat < x.toNat
  · simp [h]; omega
  · by_cases h2 : z.toNat = x.toNat
    · simp [h2]
    · simp [h, h2]; omega

theorem w3_lt_iff (z : U256) : z.w3 < 0x8000000000000000#64 ↔ z.toNat < 2 ^ 255 := by
  rw [word_lt_iff]
  have h0 := z.w0.isLt
  have h1 := z.w1.isLt
  have h2 := z.w2.isLt
  have e : (0x8000000000000000#64).toNat = 2 ^ 63 := by decide
  rw [e]
  unfold toNat
  omega

theorem sign_spec (z : U256) :
    sign z = if z.toNat = 0 then 0 else if z.toNat < 2 ^ 255 then 1 else -1 := by
  simp only [sign, isZero_eq_decide, decide_eq_true_eq, w3_lt_iff]

theorem sign_eq_toInt (z : U256) : sign z = z.toInt.sign := by
  rw [sign_spec]
  have := z.toNat_lt
  unfold toInt
  split
  · rename_i h; simp [h]
  · split
    · exact (Int.sign_eq_one_of_pos (by omega)).symm
    · exact (Int.sign_eq_neg_one_of_neg (by omega)).symm

theorem slt_iff (z x : U256) : slt z x = true ↔ z.toInt < x.toInt := by
  have hz := z.toNat_lt
  have hx := x.toNat_lt
  simp only [slt, sign_spec, toInt, lt_eq_decide]
  split_ifs <;> simp_all <;> omega

theorem sgt_iff (z x : U256) : sgt z x = true ↔ x.toInt < z.toInt := by
  have hz := z.toNat_lt
  have hx := x.toNat_lt
  simp only [sgt, sign_spec, toInt, gt_eq_decide]
  split_ifs <;> simp_all <;> omega

theorem toInt_emod (x : U256) : x.toInt % 2 ^ 256 = x.toNat := by
  have := x.toNat_lt
  unfold toInt
  split <;> omega

theorem toInt_range (x : U256) : -2 ^ 255 ≤ x.toInt ∧ x.toInt < 2 ^ 255 := by
  have := x.toNat_lt
  unfold toInt
  split <;> omega

theorem toInt_inj {x y : U256} : x.toInt = y.toInt ↔ x = y := by
  constructor
  · intro h
    apply ext_toNat
    have h1 := toInt_emod x
    have h2 := toInt_emod y
    rw [h] at h1
    omega
  · rintro rfl; rfl

theorem toNat_abs (x : U256) : (abs x).toNat = x.toInt.natAbs := by
  have := x.toNat_lt
  simp only [abs, w3_lt_iff]
  unfold toInt
  split
  · simp
  · rw [toNat_sub, toNat_zero]; omega

theorem toInt_of_lt {x : U256} (h : x.toNat < 2 ^ 255) : x.toInt = x.toNat := by
  rw [toInt, if_pos h]

theorem toInt_neg_of (x : U256) (h : x.toInt ≠ -2 ^ 255) : (neg x).toInt = -x.toInt := by
  have := x.toNat_lt
  unfold toInt at *
  rw [toNat_neg]
  split_ifs at * <;> omega

theorem toInt_add_of {x y : U256} (h : -2 ^ 255 ≤ x.toInt + y.toInt) (h' : x.toInt + y.toInt < 2 ^ 255) :
    (add x y).toInt = x.toInt + y.toInt := by
  have := x.toNat_lt
  have := y.toNat_lt
  unfold toInt at *
  rw [toNat_add]
  split_ifs at * <;> omega

theorem toInt_sub_of {x y : U256} (h : -2 ^ 255 ≤ x.toInt - y.toInt) (h' : x.toInt - y.toInt < 2 ^ 255) :
    (sub x y).toInt = x.toInt - y.toInt := by
  have := x.toNat_lt
  have := y.toNat_lt
  unfold toInt at *
  rw [toNat_sub]
  split_ifs at * <;> omega

end U256
end Uni
