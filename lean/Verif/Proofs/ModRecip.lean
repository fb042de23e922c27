import Verif.Proofs.ModSubs
import Verif.Proofs.ModNewton
import Verif.Proofs.Div
import Verif.Proofs.Shift
/-! `Reciprocal` is correct up to two units. -/
set_option exponentiation.threshold 1000
namespace Uni.U256

theorem recip0_spec (yh : BitVec 32) (h : 2 ^ 31 ≤ yh.toNat) : ∃ r0, recip0 yh = .ok r0 ∧
    (2 ^ 63 - (yh.toNat : ℤ) ≤ r0.toNat * yh.toNat) ∧ ((r0.toNat * yh.toNat : ℤ) ≤ 2 ^ 63) ∧
    ((yh.toNat : ℤ) = 2 ^ 31 → (r0.toNat : ℤ) = 2 ^ 32 - 1) := by
  unfold recip0
  by_cases hy : yh = 0x80000000
  · rw [if_pos hy]
    refine ⟨_, rfl, ?_⟩
    subst hy
    decide
  · rw [if_neg hy]
    have hne : yh.toNat ≠ 2 ^ 31 := fun h' => hy (BitVec.eq_of_toNat_eq h')
    have hlt := yh.isLt
    unfold div32
    rw [if_neg (by rw [show (0x80000000 : BitVec 32).toNat = 2 ^ 31 from rfl]; omega)]
    refine ⟨_, rfl, ?_⟩
    dsimp only
    rw [show (0x80000000 : BitVec 32).toNat * 2 ^ 32 + (0 : BitVec 32).toNat = 2 ^ 63 from rfl, BitVec.toNat_ofNat]
    have hq : 2 ^ 63 / yh.toNat < 2 ^ 32 := by
      rw [Nat.div_lt_iff_lt_mul (by omega)]
      omega
    rw [Nat.mod_eq_of_lt hq]
    have hdm := Nat.div_add_mod (2 ^ 63) yh.toNat
    have hml := Nat.mod_lt (2 ^ 63) (show 0 < yh.toNat by omega)
    rw [Nat.mul_comm] at hdm
    refine ⟨?_, ?_, fun h' => absurd (by exact_mod_cast h') hne⟩
    · have : 2 ^ 63 ≤ 2 ^ 63 / yh.toNat * yh.toNat + yh.toNat := by omega
      generalize 2 ^ 63 / yh.toNat = q at *
      zify at this
      linarith
    · have : 2 ^ 63 / yh.toNat * yh.toNat ≤ 2 ^ 63 := by omega
      exact_mod_cast this

theorem shl1_eq_zero {y : Word} (h : 2 ^ 63 ≤ y.toNat) : y <<< 1 = 0 ↔ y.toNat = 2 ^ 63 := by
  have hl := y.isLt
  constructor
  · intro h0
    have : (y <<< 1).toNat = 0 := by rw [h0]; rfl
    rw [BitVec.toNat_shiftLeft, Nat.shiftLeft_eq] at this
    omega
  · intro h0
    apply BitVec.eq_of_toNat_eq
    rw [BitVec.toNat_shiftLeft, Nat.shiftLeft_eq, h0]
    rfl

theorem recip1_spec (r0 : BitVec 32) (y3 : Word) (hy : 2 ^ 63 ≤ y3.toNat) (yh : ℤ) (h1 : 2 ^ 32 * yh ≤ y3.toNat)
    (h2 : (y3.toNat : ℤ) < 2 ^ 32 * (yh + 1)) (ha : 2 ^ 63 - yh ≤ r0.toNat * yh) (hb : r0.toNat * yh ≤ 2 ^ 63)
    (hs : yh = 2 ^ 31 → (r0.toNat : ℤ) = 2 ^ 32 - 1) :
    2 ^ 127 - 2 ^ 65 ≤ ((recip1 r0 y3).toNat : ℤ) * y3.toNat ∧ ((recip1 r0 y3).toNat : ℤ) * y3.toNat < 2 ^ 127 + 2 * y3.toNat ∧
    ((y3.toNat : ℤ) = 2 ^ 63 → ((recip1 r0 y3).toNat : ℤ) = 2 ^ 64 - 1) := by
  unfold recip1
  extract_lets t t1 r1
  have hr := r0.isLt
  have hyl := y3.isLt
  have e64 : (r0.setWidth 64).toNat = r0.toNat := by
    rw [BitVec.toNat_setWidth, Nat.mod_eq_of_lt (by omega)]
  have ht : t.toNat = r0.toNat * r0.toNat := by
    have hlt : r0.toNat * r0.toNat < 2 ^ 32 * 2 ^ 32 := Nat.mul_lt_mul'' hr hr
    rw [show t = r0.setWidth 64 * r0.setWidth 64 from rfl, BitVec.toNat_mul, e64, Nat.mod_eq_of_lt (by omega)]
  have hm : ((mul64 t y3).2.toNat : ℤ) + 18446744073709551616 * t1.toNat = t.toNat * y3.toNat := mulZ _ _
  have l2 := @wL (mul64 t y3).2
  have u2 := @wU (mul64 t y3).2
  rw [ht] at hm
  push_cast at hm
  obtain ⟨c1, c2, c3, c4, c5⟩ := Newton.step1 (y3 := y3.toNat) (yh := yh) (r0 := r0.toNat) (t := t1.toNat)
    (by exact_mod_cast hy) (by exact_mod_cast hyl) h1 h2 ha hb (Int.natCast_nonneg _) (by exact_mod_cast hr) hs
    (by linarith) (by linarith)
  have hr1 : r1.toNat = (2 * (2 ^ 32 * r0.toNat - t1.toNat)) % 2 ^ 64 := by
    have hle : t1.toNat ≤ 2 ^ 32 * r0.toNat := by omega
    have := t1.isLt
    rw [show r1 = ((r0.setWidth 64 <<< 32) - t1) * 2 from rfl, BitVec.toNat_mul, BitVec.toNat_sub, BitVec.toNat_shiftLeft,
      Nat.shiftLeft_eq, e64, show (2 : Word).toNat = 2 from rfl]
    clear c1 c2 c3 c4 c5 hm
    omega
  by_cases hy3 : y3.toNat = 2 ^ 63
  · have hR := c4 (by exact_mod_cast hy3)
    have h0 : r1 = 0 := by
      apply BitVec.eq_of_toNat_eq
      rw [hr1, show (2 * (2 ^ 32 * r0.toNat - t1.toNat)) = 2 ^ 64 by omega]
      rfl
    rw [if_pos (by rw [word_or_eq_zero, shl1_eq_zero hy]; exact ⟨h0, hy3⟩)]
    rw [show ((BitVec.allOnes 64).toNat : ℤ) = 2 ^ 64 - 1 from rfl, hy3]
    norm_num
  · have hR := c5 (by exact_mod_cast hy3)
    rw [if_neg (by rw [word_or_eq_zero, shl1_eq_zero hy]; exact fun h => hy3 h.2)]
    have : (r1.toNat : ℤ) = 2 * (2 ^ 32 * r0.toNat - t1.toNat) := by
      rw [hr1, Nat.mod_eq_of_lt (by omega)]
      omega
    rw [this]
    exact ⟨c1, c2, fun h => absurd (by exact_mod_cast h) hy3⟩

theorem recip2_spec (r1 : Word) (y : U256) (hy : 2 ^ 63 ≤ y.w3.toNat)
    (ha : 2 ^ 127 - 2 ^ 65 ≤ (r1.toNat : ℤ) * y.w3.toNat) (hb : (r1.toNat : ℤ) * y.w3.toNat < 2 ^ 127 + 2 * y.w3.toNat)
    (hs : (y.w3.toNat : ℤ) = 2 ^ 63 → (r1.toNat : ℤ) = 2 ^ 64 - 1) :
    2 ^ 255 - 9 * 2 ^ 129 ≤ ((recip2 r1 y).toNat : ℤ) * (y.w2.toNat + 2 ^ 64 * y.w3.toNat) ∧
    ((recip2 r1 y).toNat : ℤ) * (y.w2.toNat + 2 ^ 64 * y.w3.toNat) < 2 ^ 255 + 2 * (y.w2.toNat + 2 ^ 64 * y.w3.toNat) := by
  unfold recip2
  extract_lets r2
  obtain ⟨k, hk⟩ := recipSub2_spec r1 (recipMul2 r1 y)
  obtain ⟨t1, t2⟩ := recipMul2_spec r1 y
  rw [show recipSub2 r1 (recipMul2 r1 y) = r2 from rfl] at hk
  clear_value r2
  obtain ⟨c1, c2, c3, c4, c5⟩ := Newton.step2 (y3 := y.w3.toNat) (y2 := y.w2.toNat) (r1 := r1.toNat)
    (e := (recipMul2 r1 y).toNat) (by exact_mod_cast hy) (by exact_mod_cast y.w3.isLt) wL (by exact_mod_cast y.w2.isLt)
    wL (by exact_mod_cast r1.isLt) ha hb hs (by linarith) (by linarith)
  generalize 2 * (2 ^ 64 * (r1.toNat : ℤ) - (recipMul2 r1 y).toNat) = R at *
  have hlt := r2.lt
  have h0 : (0 : ℤ) ≤ r2.toNat := Int.natCast_nonneg _
  by_cases hc : (y.w3.toNat : ℤ) = 2 ^ 63 ∧ (y.w2.toNat : ℤ) = 0
  · have hR := c4 hc
    have hz : (r2.toNat : ℤ) = 0 := by
      rw [hR] at hk
      omega
    rw [Words2.toZ] at hz
    have l0 := @wL r2.w0
    have l1 := @wL r2.w1
    have z0 : r2.w0 = 0 := BitVec.eq_of_toNat_eq (by
      have : (r2.w0.toNat : ℤ) = 0 := by linarith
      exact_mod_cast this)
    have z1 : r2.w1 = 0 := BitVec.eq_of_toNat_eq (by
      have : (r2.w1.toNat : ℤ) = 0 := by linarith
      exact_mod_cast this)
    rw [if_pos (by rw [word_or_eq_zero, word_or_eq_zero, shl1_eq_zero hy]; exact ⟨⟨z1, z0⟩, by exact_mod_cast hc.1⟩)]
    rw [show (((⟨BitVec.allOnes 64, BitVec.allOnes 64⟩ : Words2).toNat : ℕ) : ℤ) = 2 ^ 128 - 1 from rfl, hc.1, hc.2]
    norm_num
  · have hR := c5 hc
    have hrR : (r2.toNat : ℤ) = R := by omega
    have hif : ¬ (r2.w1 ||| r2.w0 ||| (y.w3 <<< 1)) = 0 := by
      rw [word_or_eq_zero, word_or_eq_zero]
      rintro ⟨⟨z1, z0⟩, _⟩
      rw [Words2.toZ, z1, z0] at hrR
      rw [show ((0 : Word).toNat : ℤ) = 0 from rfl] at hrR
      linarith
    rw [if_neg hif, hrR]
    exact ⟨c1, c2⟩

theorem recip3_spec (r2 : Words2) (y : U256) (hy : 2 ^ 255 < y.toNat)
    (ha : 2 ^ 255 - 9 * 2 ^ 129 ≤ (r2.toNat : ℤ) * (y.w2.toNat + 2 ^ 64 * y.w3.toNat))
    (hb : (r2.toNat : ℤ) * (y.w2.toNat + 2 ^ 64 * y.w3.toNat) < 2 ^ 255 + 2 * (y.w2.toNat + 2 ^ 64 * y.w3.toNat)) :
    2 ^ 447 - 2 ^ 258 ≤ ((recip3 r2 y).toNat : ℤ) * y.toNat ∧ ((recip3 r2 y).toNat : ℤ) * y.toNat ≤ 2 ^ 447 + 2 ^ 132 := by
  unfold recip3
  have hsq := recipSq2_spec r2
  obtain ⟨t1, t2⟩ := recipMul3_spec (recipSq2 r2) y
  rw [hsq] at t1 t2
  have hyZ := U256.toZ y
  have hlt : (y.toNat : ℤ) < 2 ^ 256 := by exact_mod_cast toNat_lt y
  have hgt : (2 : ℤ) ^ 255 < y.toNat := by exact_mod_cast hy
  obtain ⟨c1, c2, c3, c4⟩ := Newton.step3 (Y := y.toNat) (Yl := y.w0.toNat + 2 ^ 64 * y.w1.toNat)
    (Y2 := y.w2.toNat + 2 ^ 64 * y.w3.toNat) (r2 := r2.toNat) (q := (recipMul3 (recipSq2 r2) y).toNat)
    (by linarith) (by linarith [@wL y.w0, @wL y.w1]) (by linarith [@wU y.w0, @wU y.w1]) hgt hlt (Int.natCast_nonneg _) r2.lt
    ha hb (by linarith) (by linarith)
  obtain ⟨d1, d2⟩ := recipSub3_spec r2 (recipMul3 (recipSq2 r2) y) _ rfl c3 c4
  generalize (2 : ℤ) ^ 192 * r2.toNat - (recipMul3 (recipSq2 r2) y).toNat = N at *
  generalize ((recipSub3 r2 (recipMul3 (recipSq2 r2) y)).toNat : ℤ) = r3 at *
  generalize (y.toNat : ℤ) = Y at *
  have f1 : 2 ^ 128 * r3 * Y ≤ 2 * N * Y := mul_le_mul_of_nonneg_right d1 (by linarith)
  have f2 : 2 * N * Y ≤ 2 ^ 128 * (r3 + 2) * Y := mul_le_mul_of_nonneg_right d2.le (by linarith)
  constructor <;> linarith

theorem recip4_spec (r3 : Words3) (y : U256) (hy : 2 ^ 255 < y.toNat)
    (ha : 2 ^ 447 - 2 ^ 258 ≤ (r3.toNat : ℤ) * y.toNat) (hb : (r3.toNat : ℤ) * y.toNat ≤ 2 ^ 447 + 2 ^ 132) :
    2 ^ 574 - 2 ^ 196 < (((recip4 r3 y).toNat : ℤ) + 1) * y.toNat ∧
    2 ^ 128 * (((recip4 r3 y).toNat : ℤ) * y.toNat) ≤ 2 ^ 702 + 2 ^ 66 * y.toNat := by
  unfold recip4
  have hsq := recipSq3_spec r3
  obtain ⟨t1, t2⟩ := recipMul4_spec (recipSq3 r3) y
  rw [hsq] at t1 t2
  have hlt : (y.toNat : ℤ) < 2 ^ 256 := by exact_mod_cast toNat_lt y
  have hgt : (2 : ℤ) ^ 255 < y.toNat := by exact_mod_cast hy
  obtain ⟨c1, c2, c3⟩ := Newton.step4 (Y := y.toNat) (r3 := r3.toNat) (x := (recipMul4 (recipSq3 r3) y).toNat)
    hgt hlt ha hb (by linarith) (by linarith)
  obtain ⟨d1, d2⟩ := recipSub4_spec r3 (recipMul4 (recipSq3 r3) y) _ rfl c3
  generalize (2 : ℤ) ^ 256 * r3.toNat - (recipMul4 (recipSq3 r3) y).toNat = N at *
  generalize ((recipSub4 r3 (recipMul4 (recipSq3 r3) y)).toNat : ℤ) = r4 at *
  generalize (y.toNat : ℤ) = Y at *
  have f1 : 2 ^ 128 * r4 * Y ≤ N * Y := mul_le_mul_of_nonneg_right d1 (by linarith)
  have f2 : N * Y < 2 ^ 128 * (r4 + 1) * Y := mul_lt_mul_of_pos_right d2 (by linarith)
  constructor <;> linarith

theorem recipAdjust_spec (r : Words5) (y : U256) (hy : 2 ^ 255 < y.toNat)
    (ha : 2 ^ 574 - 2 ^ 196 < ((r.toNat : ℤ) + 1) * y.toNat)
    (hb : 2 ^ 128 * ((r.toNat : ℤ) * y.toNat) ≤ 2 ^ 702 + 2 ^ 66 * y.toNat) :
    ((recipAdjust r y).toNat : ℤ) * y.toNat ≤ 2 ^ 574 ∧
    2 ^ 574 - 2 ^ 196 < (((recipAdjust r y).toNat : ℤ) + 1) * y.toNat := by
  unfold recipAdjust
  have hgt : (2 : ℤ) ^ 255 < y.toNat := by exact_mod_cast hy
  have hq := recipMul5_spec r y
  by_cases hc : recipBorrow (recipMul5 r y) ≠ 0
  · rw [if_pos hc]
    rw [recipBorrow_spec, hq] at hc
    have h1 : (1 : ℤ) ≤ r.toNat := by
      by_contra hn
      have h0 : (r.toNat : ℤ) = 0 := by
        have := Int.natCast_nonneg r.toNat
        omega
      rw [h0, zero_mul] at hc
      norm_num at hc
    rw [recipDec_spec r h1]
    constructor <;> linarith
  · rw [if_neg hc]
    rw [recipBorrow_spec, hq, not_lt] at hc
    exact ⟨hc, ha⟩

theorem recipShift_spec (r : Words5) (p : Nat) (hp : p < 64) : (recipShift r p).toNat = r.toNat / 2 ^ p := by
  have h := toNat_shrSmall ⟨r.w0, r.w1, r.w2, r.w3⟩ p hp r.w4
  have e : (recipShift r p).toNat = (shrSmall ⟨r.w0, r.w1, r.w2, r.w3⟩ p r.w4).toNat + 2 ^ 256 * (r.w4.toNat / 2 ^ p) := by
    simp only [recipShift, shrSmall, Words5.toNat, U256.toNat, BitVec.toNat_ushiftRight, Nat.shiftRight_eq_div_pow]
  rw [e, h]
  have hr : r.toNat = (⟨r.w0, r.w1, r.w2, r.w3⟩ : U256).toNat + 2 ^ 256 * r.w4.toNat := by
    simp only [Words5.toNat, U256.toNat]
  rw [hr]
  generalize (⟨r.w0, r.w1, r.w2, r.w3⟩ : U256).toNat = x
  have h256 : (2 : Nat) ^ 256 = 2 ^ p * 2 ^ (256 - p) := by rw [← pow_add]; congr 1; omega
  have hd := Nat.mod_add_div r.w4.toNat (2 ^ p)
  rw [h256, Nat.mul_assoc _ _ r.w4.toNat, Nat.add_mul_div_left _ _ (by positivity)]
  rw [Nat.add_assoc]
  congr 1
  conv_rhs => rw [← hd]
  ring

/-- The result of the alignment is R / 2^(62 - s), or 2 * R for s = 63. -/
theorem recipAlign_spec (r : Words5) (s : Nat) (hs : s < 64) (h1 : 2 * (r.toNat : ℤ) < 2 ^ 320) :
    (s = 63 → (recipAlign r (((255 - s) % 64 : Nat) - 1)).toNat = 2 * r.toNat) ∧
    (s < 63 → (recipAlign r (((255 - s) % 64 : Nat) - 1)).toNat = r.toNat / 2 ^ (62 - s)) := by
  have hp : (((255 - s) % 64 : Nat) : ℤ) - 1 = 62 - s := by omega
  rw [hp]
  unfold recipAlign
  refine ⟨fun h => ?_, fun h => ?_⟩
  · rw [if_pos (by omega)]
    exact_mod_cast recipDouble_spec r h1
  · rw [if_neg (by omega)]
    by_cases h2 : s = 62
    · subst h2
      rw [if_neg (by norm_num)]
      simp
    · rw [if_pos (by omega), recipShift_spec _ _ (by omega)]
      congr 2
      omega

/-- From the normalised divisor to the divisor. -/
theorem align_bound {R Y m mu : ℕ} {s : Nat} (hs : s < 64) (hY : Y = m * 2 ^ s) (hm : 2 ^ 192 ≤ m)
    (h1 : (R : ℤ) * Y ≤ 2 ^ 574) (h2 : 2 ^ 574 - 2 ^ 196 < ((R : ℤ) + 1) * Y)
    (e1 : s = 63 → mu = 2 * R) (e2 : s < 63 → mu = R / 2 ^ (62 - s)) :
    mu * m ≤ 2 ^ 512 ∧ 2 ^ 512 < (mu + 3) * m := by
  by_cases h63 : s = 63
  · have hmu := e1 h63
    subst h63 hmu hY
    push_cast at h1 h2
    zify at hm ⊢
    constructor <;> linarith
  · have hmu := e2 (by omega)
    have hdm := Nat.div_add_mod R (2 ^ (62 - s))
    have hml := Nat.mod_lt R (show 0 < 2 ^ (62 - s) by positivity)
    rw [← hmu] at hdm
    have hpw : 2 ^ (62 - s) * 2 ^ s = 2 ^ 62 := by rw [← pow_add]; congr 1; omega
    generalize 2 ^ (62 - s) = a at *
    generalize R % a = t at *
    have hs2 : (0 : ℤ) < 2 ^ s := by positivity
    zify at hm hdm hml hpw ⊢
    rw [hY] at h1 h2
    push_cast at h1 h2
    generalize (2 : ℤ) ^ s = b at *
    have hm0 : (0 : ℤ) ≤ m := by linarith
    have hmb : (0 : ℤ) ≤ m * b := mul_nonneg hm0 hs2.le
    have hR : (R : ℤ) * (m * b) = 2 ^ 62 * (mu * m) + t * (m * b) := by
      rw [← hdm]
      linear_combination (mu * m : ℤ) * hpw
    have ht0 : (0 : ℤ) ≤ t * (m * b) := mul_nonneg (Int.natCast_nonneg _) hmb
    have ht1 : ((t : ℤ) + 1) * (m * b) ≤ a * (m * b) := mul_le_mul_of_nonneg_right (by omega) hmb
    have hab : (a : ℤ) * (m * b) = 2 ^ 62 * m := by linear_combination (m : ℤ) * hpw
    constructor
    · linarith
    · linarith

theorem recipNewton_eq (m : U256) (s : Nat) : recipNewton m s =
    recip0 (((lsh m s).w3 >>> 32).setWidth 32) >>= fun r0 => .ok (recipAlign (recipAdjust (recip4 (recip3 (recip2
      (recip1 r0 (lsh m s).w3) (lsh m s)) (lsh m s)) (lsh m s)) (lsh m s)) (((255 - s) % 64 : Nat) - 1)) := rfl

theorem recipNewton_spec (m : U256) (s : Nat) (hs : s < 64) (h1 : 2 ^ 255 < m.toNat * 2 ^ s) (h2 : m.toNat * 2 ^ s < 2 ^ 256)
    (hm : 2 ^ 192 ≤ m.toNat) : ∃ mu, recipNewton m s = .ok mu ∧ mu.toNat * m.toNat ≤ 2 ^ 512 ∧ 2 ^ 512 < (mu.toNat + 3) * m.toNat := by
  have hyy : (lsh m s).toNat = m.toNat * 2 ^ s := by rw [toNat_lsh, Nat.mod_eq_of_lt h2]
  rw [recipNewton_eq]
  generalize lsh m s = y at *
  have hw0 := y.w0.isLt
  have hw1 := y.w1.isLt
  have hw2 := y.w2.isLt
  have hw3 := y.w3.isLt
  have hY : 2 ^ 255 < y.toNat := by rw [hyy]; exact h1
  have hy3 : 2 ^ 63 ≤ y.w3.toNat := by
    unfold U256.toNat at hY
    omega
  have hyh : ((y.w3 >>> 32).setWidth 32).toNat = y.w3.toNat / 2 ^ 32 := by
    rw [BitVec.toNat_setWidth, BitVec.toNat_ushiftRight, Nat.shiftRight_eq_div_pow, Nat.mod_eq_of_lt (by omega)]
  obtain ⟨r0, e0, a1, a2, a3⟩ := recip0_spec ((y.w3 >>> 32).setWidth 32) (by rw [hyh]; omega)
  rw [hyh] at a1 a2 a3
  rw [e0, Except_bind_ok]
  obtain ⟨b1, b2, b3⟩ := recip1_spec r0 y.w3 hy3 ((y.w3.toNat / 2 ^ 32 : ℕ) : ℤ) (by omega) (by omega) a1 a2 a3
  generalize recip1 r0 y.w3 = r1 at *
  obtain ⟨c1, c2⟩ := recip2_spec r1 y hy3 b1 b2 b3
  generalize recip2 r1 y = r2 at *
  obtain ⟨d1, d2⟩ := recip3_spec r2 y hY c1 c2
  generalize recip3 r2 y = r3 at *
  obtain ⟨f1, f2⟩ := recip4_spec r3 y hY d1 d2
  generalize recip4 r3 y = r4 at *
  obtain ⟨g1, g2⟩ := recipAdjust_spec r4 y hY f1 f2
  generalize recipAdjust r4 y = R at *
  refine ⟨_, rfl, ?_⟩
  have hgt : (2 : ℤ) ^ 255 < y.toNat := by exact_mod_cast hY
  have hR : 2 * (R.toNat : ℤ) < 2 ^ 320 := by
    by_contra hn
    have : 2 ^ 319 * (y.toNat : ℤ) ≤ R.toNat * y.toNat := mul_le_mul_of_nonneg_right (by linarith) (by linarith)
    linarith
  obtain ⟨k1, k2⟩ := recipAlign_spec R s hs hR
  exact align_bound hs hyy hm g1 g2 k1 k2

/-- A number with at most one bit set. -/
theorem pow2_of_and {w : Word} (h : w &&& (w - 1) = 0) (hw : w.toNat ≠ 0) : ∃ k, k < 64 ∧ w.toNat = 2 ^ k := by
  obtain ⟨h1, h2, h3, h4⟩ := len64_spec w
  have h2 := h2 hw
  have h3 := h3 hw
  refine ⟨len64 w - 1, by omega, ?_⟩
  have hle : w.toNat < 2 ^ (len64 w - 1 + 1) := by
    rw [show len64 w - 1 + 1 = len64 w by omega]
    exact h1
  generalize len64 w - 1 = k at *
  by_contra hne
  have hk : 2 ^ k ≤ w.toNat - 1 := by omega
  have hb1 : w.toNat.testBit k = true := by
    rw [Nat.testBit_eq_decide_div_mod_eq]
    have : w.toNat / 2 ^ k = 1 := by
      apply Nat.div_eq_of_lt_le
      · omega
      · rw [pow_succ] at hle
        omega
    simp [this]
  have hb2 : (w.toNat - 1).testBit k = true := by
    rw [Nat.testBit_eq_decide_div_mod_eq]
    have : (w.toNat - 1) / 2 ^ k = 1 := by
      apply Nat.div_eq_of_lt_le
      · omega
      · rw [pow_succ] at hle
        omega
    simp [this]
  have hz : (w &&& (w - 1)).toNat = 0 := by rw [h]; rfl
  have hsub : (w - 1).toNat = w.toNat - 1 := by
    rw [BitVec.toNat_sub, show (1 : Word).toNat = 1 from rfl]
    have := w.isLt
    omega
  rw [BitVec.toNat_and, hsub] at hz
  have : (w.toNat &&& (w.toNat - 1)).testBit k = true := by rw [Nat.testBit_and, hb1, hb2]; rfl
  rw [hz] at this
  simp at this

theorem and_pow2 {w : Word} {k : Nat} (h : w.toNat = 2 ^ k) : w &&& (w - 1) = 0 := by
  apply BitVec.eq_of_toNat_eq
  have hsub : (w - 1).toNat = 2 ^ k - 1 := by
    rw [BitVec.toNat_sub, show (1 : Word).toNat = 1 from rfl, h]
    have := w.isLt
    rw [h] at this
    have : 0 < 2 ^ k := by positivity
    omega
  rw [BitVec.toNat_and, hsub, h, Nat.and_two_pow_sub_one_eq_mod, Nat.mod_self]
  rfl

/-- `Reciprocal` of a modulus of at least 2^192: 2^512 / m, at most two units too small. -/
theorem reciprocal_spec (m : U256) (hm : 2 ^ 192 ≤ m.toNat) : ∃ mu, reciprocal m = .ok mu ∧
    mu.toNat * m.toNat ≤ 2 ^ 512 ∧ 2 ^ 512 < (mu.toNat + 3) * m.toNat := by
  have hw0 := m.w0.isLt
  have hw1 := m.w1.isLt
  have hw2 := m.w2.isLt
  have hw3 := m.w3.isLt
  have hm3 : m.w3.toNat ≠ 0 := by
    unfold U256.toNat at hm
    omega
  unfold reciprocal
  rw [if_neg (fun h => hm3 (by rw [h]; rfl))]
  dsimp only
  obtain ⟨hs, hs1, hs2⟩ := leadingZeros64_spec m.w3 hm3
  by_cases hp : (m.w0 ||| m.w1 ||| m.w2 ||| (m.w3 &&& (m.w3 - 1))) = 0
  · rw [if_pos hp]
    refine ⟨_, rfl, ?_⟩
    rw [word_or_eq_zero, word_or_eq_zero, word_or_eq_zero] at hp
    obtain ⟨⟨⟨z0, z1⟩, z2⟩, z3⟩ := hp
    obtain ⟨k, hk, ek⟩ := pow2_of_and z3 hm3
    have hmv : m.toNat = 2 ^ 192 * 2 ^ k := by
      unfold U256.toNat
      rw [z0, z1, z2, ek]
      simp
    rw [ek] at hs1 hs2
    rw [← pow_add] at hs1 hs2
    have q1 : 63 ≤ k + leadingZeros64 m.w3 := (Nat.pow_le_pow_iff_right (by norm_num)).1 hs1
    have q2 : k + leadingZeros64 m.w3 < 64 := (Nat.pow_lt_pow_iff_right (by norm_num)).1 hs2
    have hsh : (255 - leadingZeros64 m.w3) % 64 = k := by omega
    rw [hsh]
    have hw4 : (BitVec.allOnes 64 >>> k).toNat = 2 ^ (64 - k) - 1 := by
      rw [BitVec.toNat_ushiftRight, Nat.shiftRight_eq_div_pow, BitVec.toNat_allOnes]
      have h64 : (2 : Nat) ^ 64 = 2 ^ k * 2 ^ (64 - k) := by rw [← pow_add]; congr 1; omega
      rw [h64]
      have hp0 : 0 < 2 ^ k := by positivity
      have hq0 : 0 < 2 ^ (64 - k) := by positivity
      generalize 2 ^ k = a at *
      generalize 2 ^ (64 - k) = b at *
      apply Nat.div_eq_of_lt_le
      · zify [Nat.one_le_of_lt hq0, Nat.one_le_of_lt (Nat.mul_pos hp0 hq0)]
        zify at hp0 hq0
        nlinarith
      · zify [Nat.one_le_of_lt hq0, Nat.one_le_of_lt (Nat.mul_pos hp0 hq0)]
        zify at hp0 hq0
        nlinarith
    have hmu : (⟨BitVec.allOnes 64, BitVec.allOnes 64, BitVec.allOnes 64, BitVec.allOnes 64, BitVec.allOnes 64 >>> k⟩ :
        Words5).toNat + 1 = 2 ^ 256 * 2 ^ (64 - k) := by
      simp only [Words5.toNat, hw4, BitVec.toNat_allOnes]
      have hq0 : 0 < 2 ^ (64 - k) := by positivity
      omega
    generalize (⟨BitVec.allOnes 64, BitVec.allOnes 64, BitVec.allOnes 64, BitVec.allOnes 64, BitVec.allOnes 64 >>> k⟩ :
        Words5).toNat = mu at *
    have hprod : (mu + 1) * m.toNat = 2 ^ 512 := by
      rw [hmu, hmv]
      have h64 : (2 : Nat) ^ (64 - k) * 2 ^ k = 2 ^ 64 := by rw [← pow_add]; congr 1; omega
      calc 2 ^ 256 * 2 ^ (64 - k) * (2 ^ 192 * 2 ^ k) = 2 ^ 256 * 2 ^ 192 * (2 ^ (64 - k) * 2 ^ k) := by ring
        _ = _ := by rw [h64]; norm_num
    generalize m.toNat = M at *
    constructor
    · linarith
    · linarith
  · rw [if_neg hp]
    have hlo : m.toNat = (m.w0.toNat + 2 ^ 64 * m.w1.toNat + 2 ^ 128 * m.w2.toNat) + 2 ^ 192 * m.w3.toNat := rfl
    generalize hse : leadingZeros64 m.w3 = s at *
    have hpw : 2 ^ s ≤ 2 ^ 63 := Nat.pow_le_pow_right (by norm_num) (by omega)
    have hp0 : 0 < 2 ^ s := by positivity
    have hlt : m.toNat * 2 ^ s < 2 ^ 256 := by
      have h64 : (2 : Nat) ^ 64 = 2 ^ (64 - s) * 2 ^ s := by rw [← pow_add]; congr 1; omega
      have hw : m.w3.toNat < 2 ^ (64 - s) := by
        rw [h64] at hs2
        exact lt_of_mul_lt_mul_right hs2 (Nat.zero_le _)
      have : m.toNat < 2 ^ 192 * 2 ^ (64 - s) := by
        rw [hlo]
        have : m.w0.toNat + 2 ^ 64 * m.w1.toNat + 2 ^ 128 * m.w2.toNat < 2 ^ 192 := by omega
        have : 2 ^ 192 * (m.w3.toNat + 1) ≤ 2 ^ 192 * 2 ^ (64 - s) := Nat.mul_le_mul_left _ hw
        omega
      calc m.toNat * 2 ^ s < 2 ^ 192 * 2 ^ (64 - s) * 2 ^ s := Nat.mul_lt_mul_of_pos_right this hp0
        _ = 2 ^ 192 * (2 ^ (64 - s) * 2 ^ s) := by ring
        _ = _ := by rw [← h64]; norm_num
    refine recipNewton_spec m s hs ?_ hlt hm
    by_contra hn
    apply hp
    have hge : 2 ^ 192 * (m.w3.toNat * 2 ^ s) ≤ m.toNat * 2 ^ s := by
      rw [hlo]
      have : (2 ^ 192 * m.w3.toNat) * 2 ^ s ≤ ((m.w0.toNat + 2 ^ 64 * m.w1.toNat + 2 ^ 128 * m.w2.toNat) + 2 ^ 192 * m.w3.toNat) * 2 ^ s :=
        Nat.mul_le_mul_right _ (by omega)
      linarith
    have hw : m.w3.toNat * 2 ^ s = 2 ^ 63 := by
      have : 2 ^ 192 * (m.w3.toNat * 2 ^ s) ≤ 2 ^ 255 := by linarith
      omega
    have hlow : (m.w0.toNat + 2 ^ 64 * m.w1.toNat + 2 ^ 128 * m.w2.toNat) * 2 ^ s = 0 := by
      have e : m.toNat * 2 ^ s = (m.w0.toNat + 2 ^ 64 * m.w1.toNat + 2 ^ 128 * m.w2.toNat) * 2 ^ s + 2 ^ 192 * (m.w3.toNat * 2 ^ s) := by
        rw [hlo]; ring
      rw [hw] at e
      have : m.toNat * 2 ^ s ≤ 2 ^ 255 := by omega
      generalize m.toNat * 2 ^ s = A at *
      generalize (m.w0.toNat + 2 ^ 64 * m.w1.toNat + 2 ^ 128 * m.w2.toNat) * 2 ^ s = C at *
      omega
    have hlow0 : m.w0.toNat + 2 ^ 64 * m.w1.toNat + 2 ^ 128 * m.w2.toNat = 0 := by
      rcases Nat.mul_eq_zero.1 hlow with h | h
      · exact h
      · omega
    have hw3' : m.w3.toNat = 2 ^ (63 - s) := by
      have : 2 ^ (63 - s) * 2 ^ s = 2 ^ 63 := by rw [← pow_add]; congr 1; omega
      rw [← this] at hw
      exact Nat.eq_of_mul_eq_mul_right hp0 hw
    rw [word_or_eq_zero, word_or_eq_zero, word_or_eq_zero]
    refine ⟨⟨⟨?_, ?_⟩, ?_⟩, and_pow2 hw3'⟩
    · exact BitVec.eq_of_toNat_eq (by rw [show (0 : Word).toNat = 0 from rfl]; omega)
    · exact BitVec.eq_of_toNat_eq (by rw [show (0 : Word).toNat = 0 from rfl]; omega)
    · exact BitVec.eq_of_toNat_eq (by rw [show (0 : Word).toNat = 0 from rfl]; omega)

end Uni.U256
