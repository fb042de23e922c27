import Verif.Proofs.Shift
import Verif.Proofs.Mul
/-! Bit length, exponentiation, square root, signed division, modular addition. -/
namespace Uni
namespace U256

theorem bitLen_spec (x : U256) : x.toNat < 2 ^ bitLen x ∧ (x.toNat ≠ 0 → 2 ^ (bitLen x - 1) ≤ x.toNat) ∧
    bitLen x ≤ 256 ∧ (x.toNat ≠ 0 → 1 ≤ bitLen x) := by
  have h0 := x.w0.isLt; have h1 := x.w1.isLt; have h2 := x.w2.isLt; have h3 := x.w3.isLt
  have key : ∀ (k : Nat) (w : Word) (lo : Nat), lo < 2 ^ k → w.toNat ≠ 0 → x.toNat = lo + 2 ^ k * w.toNat →
      bitLen x = k + len64 w → k ≤ 192 → x.toNat < 2 ^ bitLen x ∧ (x.toNat ≠ 0 → 2 ^ (bitLen x - 1) ≤ x.toNat) ∧
      bitLen x ≤ 256 ∧ (x.toNat ≠ 0 → 1 ≤ bitLen x) := by
    intro k w lo hlo hw hx hb hk
    obtain ⟨l1, l2, l3, l4⟩ := len64_spec w
    have l2 := l2 hw
    have l3 := l3 hw
    rw [hb, hx]
    refine ⟨?_, fun _ => ?_, by omega, fun _ => by omega⟩
    · have : 2 ^ k * (w.toNat + 1) ≤ 2 ^ k * 2 ^ len64 w := Nat.mul_le_mul_left _ l1
      rw [← pow_add, Nat.mul_add, Nat.mul_one] at this
      omega
    · have : 2 ^ k * 2 ^ (len64 w - 1) ≤ 2 ^ k * w.toNat := Nat.mul_le_mul_left _ l2
      rw [← pow_add, show k + (len64 w - 1) = k + len64 w - 1 by omega] at this
      omega
  have nz : ∀ w : Word, w ≠ 0 → w.toNat ≠ 0 := fun w hw h => hw (word_ext h)
  by_cases c3 : x.w3 = 0
  · by_cases c2 : x.w2 = 0
    · by_cases c1 : x.w1 = 0
      · by_cases c0 : x.w0 = 0
        · have hx : x.toNat = 0 := by simp [toNat, c0, c1, c2, c3]
          rw [hx]
          refine ⟨by positivity, by simp, ?_, by simp⟩
          simp only [bitLen, c0, c1, c2, c3]
          decide
        · apply key 0 x.w0 0 (by norm_num) (nz _ c0)
          · simp [toNat, c1, c2, c3]
          · simp [bitLen, c1, c2, c3]
          · omega
      · apply key 64 x.w1 x.w0.toNat h0 (nz _ c1)
        · simp [toNat, c2, c3]
        · have : (x.w1 != 0) = true := by simpa using c1
          simp only [bitLen, this, c2, c3]; simp
        · omega
    · apply key 128 x.w2 (x.w0.toNat + 2 ^ 64 * x.w1.toNat) (by omega) (nz _ c2)
      · simp [toNat, c3]
      · have : (x.w2 != 0) = true := by simpa using c2
        simp only [bitLen, this, c3]; simp
      · omega
  · apply key 192 x.w3 (x.w0.toNat + 2 ^ 64 * x.w1.toNat + 2 ^ 128 * x.w2.toNat) (by omega) (nz _ c3)
    · simp [toNat]
    · have : (x.w3 != 0) = true := by simpa using c3
      simp only [bitLen, this]; simp
    · omega

/-! ### Exp -/

theorem expLoop_spec (k : Nat) : ∀ (w : Word) (res m : U256),
    (expLoop k w res m).1.toNat = res.toNat * m.toNat ^ (w.toNat % 2 ^ k) % 2 ^ 256 ∧
    (expLoop k w res m).2.toNat % 2 ^ 256 = m.toNat ^ (2 ^ k) % 2 ^ 256 := by
  induction k with
  | zero =>
    intro w res m
    simp only [expLoop, pow_zero, Nat.mod_one, pow_one, Nat.mul_one]
    exact ⟨(Nat.mod_eq_of_lt res.toNat_lt).symm, trivial⟩
  | succ k ih =>
    intro w res m
    obtain ⟨h1, h2⟩ := ih (w >>> 1) (if w &&& 1 == 1 then mul res m else res) (squared m)
    simp only [expLoop]
    have hsq : ∀ e, (squared m).toNat ^ e % 2 ^ 256 = m.toNat ^ (2 * e) % 2 ^ 256 := by
      intro e
      rw [toNat_squared, ← Nat.pow_mod, pow_mul, pow_two]
    constructor
    · rw [h1]
      have hw : (w >>> 1).toNat = w.toNat / 2 := by
        rw [BitVec.toNat_ushiftRight, Nat.shiftRight_eq_div_pow, pow_one]
      have hb : (w &&& 1 == 1) = decide (w.toNat % 2 = 1) := by
        have : (w &&& 1).toNat = w.toNat % 2 := by
          rw [BitVec.toNat_and]
          have : (1 : Word).toNat = 1 := rfl
          rw [this, Nat.and_one_is_mod]
        rw [Bool.eq_iff_iff, beq_iff_eq, decide_eq_true_iff]
        constructor
        · intro h; rw [← this, h]; rfl
        · intro h; apply word_ext; rw [this, h]; rfl
      rw [hw, hb]
      have hdiv : w.toNat % 2 ^ (k + 1) = w.toNat % 2 + 2 * (w.toNat / 2 % 2 ^ k) := by
        rw [pow_succ', Nat.mod_mul]
      rw [hdiv, pow_add]
      generalize w.toNat / 2 % 2 ^ k = e
      have key : ∀ a : Nat, a * (squared m).toNat ^ e % 2 ^ 256 = a * m.toNat ^ (2 * e) % 2 ^ 256 := by
        intro a
        rw [Nat.mul_mod, hsq, ← Nat.mul_mod]
      rcases Nat.mod_two_eq_zero_or_one w.toNat with h0 | h0
      · rw [h0]; simp only [Nat.zero_ne_one, decide_false, Bool.false_eq_true, if_false, pow_zero, Nat.one_mul]
        rw [key]
      · rw [h0]; simp only [decide_true, if_true, pow_one]
        rw [toNat_mul, Nat.mod_mul_mod, key, Nat.mul_assoc]
    · rw [h2, hsq, ← pow_succ']

theorem toNat_exp (base exponent : U256) : (exp base exponent).toNat = base.toNat ^ exponent.toNat % 2 ^ 256 := by
  obtain ⟨hb1, _, hb3, _⟩ := bitLen_spec exponent
  unfold exp
  dsimp only
  generalize exponent.bitLen = n at *
  have a1 := expLoop_spec (min n 64) exponent.w0 one base
  generalize expLoop (min n 64) exponent.w0 one base = r1 at *
  have a2 := expLoop_spec (min n 128 - 64) exponent.w1 r1.1 r1.2
  generalize expLoop (min n 128 - 64) exponent.w1 r1.1 r1.2 = r2 at *
  have a3 := expLoop_spec (min n 192 - 128) exponent.w2 r2.1 r2.2
  generalize expLoop (min n 192 - 128) exponent.w2 r2.1 r2.2 = r3 at *
  have a4 := expLoop_spec (min n 256 - 192) exponent.w3 r3.1 r3.2
  generalize expLoop (min n 256 - 192) exponent.w3 r3.1 r3.2 = r4 at *
  -- multipliers
  have pm : ∀ (x : U256) (b k e : Nat), x.toNat % 2 ^ 256 = b ^ k % 2 ^ 256 → x.toNat ^ e % 2 ^ 256 = b ^ (k * e) % 2 ^ 256 := by
    intro x b k e h
    rw [Nat.pow_mod, h, ← Nat.pow_mod, pow_mul]
  have step : ∀ (x y m : U256) (b k e a : Nat), x.toNat = y.toNat * m.toNat ^ e % 2 ^ 256 → y.toNat = b ^ a % 2 ^ 256 →
      (m.toNat % 2 ^ 256 = b ^ k % 2 ^ 256) → x.toNat = b ^ (a + k * e) % 2 ^ 256 := by
    intro x y m b k e a h1 h2 h3
    rw [h1, h2, Nat.mod_mul_mod, Nat.mul_mod, pm m b k e h3, ← Nat.mul_mod, pow_add]
  have e1 : r1.1.toNat = base.toNat ^ (exponent.w0.toNat % 2 ^ (min n 64)) % 2 ^ 256 := by
    rw [a1.1, toNat_one, Nat.one_mul]
  have m1 := a1.2
  have e2 := step _ _ _ _ _ _ _ a2.1 e1 m1
  have m2 : r2.2.toNat % 2 ^ 256 = base.toNat ^ (2 ^ (min n 64) * 2 ^ (min n 128 - 64)) % 2 ^ 256 := by
    rw [a2.2]; exact pm _ _ _ _ m1
  have e3 := step _ _ _ _ _ _ _ a3.1 e2 m2
  have m3 : r3.2.toNat % 2 ^ 256 = base.toNat ^ (2 ^ (min n 64) * 2 ^ (min n 128 - 64) * 2 ^ (min n 192 - 128)) % 2 ^ 256 := by
    rw [a3.2]; exact pm _ _ _ _ m2
  have e4 := step _ _ _ _ _ _ _ a4.1 e3 m3
  rw [e4]
  congr 2
  have h0 := exponent.w0.isLt; have h1 := exponent.w1.isLt; have h2 := exponent.w2.isLt; have h3 := exponent.w3.isLt
  unfold toNat at hb1 ⊢
  have wz : ∀ k, n ≤ k → exponent.w0.toNat + 2 ^ 64 * exponent.w1.toNat + 2 ^ 128 * exponent.w2.toNat +
      2 ^ 192 * exponent.w3.toNat < 2 ^ k := fun k hk =>
    lt_of_lt_of_le hb1 (Nat.pow_le_pow_right (by norm_num) hk)
  by_cases c1 : n ≤ 64
  · have := wz 64 c1
    have z1 : exponent.w1.toNat = 0 := by omega
    have z2 : exponent.w2.toNat = 0 := by omega
    have z3 : exponent.w3.toNat = 0 := by omega
    rw [Nat.min_eq_left c1]
    rw [z1, z2, z3] at hb1 ⊢
    rw [Nat.mod_eq_of_lt (show exponent.w0.toNat < 2 ^ n by omega)]
    simp
  · by_cases c2 : n ≤ 128
    · have := wz 128 c2
      have z2 : exponent.w2.toNat = 0 := by omega
      have z3 : exponent.w3.toNat = 0 := by omega
      have hp : (2 : Nat) ^ n = 2 ^ 64 * 2 ^ (n - 64) := by rw [← pow_add]; congr 1; omega
      rw [Nat.min_eq_right (show 64 ≤ n by omega), Nat.min_eq_left c2, Nat.mod_eq_of_lt h0]
      rw [z2, z3, hp] at hb1
      rw [z2, z3, Nat.mod_eq_of_lt (show exponent.w1.toNat < 2 ^ (n - 64) by
        apply Nat.lt_of_mul_lt_mul_left (a := 2 ^ 64); omega)]
      simp
    · by_cases c3 : n ≤ 192
      · have := wz 192 c3
        have z3 : exponent.w3.toNat = 0 := by omega
        have hp : (2 : Nat) ^ n = 2 ^ 128 * 2 ^ (n - 128) := by rw [← pow_add, Nat.add_sub_cancel' (by omega)]
        rw [Nat.min_eq_right (show 64 ≤ n by omega), Nat.min_eq_right (show 128 ≤ n by omega), Nat.min_eq_left c3,
          Nat.mod_eq_of_lt h0, Nat.mod_eq_of_lt h1]
        rw [z3, hp] at hb1
        rw [z3, Nat.mod_eq_of_lt (show exponent.w2.toNat < 2 ^ (n - 128) by
          have h5 : 2 ^ 128 * exponent.w2.toNat < 2 ^ 128 * 2 ^ (n - 128) := by
            generalize 2 ^ 128 * 2 ^ (n - 128) = B at *; omega
          exact Nat.lt_of_mul_lt_mul_left h5)]
        simp
      · have hp : (2 : Nat) ^ n = 2 ^ 192 * 2 ^ (n - 192) := by rw [← pow_add, Nat.add_sub_cancel' (by omega)]
        rw [Nat.min_eq_right (show 64 ≤ n by omega), Nat.min_eq_right (show 128 ≤ n by omega),
          Nat.min_eq_right (show 192 ≤ n by omega), Nat.min_eq_left hb3,
          Nat.mod_eq_of_lt h0, Nat.mod_eq_of_lt h1, Nat.mod_eq_of_lt h2]
        rw [hp] at hb1
        rw [Nat.mod_eq_of_lt (show exponent.w3.toNat < 2 ^ (n - 192) by
          have h5 : 2 ^ 192 * exponent.w3.toNat < 2 ^ 192 * 2 ^ (n - 192) := by
            generalize 2 ^ 192 * 2 ^ (n - 192) = B at *; omega
          exact Nat.lt_of_mul_lt_mul_left h5)]
        simp

/-! ### Sqrt -/

/-- One Newton step from above. -/
theorem newton {x s z : Nat} (hs1 : s * s ≤ x) (hs2 : x < (s + 1) * (s + 1)) (hz : s ≤ z) (hz0 : 0 < z) :
    (z = s → z ≤ (x / z + z) / 2) ∧ (s < z → (x / z + z) / 2 < z ∧ s ≤ (x / z + z) / 2 ∧
      2 * ((x / z + z) / 2 - s) ≤ z - s ∧ x / z ≤ s) := by
  constructor
  · intro h
    subst h
    have : z ≤ x / z := (Nat.le_div_iff_mul_le hz0).2 hs1
    omega
  · intro h
    have h1 : x / z ≤ s := by
      have : x / z < s + 1 := by
        rw [Nat.div_lt_iff_lt_mul hz0]
        calc x < (s + 1) * (s + 1) := hs2
          _ ≤ (s + 1) * z := Nat.mul_le_mul_left _ h
      omega
    -- AM-GM: x/z + z ≥ 2 s
    have h2 : 2 * s ≤ x / z + z := by
      by_cases hc : 2 * s ≤ z
      · exact le_trans hc (Nat.le_add_left _ _)
      · have : 2 * s - z ≤ x / z := by
          rw [Nat.le_div_iff_mul_le hz0]
          obtain ⟨k, rfl⟩ : ∃ k, z = s + k := ⟨z - s, by omega⟩
          have e : 2 * s - (s + k) = s - k := by omega
          rw [e]
          obtain ⟨j, rfl⟩ : ∃ j, s = k + j := ⟨s - k, by omega⟩
          rw [Nat.add_sub_cancel_left]
          refine le_trans ?_ hs1
          nlinarith
        omega
    refine ⟨by omega, by omega, by omega, h1⟩

theorem sqrtLoop_spec (x : U256) (s : Nat) (hs1 : s * s ≤ x.toNat) (hs2 : x.toNat < (s + 1) * (s + 1)) (hs0 : 0 < s) :
    ∀ (k fuel : Nat) (z : U256), s ≤ z.toNat → z.toNat ≤ 2 ^ 128 → z.toNat - s < 2 ^ k → k + 1 ≤ fuel →
      ∃ r, sqrtLoop x fuel z = .ok r ∧ r.toNat = s := by
  have hs128 : s < 2 ^ 128 := by
    by_contra h
    have : 2 ^ 128 * 2 ^ 128 ≤ s * s := Nat.mul_le_mul (by omega) (by omega)
    have := x.toNat_lt
    omega
  intro k
  induction k with
  | zero =>
    intro fuel z hz hzb hk hf
    obtain ⟨f, rfl⟩ : ∃ f, fuel = f + 1 := ⟨fuel - 1, by omega⟩
    have hzs : z.toNat = s := by simp at hk; omega
    obtain ⟨q, hq, hqv⟩ := div_spec x z
    have hn := (newton hs1 hs2 hz (by omega)).1 hzs
    unfold sqrtLoop
    rw [hq]
    simp only [Except_bind_ok]
    have hq2 : x.toNat / z.toNat ≤ s + 2 := by
      have : x.toNat / z.toNat < s + 3 := by
        rw [Nat.div_lt_iff_lt_mul (by omega), hzs]
        nlinarith
      omega
    have hz2 : (rsh1 (add q z)).toNat = (x.toNat / z.toNat + z.toNat) / 2 := by
      rw [toNat_rsh1, toNat_add_of_lt (by omega), hqv]
    rw [if_pos]
    · exact ⟨z, rfl, hzs⟩
    · rw [cmp_spec, hz2, if_neg (by omega)]
      split <;> simp
  | succ k ih =>
    intro fuel z hz hzb hk hf
    obtain ⟨f, rfl⟩ : ∃ f, fuel = f + 1 := ⟨fuel - 1, by omega⟩
    by_cases hzs : z.toNat = s
    · exact ih (f + 1) z hz hzb (by rw [hzs]; simp) (by omega)
    · obtain ⟨q, hq, hqv⟩ := div_spec x z
      obtain ⟨n1, n2, n3, n4⟩ := (newton hs1 hs2 hz (by omega)).2 (by omega)
      unfold sqrtLoop
      rw [hq]
      simp only [Except_bind_ok]
      have hz2 : (rsh1 (add q z)).toNat = (x.toNat / z.toNat + z.toNat) / 2 := by
        rw [toNat_rsh1, toNat_add_of_lt (by omega), hqv]
      rw [if_neg]
      · apply ih
        · omega
        · omega
        · rw [hz2]; rw [pow_succ'] at hk; omega
        · omega
      · rw [cmp_spec, hz2, if_pos n1]; simp

theorem sqrtFuel_spec (x : U256) (fuel : Nat) (hf : 130 ≤ fuel) :
    ∃ r, sqrtFuel fuel x = .ok r ∧ r.toNat * r.toNat ≤ x.toNat ∧ x.toNat < (r.toNat + 1) * (r.toNat + 1) := by
  unfold sqrtFuel
  by_cases h : x.ltUint64 2 = true
  · rw [if_pos h]
    rw [ltUint64_iff] at h
    have h2 : (2 : Word).toNat = 2 := rfl
    rw [h2] at h
    refine ⟨x, rfl, ?_, ?_⟩ <;> nlinarith
  · rw [if_neg h]
    rw [ltUint64_iff] at h
    have h2 : (2 : Word).toNat = 2 := rfl
    rw [h2] at h
    have hs1 := Nat.sqrt_le x.toNat
    have hs3 := Nat.lt_succ_sqrt x.toNat
    have hs0 : 0 < Nat.sqrt x.toNat := Nat.sqrt_pos.2 (by omega)
    obtain ⟨b1, b2, b3, b4⟩ := bitLen_spec x
    have b4 := b4 (by omega)
    have hl : (lsh one ((x.bitLen + 1) / 2)).toNat = 2 ^ ((x.bitLen + 1) / 2) := by
      rw [toNat_lsh, toNat_one, Nat.one_mul]
      apply Nat.mod_eq_of_lt
      exact Nat.pow_lt_pow_right (by norm_num) (by omega)
    have hub : 2 ^ ((x.bitLen + 1) / 2) ≤ 2 ^ 128 := Nat.pow_le_pow_right (by norm_num) (by omega)
    have hlb : Nat.sqrt x.toNat ≤ 2 ^ ((x.bitLen + 1) / 2) := by
      by_contra hc
      have hc : 2 ^ ((x.bitLen + 1) / 2) + 1 ≤ Nat.sqrt x.toNat := by omega
      have h3 : 2 ^ ((x.bitLen + 1) / 2) * 2 ^ ((x.bitLen + 1) / 2) ≤ Nat.sqrt x.toNat * Nat.sqrt x.toNat :=
        Nat.mul_le_mul (by omega) (by omega)
      rw [← pow_add] at h3
      have h4 : 2 ^ x.bitLen ≤ 2 ^ ((x.bitLen + 1) / 2 + (x.bitLen + 1) / 2) :=
        Nat.pow_le_pow_right (by norm_num) (by omega)
      omega
    obtain ⟨r, hr, hrs⟩ := sqrtLoop_spec x (Nat.sqrt x.toNat) hs1 hs3 hs0 129 fuel _ (by rw [hl]; exact hlb)
      (by rw [hl]; exact hub) (by rw [hl]; have : (2 : Nat) ^ 128 < 2 ^ 129 := by norm_num
                                  omega) (by omega)
    exact ⟨r, hr, by rw [hrs]; exact hs1, by rw [hrs]; exact hs3⟩

theorem sqrt_spec (x : U256) : ∃ r, sqrt x = .ok r ∧ r.toNat = Nat.sqrt x.toNat := by
  obtain ⟨r, h1, h2, h3⟩ := sqrtFuel_spec x 300 (by omega)
  refine ⟨r, h1, ?_⟩
  exact (Nat.eq_sqrt.2 ⟨h2, h3⟩)

/-! ### Signed division -/

theorem toNat_neg_of_neg {x : U256} (h : x.toInt ≤ 0) : ((neg x).toNat : Int) = -x.toInt := by
  rw [toNat_neg]
  have hr := x.toNat_lt
  unfold toInt at *
  split at h <;> rename_i h1
  · have : x.toNat = 0 := by omega
    rw [this, if_pos (by norm_num)]; rfl
  · rw [if_neg h1]; omega

theorem toNat_of_nonneg {x : U256} (h : 0 ≤ x.toInt) : (x.toNat : Int) = x.toInt := by
  have hr := x.toNat_lt
  unfold toInt at *
  split at h <;> rename_i h1
  · rw [if_pos h1]
  · omega

theorem neg_emod (z : U256) : ((neg z).toNat : Int) = (-(z.toNat : Int)) % 2 ^ 256 := by
  rw [toNat_neg]
  have := z.toNat_lt
  omega

theorem sgn_pos (a : Int) : 0 < a.sign ↔ 0 < a := by
  rcases lt_trichotomy a 0 with h | h | h
  · rw [Int.sign_eq_neg_one_of_neg h]; omega
  · rw [h]; rfl
  · rw [Int.sign_eq_one_of_pos h]; omega

theorem sgn_neg (a : Int) : a.sign < 0 ↔ a < 0 := by
  rcases lt_trichotomy a 0 with h | h | h
  · rw [Int.sign_eq_neg_one_of_neg h]; omega
  · rw [h]; rfl
  · rw [Int.sign_eq_one_of_pos h]; omega

/-- `SDiv` truncates towards zero, modulo 2^256; a zero divisor gives 0. -/
theorem sdiv_spec (n d : U256) : ∃ z, sdiv n d = .ok z ∧ (z.toNat : Int) = (n.toInt.tdiv d.toInt) % 2 ^ 256 := by
  unfold sdiv
  rw [sign_eq_toInt, sign_eq_toInt]
  have fin : ∀ z : U256, ((z.toNat : Int) % 2 ^ 256) = z.toNat := fun z => by have := z.toNat_lt; omega
  by_cases hn : 0 < n.toInt
  · rw [if_pos (by rwa [sgn_pos])]
    by_cases hd : 0 < d.toInt
    · rw [if_pos (by rwa [sgn_pos])]
      obtain ⟨z, hz, hv⟩ := div_spec n d
      refine ⟨z, hz, ?_⟩
      rw [← toNat_of_nonneg hn.le, ← toNat_of_nonneg hd.le, ← Int.ofNat_tdiv, ← hv, fin]
    · rw [if_neg (by rwa [sgn_pos])]
      obtain ⟨z, hz, hv⟩ := div_spec n (neg d)
      rw [hz]
      refine ⟨neg z, rfl, ?_⟩
      rw [neg_emod, hv, Int.natCast_ediv, toNat_of_nonneg hn.le, toNat_neg_of_neg (by omega)]
      rw [← Int.tdiv_eq_ediv_of_nonneg hn.le, Int.tdiv_neg, Int.neg_neg]
  · rw [if_neg (by rwa [sgn_pos])]
    by_cases hd : d.toInt < 0
    · rw [if_pos (by rwa [sgn_neg])]
      obtain ⟨z, hz, hv⟩ := div_spec (neg n) (neg d)
      refine ⟨z, hz, ?_⟩
      have : (n.toInt.tdiv d.toInt) = z.toNat := by
        rw [hv, Int.natCast_ediv, toNat_neg_of_neg (by omega), toNat_neg_of_neg (by omega),
          ← Int.tdiv_eq_ediv_of_nonneg (by omega), Int.neg_tdiv_neg]
      rw [this, fin]
    · rw [if_neg (by rwa [sgn_neg])]
      obtain ⟨z, hz, hv⟩ := div_spec (neg n) d
      rw [hz]
      refine ⟨neg z, rfl, ?_⟩
      rw [neg_emod, hv, Int.natCast_ediv, toNat_neg_of_neg (by omega), toNat_of_nonneg (by omega),
        ← Int.tdiv_eq_ediv_of_nonneg (by omega), Int.neg_tdiv, Int.neg_neg]

/-- `SMod`: sign of the dividend; a zero divisor gives 0. -/
theorem smod_spec (x y : U256) : ∃ z, smod x y = .ok z ∧
    z.toInt = if y.toInt = 0 then 0 else x.toInt.tmod y.toInt := by
  unfold smod
  dsimp only
  rw [sign_eq_toInt, sign_eq_toInt]
  -- absolute values
  have habs : ∀ a : U256, ((if a.toInt.sign = -1 then neg a else a).toNat : Int) = |a.toInt| := by
    intro a
    by_cases h : a.toInt < 0
    · rw [if_pos (Int.sign_eq_neg_one_of_neg h), toNat_neg_of_neg h.le, abs_of_neg h]
    · rw [if_neg, toNat_of_nonneg (by omega), abs_of_nonneg (by omega)]
      intro hs
      exact h (Int.sign_eq_neg_one_iff_neg.1 hs)
  have hx := habs x
  have hy := habs y
  generalize (if x.toInt.sign = -1 then neg x else x) = x' at *
  generalize (if y.toInt.sign = -1 then neg y else y) = y' at *
  obtain ⟨z, hz, hv⟩ := mod_spec x' y'
  rw [hz]
  simp only [Except_bind_ok]
  have hyz : y'.toNat = 0 ↔ y.toInt = 0 := by
    constructor
    · intro h
      rw [h] at hy
      exact abs_eq_zero.1 hy.symm
    · intro h
      rw [h] at hy
      simpa using hy
  refine ⟨_, rfl, ?_⟩
  by_cases h0 : y.toInt = 0
  · rw [if_pos h0]
    rw [if_pos (hyz.2 h0)] at hv
    have z0 : z = zero := ext_toNat (by rw [hv, toNat_zero])
    subst z0
    split
    · decide +kernel
    · decide +kernel
  · rw [if_neg h0]
    rw [if_neg (fun h => h0 (hyz.1 h))] at hv
    have hv' : (z.toNat : Int) = |x.toInt| % |y.toInt| := by
      rw [hv, Int.natCast_emod, hx, hy]
    have hypos : 0 < |y.toInt| := abs_pos.2 h0
    have hlt : (z.toNat : Int) < |y.toInt| := by rw [hv']; exact Int.emod_lt_of_pos _ hypos
    have hyr := toInt_range y
    have hyb : |y.toInt| ≤ 2 ^ 255 := abs_le.2 ⟨hyr.1, by omega⟩
    have hzi : z.toInt = z.toNat := toInt_of_lt (by omega)
    have hzn : (neg z).toInt = -z.toNat := by
      rw [toInt_neg_of z (by rw [hzi]; omega), hzi]
    have ht : x.toInt.tmod |y.toInt| = x.toInt.tmod y.toInt := by
      rcases abs_choice y.toInt with h | h
      · rw [h]
      · rw [h, Int.tmod_neg]
    by_cases hs : x.toInt < 0
    · rw [if_pos (Int.sign_eq_neg_one_of_neg hs), hzn, hv', abs_of_neg hs, ← ht,
        ← Int.tmod_eq_emod_of_nonneg (by omega), Int.neg_tmod, Int.neg_neg]
    · rw [if_neg (fun h => hs (Int.sign_eq_neg_one_iff_neg.1 h)), hzi, hv', abs_of_nonneg (by omega), ← ht,
        Int.tmod_eq_emod_of_nonneg (by omega)]

/-- `AddMod` with a 257-bit intermediate sum. -/
theorem addMod_spec (x y m : U256) : ∃ z, addMod x y m = .ok z ∧
    z.toNat = if m.toNat = 0 then 0 else (x.toNat + y.toNat) % m.toNat := by
  unfold addMod
  have hxl := x.toNat_lt; have hyl := y.toNat_lt; have hml := m.toNat_lt
  by_cases h : m.w3 ≠ 0 ∧ x.w3 ≤ m.w3 ∧ y.w3 ≤ m.w3
  · rw [if_pos h]
    dsimp only
    obtain ⟨h1, h2, h3⟩ := h
    rw [word_le_iff] at h2 h3
    have hm3 : m.w3.toNat ≠ 0 := fun e => h1 (word_ext e)
    have bnd : ∀ a : U256, a.w3.toNat ≤ m.w3.toNat → a.toNat < 2 * m.toNat := by
      intro a ha
      have h0 := a.w0.isLt; have h1 := a.w1.isLt; have h2 := a.w2.isLt
      unfold toNat; omega
    have hm0 : m.toNat ≠ 0 := by have := bnd x h2; omega
    rw [if_neg hm0]
    have red : ∀ a : U256, a.toNat < 2 * m.toNat →
        (if (subOverflow a m).2 then a else (subOverflow a m).1).toNat = a.toNat % m.toNat := by
      intro a ha
      by_cases hc : (subOverflow a m).2 = true
      · rw [if_pos hc]
        rw [subOverflow_flag] at hc
        exact (Nat.mod_eq_of_lt hc).symm
      · rw [if_neg hc]
        rw [subOverflow_flag] at hc
        rw [← sub_eq, toNat_sub_of_le (by omega), Nat.mod_eq_sub_mod (by omega), Nat.mod_eq_of_lt (by omega)]
    have hs := red x (bnd x h2)
    have ht := red y (bnd y h3)
    generalize (if (subOverflow x m).2 then x else (subOverflow x m).1) = s at *
    generalize (if (subOverflow y m).2 then y else (subOverflow y m).1) = t at *
    have hsl : s.toNat < m.toNat := by rw [hs]; exact Nat.mod_lt _ (by omega)
    have htl : t.toNat < m.toNat := by rw [ht]; exact Nat.mod_lt _ (by omega)
    refine ⟨_, rfl, ?_⟩
    have e1 : (x.toNat + y.toNat) % m.toNat = (s.toNat + t.toNat) % m.toNat := by
      rw [hs, ht, ← Nat.add_mod]
    rw [e1]
    have key : ∀ a : U256, a.toNat < 2 * m.toNat → a.toNat % m.toNat = (s.toNat + t.toNat) % m.toNat →
        (if (subOverflow a m).2 then a else (subOverflow a m).1).toNat = (s.toNat + t.toNat) % m.toNat := by
      intro a h1 h2
      rw [red a h1, h2]
    by_cases hc : (addOverflow s t).2 = true
    · rw [if_pos hc]
      rw [addOverflow_flag] at hc
      have hv : (sub (addOverflow s t).1 m).toNat = s.toNat + t.toNat - m.toNat := by
        rw [toNat_sub, ← add_eq, toNat_add]
        omega
      apply key
      · rw [hv]; omega
      · rw [hv]; exact (Nat.mod_eq_sub_mod (by omega)).symm
    · rw [if_neg hc]
      rw [addOverflow_flag] at hc
      have hv : (addOverflow s t).1.toNat = s.toNat + t.toNat := by
        rw [← add_eq]; exact toNat_add_of_lt (by omega)
      apply key
      · rw [hv]; omega
      · rw [hv]
  · rw [if_neg h]
    by_cases hz : m.isZero = true
    · rw [if_pos hz]
      rw [isZero_iff] at hz
      exact ⟨zero, rfl, by rw [if_pos hz, toNat_zero]⟩
    · rw [if_neg hz]
      rw [isZero_iff] at hz
      rw [if_neg hz]
      dsimp only
      by_cases hc : (addOverflow x y).2 = true
      · rw [if_pos hc]
        have hsp := addOverflow_spec x y
        rw [if_pos hc] at hsp
        have hval : val [(addOverflow x y).1.w0, (addOverflow x y).1.w1, (addOverflow x y).1.w2,
            (addOverflow x y).1.w3, 1] = x.toNat + y.toNat := by
          rw [← hsp]
          simp only [val_cons, val_nil, toNat, word_toNat_one]
          ring
        have hs5 : sigLen [(addOverflow x y).1.w0, (addOverflow x y).1.w1, (addOverflow x y).1.w2,
            (addOverflow x y).1.w3, 1] = 5 := by
          simp [sigLen]
        have hdl : sigLen m.limbs ≠ 0 := by
          intro h; rw [sigLen_eq_zero, val_limbs] at h; exact hz h
        have := limbs_take_le m
        obtain ⟨q, r, hr, _, _, hv, hlt⟩ := udivrem_spec [0, 0, 0, 0, 0]
          [(addOverflow x y).1.w0, (addOverflow x y).1.w1, (addOverflow x y).1.w2, (addOverflow x y).1.w3, 1] m hz
          (by rw [hval]; rw [addOverflow_flag] at hc; omega) (by rw [hs5]; omega) (by rw [hs5]; simp; omega)
        rw [hr]
        refine ⟨r, rfl, ?_⟩
        rw [hval] at hv
        rw [hv, Nat.mul_comm, Nat.mul_add_mod, Nat.mod_eq_of_lt hlt]
      · rw [if_neg hc]
        obtain ⟨z, hz', hv⟩ := mod_spec (addOverflow x y).1 m
        refine ⟨z, hz', ?_⟩
        rw [addOverflow_flag] at hc
        rw [hv, if_neg hz, ← add_eq, toNat_add_of_lt (by omega)]

end U256
end Uni
