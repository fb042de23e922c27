import Verif.Proofs.TickMath
import Mathlib.Tactic.FieldSimp
import Mathlib.Tactic.Positivity
import Mathlib.Tactic.NormNum
import Mathlib.Tactic.Linarith
import Mathlib.Analysis.Real.Sqrt
/-! Error analysis of the tick table over the real numbers. -/
namespace Uni
namespace TickMath

/-- `1 / sqrt 1.0001`. -/
noncomputable def sg : ℝ := Real.sqrt (10000 / 10001)

/-- Kernel check that `c` is the integer nearest to `2^128 / sqrt(1.0001)^(2^k)`, squared and cross-multiplied. -/
def factorOk (k c : Nat) : Bool :=
  decide ((2 * c - 1) ^ 2 * 10001 ^ (2 ^ k) ≤ 4 * 2 ^ 256 * 10000 ^ (2 ^ k)) &&
  decide (4 * 2 ^ 256 * 10000 ^ (2 ^ k) ≤ (2 * c + 1) ^ 2 * 10001 ^ (2 ^ k)) && decide (0 < c)

/-- All factors, bit index starting at `k`. -/
def factorsOk : Nat → List Nat → Bool
  | _, [] => true
  | k, c :: cs => factorOk k c && factorsOk (k + 1) cs

theorem factorsOk_factors : factorsOk 0 factors = true := by decide +kernel

theorem sg_pos : 0 < sg := Real.sqrt_pos.2 (by norm_num)
theorem sg_le_one : sg ≤ 1 := by unfold sg; rw [Real.sqrt_le_iff]; norm_num
theorem sg_sq (m : Nat) : (sg ^ m) ^ 2 = 10000 ^ m / 10001 ^ m := by
  rw [← pow_mul, mul_comm, pow_mul]
  unfold sg
  rw [Real.sq_sqrt (by norm_num), div_pow]

theorem factor_bounds {k c : Nat} (h : factorOk k c = true) :
    (c : ℝ) - 1 / 2 ≤ 2 ^ 128 * sg ^ (2 ^ k) ∧ 2 ^ 128 * sg ^ (2 ^ k) ≤ (c : ℝ) + 1 / 2 := by
  unfold factorOk at h
  rw [Bool.and_eq_true, Bool.and_eq_true, decide_eq_true_eq, decide_eq_true_eq, decide_eq_true_eq] at h
  obtain ⟨⟨h1, h2⟩, h0⟩ := h
  have hs := sg_sq (2 ^ k)
  have hpos : 0 < sg ^ (2 ^ k) := pow_pos sg_pos _
  generalize sg ^ (2 ^ k) = S at *
  generalize 2 ^ k = m at *
  have hB : (0 : ℝ) < 10001 ^ m := by positivity
  have q1 : (2 * (c : ℝ) - 1) ^ 2 * 10001 ^ m ≤ 4 * 2 ^ 256 * 10000 ^ m := by
    have := (Nat.cast_le (α := ℝ)).2 h1
    rw [Nat.cast_mul, Nat.cast_pow, Nat.cast_sub (by omega)] at this
    push_cast at this
    norm_num at this ⊢
    exact this
  have q2 : 4 * 2 ^ 256 * 10000 ^ m ≤ (2 * (c : ℝ) + 1) ^ 2 * 10001 ^ m := by
    have := (Nat.cast_le (α := ℝ)).2 h2
    push_cast at this
    norm_num at this ⊢
    exact this
  have e : (10000 : ℝ) ^ m = S ^ 2 * 10001 ^ m := by rw [hs]; field_simp
  rw [e] at q1 q2
  have hc : (1 : ℝ) ≤ c := by exact_mod_cast h0
  constructor
  · have : (2 * (c : ℝ) - 1) ^ 2 ≤ (2 * 2 ^ 128 * S) ^ 2 := by
      have : (2 * (c : ℝ) - 1) ^ 2 * 10001 ^ m ≤ (2 * 2 ^ 128 * S) ^ 2 * 10001 ^ m := by
        refine le_trans q1 (le_of_eq ?_); ring
      exact le_of_mul_le_mul_right this hB
    have := sq_le_sq.1 this
    rw [abs_of_nonneg (by linarith), abs_of_nonneg (by positivity)] at this
    linarith
  · have : (2 * 2 ^ 128 * S) ^ 2 ≤ (2 * (c : ℝ) + 1) ^ 2 := by
      have : (2 * 2 ^ 128 * S) ^ 2 * 10001 ^ m ≤ (2 * (c : ℝ) + 1) ^ 2 * 10001 ^ m := by
        refine le_trans (le_of_eq ?_) q2; ring
      exact le_of_mul_le_mul_right this hB
    have := sq_le_sq.1 this
    rw [abs_of_nonneg (by positivity), abs_of_nonneg (by positivity)] at this
    linarith

theorem ms_cast (x c : Nat) : (ms x c : ℝ) ≤ (x : ℝ) * c / 2 ^ 128 ∧ (x : ℝ) * c / 2 ^ 128 ≤ (ms x c : ℝ) + 1 := by
  have h : ms x c * 2 ^ 128 ≤ x * c := Nat.div_mul_le_self _ _
  have h' : x * c ≤ (ms x c + 1) * 2 ^ 128 := le_of_lt (Nat.lt_mul_of_div_lt (Nat.lt_succ_self _) (by norm_num))
  constructor
  · rw [le_div_iff₀ (by positivity)]
    exact_mod_cast h
  · rw [div_le_iff₀ (by positivity)]
    exact_mod_cast h'

theorem chainN_near (cs : List Nat) (hcs : ∀ c ∈ cs, c < 2 ^ 128) (k n x : Nat) (X lo hi : ℝ) (hX0 : 0 ≤ X) (hX : X ≤ 2 ^ 128)
    (hlo : X - lo ≤ x) (hhi : (x : ℝ) ≤ X + hi) (l0 : 0 ≤ lo) (h0 : 0 ≤ hi) (hk : factorsOk k cs = true) (hn : n < 2 ^ cs.length) :
    X * sg ^ (2 ^ k * n) - (lo + 3 / 2 * cs.length) ≤ (chainN cs n x : ℝ) ∧
    (chainN cs n x : ℝ) ≤ X * sg ^ (2 ^ k * n) + (hi + 1 / 2 * cs.length) := by
  induction cs generalizing k n x X lo hi with
  | nil =>
    have : n = 0 := by simpa using hn
    subst this
    simp only [chainN, List.length_nil, mul_zero, pow_zero, mul_one, Nat.cast_zero, add_zero]
    exact ⟨hlo, hhi⟩
  | cons c cs ih =>
    have hc := hcs c (by simp)
    have hcs' : ∀ c ∈ cs, c < 2 ^ 128 := fun c h => hcs c (by simp [h])
    unfold factorsOk at hk
    rw [Bool.and_eq_true] at hk
    rw [List.length_cons, pow_succ] at hn
    unfold chainN
    rw [List.length_cons, Nat.cast_add, Nat.cast_one]
    by_cases h : n % 2 ≠ 0
    · rw [if_pos h]
      obtain ⟨m1, m2⟩ := ms_cast x c
      obtain ⟨f1, f2⟩ := factor_bounds hk.1
      have hS : 0 < sg ^ (2 ^ k) := pow_pos sg_pos _
      have hS1 : sg ^ (2 ^ k) ≤ 1 := pow_le_one₀ (le_of_lt sg_pos) sg_le_one
      have ee : sg ^ (2 ^ k * n) = sg ^ (2 ^ k) * sg ^ (2 ^ (k + 1) * (n / 2)) := by
        rw [← pow_add]; congr 1
        have hn2 : n = 2 * (n / 2) + 1 := by omega
        conv_lhs => rw [hn2]
        ring
      rw [ee, ← mul_assoc]
      generalize sg ^ (2 ^ k) = S at *
      have hcr : (c : ℝ) ≤ 2 ^ 128 := by exact_mod_cast le_of_lt hc
      have hc0 : (0 : ℝ) ≤ c := by positivity
      have hx0 : (0 : ℝ) ≤ x := by positivity
      -- the scaled factor
      have g : (c : ℝ) / 2 ^ 128 ≤ 1 := by rw [div_le_one (by positivity)]; exact hcr
      have g0 : (0 : ℝ) ≤ (c : ℝ) / 2 ^ 128 := by positivity
      have a1 : X * S - X / 2 ^ 129 ≤ X * (c / 2 ^ 128) := by
        have : S ≤ (c : ℝ) / 2 ^ 128 + 1 / 2 ^ 129 := by
          rw [show (c : ℝ) / 2 ^ 128 + 1 / 2 ^ 129 = (c + 1 / 2) / 2 ^ 128 by ring, le_div_iff₀ (by positivity)]
          linarith
        have := mul_le_mul_of_nonneg_left this hX0
        linarith
      have a2 : X * (c / 2 ^ 128) ≤ X * S + X / 2 ^ 129 := by
        have : (c : ℝ) / 2 ^ 128 - 1 / 2 ^ 129 ≤ S := by
          rw [show (c : ℝ) / 2 ^ 128 - 1 / 2 ^ 129 = (c - 1 / 2) / 2 ^ 128 by ring, div_le_iff₀ (by positivity)]
          linarith
        have := mul_le_mul_of_nonneg_left this hX0
        linarith
      have a3 : X / 2 ^ 129 ≤ 1 / 2 := by
        rw [div_le_iff₀ (by positivity)]
        linarith
      have b1 : X * (c / 2 ^ 128) - lo ≤ x * c / 2 ^ 128 := by
        have := mul_le_mul_of_nonneg_right hlo g0
        have := mul_le_of_le_one_right l0 g
        rw [mul_div_assoc]
        linarith
      have b2 : x * c / 2 ^ 128 ≤ X * (c / 2 ^ 128) + hi := by
        have := mul_le_mul_of_nonneg_right hhi g0
        have := mul_le_of_le_one_right h0 g
        rw [mul_div_assoc]
        linarith
      obtain ⟨i1, i2⟩ := ih hcs' (k + 1) (n / 2) (ms x c) (X * S) (lo + 3 / 2) (hi + 1 / 2) (by positivity)
        (le_trans (mul_le_of_le_one_right hX0 hS1) hX) (by linarith) (by linarith) (by linarith) (by linarith) hk.2 (by omega)
      exact ⟨by linarith, by linarith⟩
    · rw [if_neg h]
      obtain ⟨i1, i2⟩ := ih hcs' (k + 1) (n / 2) x X lo hi hX0 hX hlo hhi l0 h0 hk.2 (by omega)
      have ee : 2 ^ (k + 1) * (n / 2) = 2 ^ k * n := by
        have hn2 : n = 2 * (n / 2) := by omega
        conv_rhs => rw [hn2]
        ring
      rw [ee] at i1 i2
      exact ⟨by linarith, by linarith⟩

theorem ch_near (n : Nat) (h : n < 2 ^ 20) :
    2 ^ 128 * sg ^ n - 30 ≤ (ch n : ℝ) ∧ (ch n : ℝ) ≤ 2 ^ 128 * sg ^ n + 10 := by
  obtain ⟨a, b⟩ := chainN_near factors factors_lt 0 n (2 ^ 128) (2 ^ 128) 0 0 (by positivity) (le_refl _)
    (by norm_num) (by norm_num) (le_refl _) (le_refl _) factorsOk_factors h
  have hl : factors.length = 20 := rfl
  rw [hl, pow_zero, one_mul] at a b
  have e : chainN factors n (2 ^ 128) = ch n := rfl
  rw [e] at a b
  norm_num at a b ⊢
  exact ⟨by linarith, by linarith⟩

theorem ch_anti {m n : Nat} (h : m ≤ n) (hn : n < 2 ^ 20) : ch n ≤ ch m := by
  induction n with
  | zero => rw [Nat.le_zero.1 h]
  | succ n ih =>
    rcases Nat.lt_or_ge m (n + 1) with h1 | h1
    · have := ch_lt n hn
      have := ih (by omega) (by omega)
      omega
    · rw [Nat.le_antisymm h h1]

theorem ch_big (n : Nat) (h : n ≤ 887272) : 2 ^ 63 ≤ ch n :=
  le_trans (by decide +kernel : 2 ^ 63 ≤ ch 887272) (ch_anti h (by norm_num))

theorem ceilDiv_cast (y d : Nat) (hd : 0 < d) : (y : ℝ) ≤ (Spec.ceilDiv y d : ℝ) * d ∧
    ((Spec.ceilDiv y d : ℝ) - 1) * d ≤ y := by
  constructor
  · exact_mod_cast FullMath.le_ceilDiv_mul hd
  · have h1 := FullMath.ceilDiv_le_div_succ y d
    have h2 : y / d * d ≤ y := Nat.div_mul_le_self _ _
    have h1' : ((Spec.ceilDiv y d : ℝ) - 1) ≤ ((y / d : Nat) : ℝ) := by
      have : (Spec.ceilDiv y d : ℝ) ≤ ((y / d + 1 : Nat) : ℝ) := by exact_mod_cast h1
      push_cast at this ⊢; linarith
    have h2' : ((y / d : Nat) : ℝ) * d ≤ y := by exact_mod_cast h2
    have hd' : (0 : ℝ) ≤ d := by positivity
    exact le_trans (mul_le_mul_of_nonneg_right h1' hd') h2'

theorem sqrt_zpow (t : Int) : Real.sqrt (10001 / 10000) ^ t = if 0 < t then 1 / sg ^ t.toNat else sg ^ (-t).toNat := by
  have e : Real.sqrt (10001 / 10000) = sg⁻¹ := by
    unfold sg; rw [← Real.sqrt_inv]; norm_num
  rw [e]
  split
  · have hn : t = ((t.toNat : Nat) : Int) := by omega
    conv_lhs => rw [hn]
    rw [zpow_natCast, inv_pow, one_div]
  · have hn : t = -(((-t).toNat : Nat) : Int) := by omega
    conv_lhs => rw [hn]
    rw [zpow_neg, zpow_natCast, inv_pow, inv_inv]

/-- Ticks at or below zero: absolute error below `2^-26` plus the rounding up. -/
theorem ratio_error_neg (t : Int) (h1 : -887272 ≤ t) (h2 : t ≤ 0) :
    2 ^ 96 * Real.sqrt (10001 / 10000) ^ t - 1 / 2 ^ 27 ≤ (ratioN t : ℝ) ∧
    (ratioN t : ℝ) ≤ 2 ^ 96 * Real.sqrt (10001 / 10000) ^ t + 1 + 1 / 2 ^ 28 := by
  rw [sqrt_zpow, if_neg (by omega)]
  obtain ⟨a, b⟩ := ch_near (-t).toNat (by omega)
  have hr : ratioN t = Spec.ceilDiv (ch (-t).toNat) (2 ^ 32) := by
    unfold ratioN; rw [if_neg (by omega)]
  obtain ⟨c1, c2⟩ := ceilDiv_cast (ch (-t).toNat) (2 ^ 32) (by norm_num)
  rw [← hr] at c1 c2
  generalize (ratioN t : ℝ) = r at *
  generalize (ch (-t).toNat : ℝ) = x at *
  generalize sg ^ (-t).toNat = s at *
  push_cast at c1 c2
  norm_num at a b c1 c2 ⊢
  exact ⟨by linarith, by linarith⟩

/-- Ticks above zero: the error is at most one unit plus `P^2 / 2^218`. -/
theorem ratio_error_pos (t : Int) (h1 : 0 < t) (h2 : t ≤ 887272) (P : ℝ) (hP : P = 2 ^ 96 * Real.sqrt (10001 / 10000) ^ t) :
    P - P ^ 2 / 2 ^ 218 - 1 / 2 ^ 31 ≤ (ratioN t : ℝ) ∧ (ratioN t : ℝ) ≤ P + P ^ 2 / 2 ^ 218 + 1 := by
  rw [sqrt_zpow, if_pos h1] at hP
  obtain ⟨a, b⟩ := ch_near t.toNat (by omega)
  have hbig := ch_big t.toNat (by omega)
  have hle := ch_le t.toNat
  have hr : ratioN t = Spec.ceilDiv ((2 ^ 256 - 1) / ch t.toNat) (2 ^ 32) := by
    unfold ratioN; rw [if_pos h1]
  obtain ⟨c1, c2⟩ := ceilDiv_cast ((2 ^ 256 - 1) / ch t.toNat) (2 ^ 32) (by norm_num)
  rw [← hr] at c1 c2
  have hs : (0 : ℝ) < sg ^ t.toNat := pow_pos sg_pos _
  have d1 : (2 ^ 256 - 1) / ch t.toNat * ch t.toNat ≤ 2 ^ 256 - 1 := Nat.div_mul_le_self _ _
  have d2 : 2 ^ 256 - 1 < ((2 ^ 256 - 1) / ch t.toNat + 1) * ch t.toNat :=
    Nat.lt_mul_of_div_lt (Nat.lt_succ_self _) (by omega)
  generalize (2 ^ 256 - 1) / ch t.toNat = y at *
  generalize ch t.toNat = x at *
  generalize (ratioN t : ℝ) = r at *
  generalize sg ^ t.toNat = s at *
  have e1 : (y : ℝ) * x ≤ 2 ^ 256 := by
    have : y * x ≤ 2 ^ 256 := by omega
    exact_mod_cast this
  have e2 : (2 : ℝ) ^ 256 ≤ (y + 1) * x := by
    have : 2 ^ 256 ≤ (y + 1) * x := by omega
    exact_mod_cast this
  have e4 : (2 : ℝ) ^ 63 ≤ x := by exact_mod_cast hbig
  have e5 : (0 : ℝ) ≤ y := by positivity
  generalize (x : ℝ) = x at *
  generalize (y : ℝ) = y at *
  push_cast at c1 c2
  have hPs : P * s = 2 ^ 96 := by rw [hP]; field_simp
  have hP0 : 0 < P := by rw [hP]; positivity
  have hx0 : 0 < x := lt_of_lt_of_le (by positivity) e4
  -- X = 2^128 s is the exact value of x
  have k1 : P * x ≤ 2 ^ 224 + 10 * P := by
    have := mul_le_mul_of_nonneg_left b (le_of_lt hP0)
    have e : P * (2 ^ 128 * s + 10) = 2 ^ 128 * (P * s) + 10 * P := by ring
    rw [e, hPs] at this
    norm_num at this ⊢
    linarith
  have k2 : 2 ^ 224 - 30 * P ≤ P * x := by
    have := mul_le_mul_of_nonneg_left a (le_of_lt hP0)
    have e : P * (2 ^ 128 * s - 30) = 2 ^ 128 * (P * s) - 30 * P := by ring
    rw [e, hPs] at this
    norm_num at this ⊢
    linarith
  constructor
  · -- x * (r * 2^32 + 1) ≥ 2^256
    have m1 : (2 : ℝ) ^ 256 ≤ (r * 4294967296 + 1) * x := le_trans e2 (mul_le_mul_of_nonneg_right (by linarith) (le_of_lt hx0))
    have m2 : (P - P ^ 2 / 2 ^ 218 - 1 / 2 ^ 31) * x ≤ r * x := by
      have n1 : P ^ 2 / 2 ^ 218 * x = P / 2 ^ 218 * (P * x) := by ring
      have n2 : P / 2 ^ 218 * (2 ^ 224 - 30 * P) ≤ P / 2 ^ 218 * (P * x) := mul_le_mul_of_nonneg_left k2 (by positivity)
      have n3 : P * (30 * P) ≤ 2 ^ 223 * P := by
        have : 30 * P ≤ 2 ^ 223 := by
          have q : P * 2 ^ 63 ≤ 2 ^ 224 + 10 * P := le_trans (mul_le_mul_of_nonneg_left e4 (le_of_lt hP0)) k1
          norm_num at q ⊢
          linarith
        rw [mul_comm (2 ^ 223 : ℝ) P]
        exact mul_le_mul_of_nonneg_left this (le_of_lt hP0)
      have n4 : P / 2 ^ 218 * (2 ^ 224 - 30 * P) = 64 * P - P * (30 * P) / 2 ^ 218 := by ring
      rw [sub_mul, sub_mul, n1]
      rw [n4] at n2
      have n5 : P * (30 * P) / 2 ^ 218 ≤ 32 * P := by
        rw [div_le_iff₀ (by positivity)]
        norm_num at n3 ⊢
        linarith
      have n6 : (1 : ℝ) / 2 ^ 31 * x = 2 / 2 ^ 32 * x := by ring
      norm_num at m1 k1 n2 n5 n6 ⊢
      linarith
    exact le_of_mul_le_mul_right m2 hx0
  · have m1 : (r - 1) * 4294967296 * x ≤ 2 ^ 256 := le_trans (mul_le_mul_of_nonneg_right c2 (le_of_lt hx0)) e1
    have m2 : (r - 1) * x ≤ (P + P ^ 2 / 2 ^ 218) * x := by
      have n1 : P ^ 2 / 2 ^ 218 * x = P / 2 ^ 218 * (P * x) := by ring
      have n2 : P / 2 ^ 218 * (2 ^ 224 - 30 * P) ≤ P / 2 ^ 218 * (P * x) := mul_le_mul_of_nonneg_left k2 (by positivity)
      have n3 : P * (30 * P) ≤ 2 ^ 223 * P := by
        have : 30 * P ≤ 2 ^ 223 := by
          have q : P * 2 ^ 63 ≤ 2 ^ 224 + 10 * P := le_trans (mul_le_mul_of_nonneg_left e4 (le_of_lt hP0)) k1
          norm_num at q ⊢
          linarith
        rw [mul_comm (2 ^ 223 : ℝ) P]
        exact mul_le_mul_of_nonneg_left this (le_of_lt hP0)
      have n4 : P / 2 ^ 218 * (2 ^ 224 - 30 * P) = 64 * P - P * (30 * P) / 2 ^ 218 := by ring
      rw [add_mul, n1]
      rw [n4] at n2
      have n5 : P * (30 * P) / 2 ^ 218 ≤ 32 * P := by
        rw [div_le_iff₀ (by positivity)]
        norm_num at n3 ⊢
        linarith
      norm_num at m1 k2 n2 n5 ⊢
      linarith
    have := le_of_mul_le_mul_right m2 hx0
    linarith

theorem price_lt {t : Int} (h1 : -887272 ≤ t) (h2 : t ≤ 887272) {P : ℝ} (hP : P = 2 ^ 96 * Real.sqrt (10001 / 10000) ^ t) :
    P < 2 ^ 162 := by
  have g1 : (1 : ℝ) ≤ Real.sqrt (10001 / 10000) := by rw [Real.one_le_sqrt]; norm_num
  have g2 : Real.sqrt (10001 / 10000) ^ t ≤ Real.sqrt (10001 / 10000) ^ (887272 : Int) := zpow_le_zpow_right₀ g1 h2
  have g3 := sqrt_zpow 887272
  rw [if_pos (by norm_num)] at g3
  have e : (887272 : Int).toNat = 887272 := rfl
  obtain ⟨a, b⟩ := ch_near 887272 (by norm_num)
  have k : (2 : ℝ) ^ 63 ≤ (ch 887272 : ℝ) := by exact_mod_cast ch_big 887272 (le_refl _)
  rw [e] at g3
  have hs : (0 : ℝ) < sg ^ 887272 := pow_pos sg_pos _
  rw [hP]
  rw [g3] at g2
  generalize sg ^ 887272 = s at *
  generalize (ch 887272 : ℝ) = x at *
  have : 1 / s < 2 ^ 66 := by
    rw [div_lt_iff₀ hs]
    norm_num at k b ⊢
    linarith
  have h3 : 2 ^ 96 * Real.sqrt (10001 / 10000) ^ t < 2 ^ 96 * 2 ^ 66 :=
    mul_lt_mul_of_pos_left (lt_of_le_of_lt g2 this) (by positivity)
  exact lt_of_lt_of_eq h3 (by norm_num)

end TickMath
end Uni
