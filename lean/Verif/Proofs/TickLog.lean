import Verif.Model.TickLog
import Verif.Proofs.TickError
import Verif.Proofs.Bitwise
import Mathlib.Analysis.SpecialFunctions.Log.Deriv
import Mathlib.Analysis.Complex.ExponentialBounds
import Mathlib.Tactic.Ring
import Mathlib.Tactic.NormNum
/-! The tick computed from the logarithm: the fixed-point loop, and its error against the real logarithm. -/
namespace Uni
namespace TickMath
open U256

/-! ### The loop in integers -/

/-- One iteration on natural numbers: the new mantissa and the bit. -/
def stepN (r : Nat) : Nat × Nat :=
  let q := r * r / 2 ^ 127
  let f := q / 2 ^ 128
  (q / 2 ^ f, f)

theorem stepN_spec {r : Nat} (h1 : 2 ^ 127 ≤ r) (h2 : r < 2 ^ 128) :
    (stepN r).2 ≤ 1 ∧ 2 ^ 127 ≤ (stepN r).1 ∧ (stepN r).1 < 2 ^ 128 ∧
    (stepN r).1 * 2 ^ (stepN r).2 * 2 ^ 127 ≤ r * r ∧ r * r < ((stepN r).1 + 1) * 2 ^ (stepN r).2 * 2 ^ 127 := by
  have a1 : 2 ^ 127 * 2 ^ 127 ≤ r * r := Nat.mul_le_mul h1 h1
  have a2 : r * r < 2 ^ 128 * 2 ^ 128 := Nat.mul_lt_mul'' h2 h2
  unfold stepN
  dsimp only
  have b1 : r * r / 2 ^ 127 * 2 ^ 127 ≤ r * r := Nat.div_mul_le_self _ _
  have b2 : r * r < (r * r / 2 ^ 127 + 1) * 2 ^ 127 := Nat.lt_mul_of_div_lt (Nat.lt_succ_self _) (by norm_num)
  have c1 : 2 ^ 127 ≤ r * r / 2 ^ 127 := by rw [Nat.le_div_iff_mul_le (by norm_num)]; exact a1
  have c2 : r * r / 2 ^ 127 < 2 ^ 129 := by
    rw [Nat.div_lt_iff_lt_mul (by norm_num)]
    exact lt_of_lt_of_eq a2 (by norm_num)
  generalize r * r = s at *
  generalize s / 2 ^ 127 = q at *
  have hf : q / 2 ^ 128 = 0 ∨ q / 2 ^ 128 = 1 := by omega
  rcases hf with e | e
  · rw [e]
    refine ⟨by omega, by simpa using c1, ?_, by simpa using b1, by simpa using b2⟩
    have : q < 2 ^ 128 := by omega
    simpa using this
  · rw [e]
    have : 2 ^ 128 ≤ q := by omega
    have w1 : q / 2 ^ 1 * 2 ^ 1 ≤ q := Nat.div_mul_le_self _ _
    have w2 : q < (q / 2 ^ 1 + 1) * 2 ^ 1 := Nat.lt_mul_of_div_lt (Nat.lt_succ_self _) (by norm_num)
    exact ⟨le_refl _, by omega, by omega, le_trans (Nat.mul_le_mul_right _ w1) b1,
      lt_of_lt_of_le b2 (Nat.mul_le_mul_right _ w2)⟩

/-- The loop on natural numbers: mantissa and the bits read so far. -/
def loopN : Nat → Nat × Nat → Nat × Nat
  | 0, s => s
  | n + 1, s => loopN n ((stepN s.1).1, 2 * s.2 + (stepN s.1).2)

theorem logStep_spec (i : Nat) (hi : i < 14) (s : U256 × U256) (A : Nat) (h1 : 2 ^ 127 ≤ s.1.toNat) (h2 : s.1.toNat < 2 ^ 128)
    (hA : s.2.toNat = A * 2 ^ (64 - i)) :
    (logStep i s).1.toNat = (stepN s.1.toNat).1 ∧
    (logStep i s).2.toNat = (2 * A + (stepN s.1.toNat).2) * 2 ^ (64 - (i + 1)) := by
  obtain ⟨f1, -⟩ := stepN_spec h1 h2
  have a2 : s.1.toNat * s.1.toNat < 2 ^ 256 := lt_of_lt_of_eq (Nat.mul_lt_mul'' h2 h2) (by norm_num)
  have er : (rsh (mul s.1 s.1) 127).toNat = s.1.toNat * s.1.toNat / 2 ^ 127 := by
    rw [toNat_rsh, toNat_mul, Nat.mod_eq_of_lt a2]
  have ef : (rsh (rsh (mul s.1 s.1) 127) 128).toNat = (stepN s.1.toNat).2 := by
    rw [toNat_rsh, er]; rfl
  have ew : (rsh (rsh (mul s.1 s.1) 127) 128).w0.toNat = (stepN s.1.toNat).2 := by
    rw [← (toNat_eq_w0_iff _).2 (by rw [ef]; omega), ef]
  unfold logStep
  dsimp only
  constructor
  · rw [toNat_rsh, ew, er]; rfl
  · rw [toNat_or, toNat_lsh, ef, hA]
    have hl : (stepN s.1.toNat).2 * 2 ^ (63 - i) < 2 ^ (64 - i) := by
      have : 2 ^ (64 - i) = 2 * 2 ^ (63 - i) := by rw [show 64 - i = (63 - i) + 1 by omega, pow_succ, mul_comm]
      rw [this]
      exact Nat.mul_lt_mul_of_pos_right (by omega) (Nat.two_pow_pos _)
    have hb : 2 ^ (64 - i) ≤ 2 ^ 64 := Nat.pow_le_pow_right (by norm_num) (by omega)
    rw [Nat.mod_eq_of_lt (by omega), mul_comm A, ← Nat.two_pow_add_eq_or_of_lt hl]
    rw [show 64 - i = (63 - i) + 1 by omega, show 64 - (i + 1) = 63 - i by omega, pow_succ]
    ring

theorem logLoop_spec (n i : Nat) (hi : n + i ≤ 14) (s : U256 × U256) (A : Nat) (h1 : 2 ^ 127 ≤ s.1.toNat)
    (h2 : s.1.toNat < 2 ^ 128) (hA : s.2.toNat = A * 2 ^ (64 - i)) :
    (logLoop n i s).2.toNat = (loopN n (s.1.toNat, A)).2 * 2 ^ (64 - (n + i)) := by
  induction n generalizing i s A with
  | zero => rw [Nat.zero_add]; exact hA
  | succ n ih =>
    obtain ⟨a, b⟩ := logStep_spec i (by omega) s A h1 h2 hA
    obtain ⟨-, c, d, -⟩ := stepN_spec h1 h2
    have := ih (i + 1) (by omega) (logStep i s) _ (by rw [a]; exact c) (by rw [a]; exact d) b
    rw [show n + 1 + i = n + (i + 1) by omega]
    show (logLoop n (i + 1) (logStep i s)).2.toNat = _
    rw [this, a]
    rfl

/-- The bits do not depend on the starting value of the accumulator. -/
theorem loopN_shift (n r A : Nat) : (loopN n (r, A)).2 = A * 2 ^ n + (loopN n (r, 0)).2 := by
  induction n generalizing r A with
  | zero => simp [loopN]
  | succ n ih =>
    show (loopN n ((stepN r).1, 2 * A + (stepN r).2)).2 = _ + (loopN n ((stepN r).1, 2 * 0 + (stepN r).2)).2
    rw [ih, ih _ (2 * 0 + _), pow_succ]
    ring

theorem loopN_lt (n r : Nat) (h1 : 2 ^ 127 ≤ r) (h2 : r < 2 ^ 128) : (loopN n (r, 0)).2 < 2 ^ n := by
  induction n generalizing r with
  | zero => simp [loopN]
  | succ n ih =>
    obtain ⟨f, c, d, -⟩ := stepN_spec h1 h2
    show (loopN n ((stepN r).1, 2 * 0 + (stepN r).2)).2 < _
    rw [loopN_shift]
    have := ih (stepN r).1 c d
    rw [pow_succ]
    have : (2 * 0 + (stepN r).2) * 2 ^ n ≤ 1 * 2 ^ n := Nat.mul_le_mul_right _ (by omega)
    omega

/-! ### The loop computes a logarithm -/

/-- The real logarithm of a mantissa. -/
noncomputable def lam (r : Nat) : ℝ := Real.log ((r : ℝ) / 2 ^ 127)

theorem lam_succ {r : Nat} (h : 2 ^ 127 ≤ r) : Real.log (((r : ℝ) + 1) / 2 ^ 127) ≤ lam r + 1 / 2 ^ 127 := by
  have hr : (2 : ℝ) ^ 127 ≤ r := by exact_mod_cast h
  have h0 : (0 : ℝ) < r := lt_of_lt_of_le (by positivity) hr
  have e : ((r : ℝ) + 1) / 2 ^ 127 = (r / 2 ^ 127) * (1 + 1 / r) := by field_simp
  rw [e, Real.log_mul (by positivity) (by positivity)]
  have : Real.log (1 + 1 / (r : ℝ)) ≤ 1 / r := by
    have := Real.log_le_sub_one_of_pos (show (0 : ℝ) < 1 + 1 / r by positivity)
    linarith
  have : 1 / (r : ℝ) ≤ 1 / 2 ^ 127 := one_div_le_one_div_of_le (by positivity) hr
  unfold lam
  linarith

theorem lam_nonneg {r : Nat} (h : 2 ^ 127 ≤ r) : 0 ≤ lam r := by
  have hr : (2 : ℝ) ^ 127 ≤ r := by exact_mod_cast h
  exact Real.log_nonneg (by rw [le_div_iff₀ (by positivity)]; linarith)

theorem lam_lt {r : Nat} (h : 2 ^ 127 ≤ r) (h2 : r < 2 ^ 128) : lam r ≤ Real.log 2 := by
  have hr : (2 : ℝ) ^ 127 ≤ r := by exact_mod_cast h
  have hr2 : (r : ℝ) ≤ 2 ^ 128 := by exact_mod_cast le_of_lt h2
  have h0 : (0 : ℝ) < r := lt_of_lt_of_le (by positivity) hr
  apply Real.log_le_log (by positivity)
  rw [div_le_iff₀ (by positivity)]
  norm_num at hr2 ⊢
  linarith

theorem step_log {r : Nat} (h1 : 2 ^ 127 ≤ r) (h2 : r < 2 ^ 128) :
    (stepN r).2 * Real.log 2 + lam (stepN r).1 ≤ 2 * lam r ∧
    2 * lam r ≤ (stepN r).2 * Real.log 2 + lam (stepN r).1 + 1 / 2 ^ 127 := by
  obtain ⟨f, c, d, e1, e2⟩ := stepN_spec h1 h2
  have l := lam_succ c
  generalize (stepN r).1 = q at *
  generalize (stepN r).2 = b at *
  have hr : (2 : ℝ) ^ 127 ≤ r := by exact_mod_cast h1
  have hq : (2 : ℝ) ^ 127 ≤ q := by exact_mod_cast c
  have hr0 : (0 : ℝ) < r := lt_of_lt_of_le (by positivity) hr
  have hq0 : (0 : ℝ) < q := lt_of_lt_of_le (by positivity) hq
  have g1 : (q : ℝ) * 2 ^ b * 2 ^ 127 ≤ r * r := by exact_mod_cast e1
  have g2 : (r : ℝ) * r ≤ (q + 1) * 2 ^ b * 2 ^ 127 := by exact_mod_cast le_of_lt e2
  have e : 2 * lam r = Real.log ((r : ℝ) * r / (2 ^ 127 * 2 ^ 127)) := by
    unfold lam
    rw [two_mul, ← Real.log_mul (by positivity) (by positivity)]
    congr 1
    field_simp
  have k1 : b * Real.log 2 + lam q = Real.log (q * 2 ^ b * 2 ^ 127 / (2 ^ 127 * 2 ^ 127)) := by
    unfold lam
    rw [← Real.log_pow, ← Real.log_mul (by positivity) (by positivity)]
    congr 1
    field_simp
  have k2 : b * Real.log 2 + Real.log (((q : ℝ) + 1) / 2 ^ 127) = Real.log ((q + 1) * 2 ^ b * 2 ^ 127 / (2 ^ 127 * 2 ^ 127)) := by
    rw [← Real.log_pow, ← Real.log_mul (by positivity) (by positivity)]
    congr 1
    field_simp
  constructor
  · rw [e, k1]
    exact Real.log_le_log (by positivity) (div_le_div_of_nonneg_right g1 (by positivity))
  · have : 2 * lam r ≤ b * Real.log 2 + Real.log (((q : ℝ) + 1) / 2 ^ 127) := by
      rw [e, k2]
      exact Real.log_le_log (by positivity) (div_le_div_of_nonneg_right g2 (by positivity))
    linarith

theorem loop_log (n r : Nat) (h1 : 2 ^ 127 ≤ r) (h2 : r < 2 ^ 128) :
    ((loopN n (r, 0)).2 : ℝ) * Real.log 2 ≤ 2 ^ n * lam r ∧
    2 ^ n * lam r ≤ (((loopN n (r, 0)).2 : ℝ) + 1) * Real.log 2 + 2 ^ n / 2 ^ 127 := by
  induction n generalizing r with
  | zero =>
    have a := lam_nonneg h1
    have b := lam_lt h1 h2
    have c : (0 : ℝ) < 1 / 2 ^ 127 := by positivity
    simp only [loopN, Nat.cast_zero, pow_zero]
    constructor <;> linarith
  | succ n ih =>
    obtain ⟨f, c, d, -⟩ := stepN_spec h1 h2
    obtain ⟨i1, i2⟩ := ih (stepN r).1 c d
    obtain ⟨s1, s2⟩ := step_log h1 h2
    have e : (loopN (n + 1) (r, 0)).2 = (stepN r).2 * 2 ^ n + (loopN n ((stepN r).1, 0)).2 := by
      show (loopN n ((stepN r).1, 2 * 0 + (stepN r).2)).2 = _
      rw [loopN_shift]; ring
    rw [e]
    generalize (loopN n ((stepN r).1, 0)).2 = F at *
    push_cast
    have p : (0 : ℝ) < 2 ^ n := by positivity
    have t1 := mul_le_mul_of_nonneg_left s1 (le_of_lt p)
    have t2 := mul_le_mul_of_nonneg_left s2 (le_of_lt p)
    rw [pow_succ]
    constructor
    · linarith
    · have : (2 : ℝ) ^ n * 2 / 2 ^ 127 = 2 ^ n / 2 ^ 127 + 2 ^ n * (1 / 2 ^ 127) := by ring
      rw [this]
      linarith

/-! ### From the price to the fixed-point logarithm -/

theorem logMantissa_spec (x : U256) (m : Nat) (hm : m < 192) (h1 : 2 ^ m ≤ x.toNat) (h2 : x.toNat < 2 ^ (m + 1)) :
    2 ^ 127 ≤ (logMantissa x m).toNat ∧ (logMantissa x m).toNat < 2 ^ 128 ∧
    (logMantissa x m).toNat * 2 ^ m ≤ x.toNat * 2 ^ 127 ∧ x.toNat * 2 ^ 127 < ((logMantissa x m).toNat + 1) * 2 ^ m := by
  unfold logMantissa
  by_cases c : cmp (ofNat m) (ofNat 128) ≥ 0
  · rw [if_pos c]
    rw [cmp_ge0, toNat_ofNat_of_lt (by omega), toNat_ofNat_of_lt (by omega)] at c
    rw [toNat_rsh]
    obtain ⟨k, rfl⟩ : ∃ k, m = 127 + k := ⟨m - 127, by omega⟩
    rw [show 127 + k - 127 = k by omega]
    have w1 : x.toNat / 2 ^ k * 2 ^ k ≤ x.toNat := Nat.div_mul_le_self _ _
    have w2 : x.toNat < (x.toNat / 2 ^ k + 1) * 2 ^ k := Nat.lt_mul_of_div_lt (Nat.lt_succ_self _) (Nat.two_pow_pos _)
    rw [pow_add] at h1
    rw [show 127 + k + 1 = 128 + k by omega, pow_add] at h2
    refine ⟨?_, ?_, ?_, ?_⟩
    · rw [Nat.le_div_iff_mul_le (Nat.two_pow_pos _)]; exact h1
    · rw [Nat.div_lt_iff_lt_mul (Nat.two_pow_pos _)]; exact h2
    · rw [pow_add, mul_comm (2 ^ 127), ← mul_assoc]
      exact Nat.mul_le_mul_right _ w1
    · rw [pow_add, mul_comm (2 ^ 127) (2 ^ k), ← mul_assoc]
      exact Nat.mul_lt_mul_of_pos_right w2 (by norm_num)
  · rw [if_neg c]
    rw [cmp_ge0, toNat_ofNat_of_lt (by omega), toNat_ofNat_of_lt (by omega)] at c
    obtain ⟨k, hk⟩ : ∃ k, m + k = 127 := ⟨127 - m, by omega⟩
    rw [show 127 - m = k by omega, toNat_lsh]
    have e1 : 2 ^ 127 = 2 ^ m * 2 ^ k := by rw [← pow_add, hk]
    have e2 : 2 ^ 128 = 2 ^ (m + 1) * 2 ^ k := by rw [← pow_add]; congr 1; omega
    have u1 : 2 ^ 127 ≤ x.toNat * 2 ^ k := by rw [e1]; exact Nat.mul_le_mul_right _ h1
    have u2 : x.toNat * 2 ^ k < 2 ^ 128 := by rw [e2]; exact Nat.mul_lt_mul_of_pos_right h2 (Nat.two_pow_pos _)
    rw [Nat.mod_eq_of_lt (lt_trans u2 (by norm_num))]
    refine ⟨u1, u2, ?_, ?_⟩
    · rw [e1, mul_assoc, mul_comm (2 ^ k)]
    · rw [e1, mul_comm (2 ^ m), ← mul_assoc]
      exact Nat.mul_lt_mul_of_pos_right (Nat.lt_succ_self _) (Nat.two_pow_pos _)

/-- The exponent in the top 192 bits: `m - 128` modulo `2^192`. -/
theorem exponent_spec (m : Nat) (hm : m < 192) : ∃ (A : Nat) (k : Int),
    (lsh (sub (ofNat m) (ofNat 128)) 64).toNat = A * 2 ^ (64 - 0) ∧ (A : Int) = m - 128 + k * 2 ^ 192 := by
  rw [toNat_lsh, toNat_sub, toNat_ofNat_of_lt (by omega), toNat_ofNat_of_lt (by omega)]
  by_cases c : 128 ≤ m
  · refine ⟨m - 128, 0, ?_, by omega⟩
    have e : (m + (2 ^ 256 - 128)) % 2 ^ 256 = m - 128 := by omega
    rw [e]
    exact Nat.mod_eq_of_lt (lt_of_lt_of_le (Nat.mul_lt_mul_of_pos_right (show m - 128 < 64 by omega) (by norm_num)) (by norm_num))
  · refine ⟨m + 2 ^ 192 - 128, 1, ?_, by omega⟩
    rw [Nat.mod_eq_of_lt (a := m + (2 ^ 256 - 128)) (by omega)]
    obtain ⟨j, hj⟩ : ∃ j, m + j = 128 := ⟨128 - m, by omega⟩
    have e1 : m + (2 ^ 256 - 128) = 2 ^ 256 - j := by omega
    have e2 : m + 2 ^ 192 - 128 = 2 ^ 192 - j := by omega
    rw [e1, e2, show 64 - 0 = 64 from rfl]
    have hj2 : j ≤ 128 := by omega
    obtain ⟨t, ht⟩ : ∃ t, t + j = 2 ^ 192 := ⟨2 ^ 192 - j, by omega⟩
    have e3 : 2 ^ 256 - j = t + (2 ^ 256 - 2 ^ 192) := by omega
    have e4 : 2 ^ 192 - j = t := by omega
    have e5 : (t + (2 ^ 256 - 2 ^ 192)) * 2 ^ 64 = t * 2 ^ 64 + 2 ^ 256 * (2 ^ 64 - 1) := by
      rw [add_mul]
      congr 1
    rw [e3, e4, e5, Nat.add_mul_mod_self_left, Nat.mod_eq_of_lt]
    have : t ≤ 2 ^ 192 - 1 := by
      have : 0 < j := by omega
      omega
    exact lt_of_le_of_lt (Nat.mul_le_mul_right _ this) (by norm_num)

/-- The logarithm of the price from the exponent, the mantissa and the bits of the loop. -/
theorem log_real (N X m r F : Nat) (hX : 0 < X) (ex : X = N * 2 ^ 32) (r1 : 2 ^ 127 ≤ r) (r3 : r * 2 ^ m ≤ X * 2 ^ 127)
    (r4 : X * 2 ^ 127 < (r + 1) * 2 ^ m) (g1 : (F : ℝ) * Real.log 2 ≤ 2 ^ 14 * lam r)
    (g2 : 2 ^ 14 * lam r ≤ ((F : ℝ) + 1) * Real.log 2 + 2 ^ 14 / 2 ^ 127) :
    ((((m : Int) - 128) * 2 ^ 14 + (F : Int) : Int) : ℝ) * Real.log 2 ≤ 2 ^ 14 * Real.log (N / 2 ^ 96) ∧
    2 ^ 14 * Real.log (N / 2 ^ 96) ≤ (((((m : Int) - 128) * 2 ^ 14 + (F : Int) : Int) : ℝ) + 1) * Real.log 2 + 2 ^ 15 / 2 ^ 127 := by
  have ls := lam_succ r1
  have hx0 : (0 : ℝ) < X := by
    exact_mod_cast hX
  have hr0 : (0 : ℝ) < r := by
    have : 0 < r := by omega
    exact_mod_cast this
  have eL : Real.log (N / 2 ^ 96) = ((m : ℝ) - 128) * Real.log 2 + Real.log ((X : ℝ) / 2 ^ m) := by
    have e1 : (N : ℝ) / 2 ^ 96 = (X / 2 ^ m) * 2 ^ m / 2 ^ 128 := by
      rw [ex]; push_cast; field_simp; norm_num
    rw [e1, Real.log_div (by positivity) (by positivity), Real.log_mul (by positivity) (by positivity), Real.log_pow, Real.log_pow]
    push_cast
    ring
  have q1 : lam r ≤ Real.log ((X : ℝ) / 2 ^ m) := by
    apply Real.log_le_log (by positivity)
    rw [div_le_div_iff₀ (by positivity) (by positivity)]
    exact_mod_cast r3
  have q2 : Real.log ((X : ℝ) / 2 ^ m) ≤ lam r + 1 / 2 ^ 127 := by
    refine le_trans (Real.log_le_log (by positivity) ?_) ls
    rw [div_le_div_iff₀ (by positivity) (by positivity)]
    exact_mod_cast le_of_lt r4
  rw [eL]
  push_cast
  generalize Real.log ((X : ℝ) / 2 ^ m) = y at *
  generalize lam r = l at *
  generalize Real.log 2 = t at *
  constructor
  · linarith
  · have : (2 : ℝ) ^ 15 / 2 ^ 127 = 2 ^ 14 / 2 ^ 127 + 2 ^ 14 * (1 / 2 ^ 127) := by norm_num
    rw [this]
    linarith

/-- The bits the loop reads. -/
theorem log_bits (x : U256) (m : Nat) (hm : m < 192) (r1 : 2 ^ 127 ≤ x.toNat) (r2 : x.toNat < 2 ^ 128) :
    ∃ (F : Nat) (k : Int), F < 2 ^ 14 ∧
      ((logLoop 14 0 (x, lsh (sub (ofNat m) (ofNat 128)) 64)).2.toNat : Int) = (((m : Int) - 128) * 2 ^ 14 + F) * 2 ^ 50 + k * 2 ^ 256 ∧
      (F : ℝ) * Real.log 2 ≤ 2 ^ 14 * lam x.toNat ∧
      2 ^ 14 * lam x.toNat ≤ ((F : ℝ) + 1) * Real.log 2 + 2 ^ 14 / 2 ^ 127 := by
  obtain ⟨A, k, hA', hk⟩ := exponent_spec m hm
  have hl := logLoop_spec 14 0 (by omega) (x, lsh (sub (ofNat m) (ofNat 128)) 64) A r1 r2 hA'
  have e : (loopN 14 (x.toNat, A)).2 = A * 2 ^ 14 + (loopN 14 (x.toNat, 0)).2 := loopN_shift 14 _ _
  obtain ⟨g1, g2⟩ := loop_log 14 _ r1 r2
  refine ⟨(loopN 14 (x.toNat, 0)).2, k, loopN_lt 14 _ r1 r2, ?_, g1, g2⟩
  rw [hl, e]
  generalize (loopN 14 (x.toNat, 0)).2 = F
  push_cast
  rw [hk]
  ring

theorem log_scaled (L : U256) (K k : Int) (hL : (L.toNat : Int) = K * 2 ^ 50 + k * 2 ^ 256) :
    ((mul L magicSqrt10001).toNat : Int) = (K * 2 ^ 50 * 0x3627A301D71055774C85) % 2 ^ 256 := by
  rw [toNat_mul]
  have em : magicSqrt10001.toNat = 0x3627A301D71055774C85 := by decide +kernel
  rw [em, Int.natCast_emod, Int.natCast_mul, hL, show (((2 ^ 256 : Nat)) : Int) = 2 ^ 256 by norm_num,
    show K * 2 ^ 50 * 0x3627A301D71055774C85 = (K * 2 ^ 50 + k * 2 ^ 256) * ((0x3627A301D71055774C85 : Nat) : Int) +
    2 ^ 256 * (-k * ((0x3627A301D71055774C85 : Nat) : Int)) by push_cast; ring, Int.add_mul_emod_self_left]

/-- The fixed-point logarithm: an integer `K` with `K / 2^14` just below the logarithm to base two of the price. -/
theorem logSqrt10001_spec (p : U256) (h1 : 2 ^ 32 ≤ p.toNat) (h2 : p.toNat < 2 ^ 160)
    (hmsb : 2 ^ mostSignificantBit (lsh p 32) ≤ (lsh p 32).toNat ∧ (lsh p 32).toNat < 2 ^ (mostSignificantBit (lsh p 32) + 1)) :
    ∃ K : Int, -2 ^ 20 ≤ K ∧ K < 2 ^ 20 ∧
      ((logSqrt10001 p).toNat : Int) = (K * 2 ^ 50 * 0x3627A301D71055774C85) % 2 ^ 256 ∧
      (K : ℝ) * Real.log 2 ≤ 2 ^ 14 * Real.log (p.toNat / 2 ^ 96) ∧
      2 ^ 14 * Real.log (p.toNat / 2 ^ 96) ≤ ((K : ℝ) + 1) * Real.log 2 + 2 ^ 15 / 2 ^ 127 := by
  have ex : (lsh p 32).toNat = p.toNat * 2 ^ 32 := by
    rw [toNat_lsh, Nat.mod_eq_of_lt (by omega)]
  have hm : mostSignificantBit (lsh p 32) < 192 := by
    by_contra hc
    have : 2 ^ 192 ≤ 2 ^ mostSignificantBit (lsh p 32) := Nat.pow_le_pow_right (by norm_num) (by omega)
    omega
  have hm0 : 64 ≤ mostSignificantBit (lsh p 32) := by
    by_contra hc
    have : 2 ^ (mostSignificantBit (lsh p 32) + 1) ≤ 2 ^ 64 := Nat.pow_le_pow_right (by norm_num) (by omega)
    omega
  obtain ⟨r1, r2, r3, r4⟩ := logMantissa_spec (lsh p 32) _ hm hmsb.1 hmsb.2
  obtain ⟨F, k, hF, hL, g1, g2⟩ := log_bits (logMantissa (lsh p 32) (mostSignificantBit (lsh p 32))) _ hm r1 r2
  refine ⟨(mostSignificantBit (lsh p 32) - 128) * 2 ^ 14 + F, by omega, by omega, ?_, ?_⟩
  · exact log_scaled _ _ _ hL
  · exact log_real p.toNat (lsh p 32).toNat _ _ F (by omega) ex r1 r3 r4 g1 g2

/-- Shifting a two's complement number and reading the low word as signed divides by `2^128`, rounding down. -/
theorem shiftedTick_spec (z : U256) (Z : Int) (h : (z.toNat : Int) = Z % 2 ^ 256) (h1 : -2 ^ 190 ≤ Z) (h2 : Z < 2 ^ 190) :
    shiftedTick z = Z / 2 ^ 128 := by
  unfold shiftedTick
  have e1 : (rsh z 128).toNat = z.toNat / 2 ^ 128 := toNat_rsh z 128
  have e2 : (rsh z 128).w0.toNat = z.toNat / 2 ^ 128 % 2 ^ 64 := by
    rw [← e1]
    generalize rsh z 128 = w
    have := w.w0.isLt
    unfold toNat
    omega
  rw [BitVec.toInt_eq_toNat_cond, e2]
  have hb : ((z.toNat / 2 ^ 128 % 2 ^ 64 : Nat) : Int) = (Z % 2 ^ 256) / 2 ^ 128 % 2 ^ 64 := by
    rw [← h]; push_cast; rfl
  split
  · rename_i hc
    have : (2 * ((z.toNat / 2 ^ 128 % 2 ^ 64 : Nat) : Int)) < 2 ^ 64 := by exact_mod_cast hc
    rw [hb] at this ⊢
    omega
  · rename_i hc
    have : (2 ^ 64 : Int) ≤ 2 * ((z.toNat / 2 ^ 128 % 2 ^ 64 : Nat) : Int) := by exact_mod_cast Nat.le_of_not_lt hc
    push_cast
    push_cast at hb this
    rw [hb] at this ⊢
    omega

/-! ### Numerical bounds -/

theorem log_10001 : (9.99950003332e-5 : ℝ) ≤ Real.log 1.0001 ∧ Real.log 1.0001 ≤ 9.9995000334e-5 := by
  have h := Real.abs_log_sub_add_sum_range_le (x := -0.0001) (by rw [abs_lt]; constructor <;> norm_num) 3
  rw [show (1 : ℝ) - -0.0001 = 1.0001 by norm_num, abs_le] at h
  simp only [Finset.sum_range_succ, Finset.sum_range_zero] at h
  norm_num at h ⊢
  constructor <;> linarith [h.1, h.2]

/-- The base-`sqrt 1.0001` logarithm of two, against the constant of the program. -/
theorem base_change : |2 * Real.log 2 - (0x3627A301D71055774C85 / 2 ^ 64) * Real.log 1.0001| ≤ 2e-9 := by
  have a := Real.log_two_gt_d9
  have b := Real.log_two_lt_d9
  obtain ⟨c, d⟩ := log_10001
  rw [abs_le]
  norm_num at a b c d ⊢
  constructor <;> linarith

/-- The price at a tick as an exponential. -/
theorem sqrt_exp (t : Int) : Real.sqrt (10001 / 10000) ^ t = Real.exp (t * (Real.log 1.0001 / 2)) := by
  have h : (0 : ℝ) < Real.sqrt (10001 / 10000) := Real.sqrt_pos.2 (by norm_num)
  rw [← Real.exp_log (zpow_pos h t), Real.log_zpow, Real.log_sqrt (by norm_num)]
  norm_num

/-- The error of the table entries relative to the exact price. -/
theorem ratio_rel (t : Int) (h1 : -887272 ≤ t) (h2 : t ≤ 887272) (P : ℝ) (hP : P = 2 ^ 96 * Real.sqrt (10001 / 10000) ^ t) :
    P * (1 - 1 / 2 ^ 50) - 1 ≤ ratioN t ∧ (ratioN t : ℝ) ≤ P * (1 + 1 / 2 ^ 50) + 2 := by
  have h3 := price_lt h1 h2 hP
  have hP0 : 0 < P := by
    rw [hP]
    have : (0 : ℝ) < Real.sqrt (10001 / 10000) := Real.sqrt_pos.2 (by norm_num)
    positivity
  by_cases c : t ≤ 0
  · obtain ⟨a, b⟩ := ratio_error_neg t h1 c
    rw [← hP] at a b
    generalize (ratioN t : ℝ) = r at *
    norm_num at a b ⊢
    constructor <;> linarith
  · obtain ⟨a, b⟩ := ratio_error_pos t (by omega) h2 P hP
    have e : P ^ 2 / 2 ^ 218 ≤ P * (1 / 2 ^ 50) := by
      rw [div_le_iff₀ (by positivity), pow_two]
      have : P ≤ 2 ^ 168 := le_trans (le_of_lt h3) (by norm_num)
      calc P * P ≤ P * 2 ^ 168 := mul_le_mul_of_nonneg_left this (le_of_lt hP0)
        _ = _ := by ring
    generalize (ratioN t : ℝ) = r at *
    generalize P ^ 2 / 2 ^ 218 = q at *
    norm_num at a b e ⊢
    constructor <;> linarith

/-- A tick clearly below the logarithm of the price has a table entry at or below the price. -/
theorem below_log (t : Int) (h1 : -887272 ≤ t) (h2 : t ≤ 887272) (N : Nat) (hN : 4295128739 ≤ N)
    (h : (t : ℝ) * (Real.log 1.0001 / 2) + 4e-7 ≤ Real.log (N / 2 ^ 96)) : ratioN t ≤ N := by
  obtain ⟨-, b⟩ := ratio_rel t h1 h2 _ rfl
  rw [sqrt_exp] at b
  have hN' : (4295128739 : ℝ) ≤ N := by exact_mod_cast hN
  have hpos : (0 : ℝ) < N / 2 ^ 96 := div_pos (by linarith) (by positivity)
  have e := Real.exp_le_exp.2 h
  rw [Real.exp_log hpos, Real.exp_add] at e
  have g : (1 : ℝ) + 4e-7 ≤ Real.exp 4e-7 := by
    have := Real.add_one_le_exp (4e-7 : ℝ)
    linarith
  have k : Real.exp (t * (Real.log 1.0001 / 2)) * (1 + 4e-7) ≤ N / 2 ^ 96 :=
    le_trans (mul_le_mul_of_nonneg_left g (Real.exp_pos _).le) e
  rw [le_div_iff₀ (by positivity)] at k
  have : (ratioN t : ℝ) ≤ N := by
    generalize Real.exp (t * (Real.log 1.0001 / 2)) = E at *
    generalize (ratioN t : ℝ) = r at *
    norm_num at k b ⊢
    linarith
  exact_mod_cast this

/-- A tick clearly above the logarithm of the price has a table entry above the price. -/
theorem above_log (t : Int) (h1 : -887272 ≤ t) (h2 : t ≤ 887272) (N : Nat) (hN : 4295128739 ≤ N)
    (h : Real.log (N / 2 ^ 96) + 4e-7 ≤ (t : ℝ) * (Real.log 1.0001 / 2)) : N < ratioN t := by
  obtain ⟨b, -⟩ := ratio_rel t h1 h2 _ rfl
  rw [sqrt_exp] at b
  have hN' : (4295128739 : ℝ) ≤ N := by exact_mod_cast hN
  have hpos : (0 : ℝ) < N / 2 ^ 96 := div_pos (by linarith) (by positivity)
  have e := Real.exp_le_exp.2 h
  rw [Real.exp_add, Real.exp_log hpos] at e
  have g : (1 : ℝ) + 4e-7 ≤ Real.exp 4e-7 := by
    have := Real.add_one_le_exp (4e-7 : ℝ)
    linarith
  have k : (N / 2 ^ 96) * (1 + 4e-7) ≤ Real.exp (t * (Real.log 1.0001 / 2)) :=
    le_trans (mul_le_mul_of_nonneg_left g hpos.le) e
  have k2 : (N : ℝ) * (1 + 4e-7) ≤ 2 ^ 96 * Real.exp (t * (Real.log 1.0001 / 2)) := by
    have := mul_le_mul_of_nonneg_left k (show (0 : ℝ) ≤ 2 ^ 96 by positivity)
    refine le_trans (le_of_eq ?_) this
    field_simp
  have : (N : ℝ) < ratioN t := by
    generalize 2 ^ 96 * Real.exp (t * (Real.log 1.0001 / 2)) = E at *
    generalize (ratioN t : ℝ) = r at *
    norm_num at k2 b ⊢
    linarith
  exact_mod_cast this

/-- The fixed-point logarithm against the real one. -/
theorem log_between (K : Int) (L : ℝ) (k1 : -2 ^ 20 ≤ K) (k2 : K < 2 ^ 20) (a : (K : ℝ) * Real.log 2 ≤ 2 ^ 14 * L)
    (b : 2 ^ 14 * L ≤ ((K : ℝ) + 1) * Real.log 2 + 2 ^ 15 / 2 ^ 127) :
    (K * 2 ^ 50 * 0x3627A301D71055774C85 / 2 ^ 128 : ℝ) * (Real.log 1.0001 / 2) - 7e-8 ≤ L ∧
    L ≤ (K * 2 ^ 50 * 0x3627A301D71055774C85 / 2 ^ 128 : ℝ) * (Real.log 1.0001 / 2) + 4.2371e-5 := by
  obtain ⟨d1, d2⟩ := abs_le.1 base_change
  have l2 := Real.log_two_lt_d9
  have q1 : (-2 ^ 20 : ℝ) ≤ K := by exact_mod_cast k1
  have q2 : (K : ℝ) ≤ 2 ^ 20 := by exact_mod_cast le_of_lt k2
  have e : (K * 2 ^ 50 * 0x3627A301D71055774C85 / 2 ^ 128 : ℝ) * (Real.log 1.0001 / 2) =
      K * ((0x3627A301D71055774C85 / 2 ^ 64) * Real.log 1.0001) / 2 ^ 15 := by ring
  rw [e]
  generalize (0x3627A301D71055774C85 / 2 ^ 64) * Real.log 1.0001 = c at *
  generalize hw : 2 * Real.log 2 - c = w at *
  have e2 : (K : ℝ) * Real.log 2 = K * c / 2 + K * w / 2 := by rw [← hw]; ring
  have hKw : |(K : ℝ) * w| ≤ 2 ^ 20 * 2e-9 := by
    rw [abs_mul]
    exact mul_le_mul (abs_le.2 ⟨by linarith, q2⟩) (abs_le.2 ⟨d1, d2⟩) (abs_nonneg _) (by positivity)
  obtain ⟨w1, w2⟩ := abs_le.1 hKw
  rw [add_mul, e2] at b
  rw [e2] at a
  generalize (K : ℝ) * w = kw at *
  generalize (K : ℝ) * c = kc at *
  norm_num at a b w1 w2 l2 ⊢
  constructor <;> linarith

/-! ### The result -/

/-- The two candidates: the lower one is clearly below the logarithm of the price, the number after the higher one
clearly above it, and they differ by at most one. -/
theorem candidates (K : Int) (L : ℝ) (k1 : -2 ^ 20 ≤ K) (k2 : K < 2 ^ 20) (a : (K : ℝ) * Real.log 2 ≤ 2 ^ 14 * L)
    (b : 2 ^ 14 * L ≤ ((K : ℝ) + 1) * Real.log 2 + 2 ^ 15 / 2 ^ 127) (lo hi : Int)
    (hlo : lo = (K * 2 ^ 50 * 0x3627A301D71055774C85 - 0x28F6481AB7F045A5AF012A19D003AAA) / 2 ^ 128)
    (hhi : hi = (K * 2 ^ 50 * 0x3627A301D71055774C85 + 0xDB2DF09E81959A81455E260799A0632F) / 2 ^ 128) :
    (lo : ℝ) * (Real.log 1.0001 / 2) + 4e-7 ≤ L ∧ L + 4e-7 ≤ ((hi : ℝ) + 1) * (Real.log 1.0001 / 2) ∧ lo ≤ hi ∧ hi ≤ lo + 1 := by
  obtain ⟨u, v⟩ := log_between K L k1 k2 a b
  obtain ⟨c, d⟩ := log_10001
  have e1 : lo * 2 ^ 128 ≤ K * 2 ^ 50 * 0x3627A301D71055774C85 - 0x28F6481AB7F045A5AF012A19D003AAA := by omega
  have e2 : K * 2 ^ 50 * 0x3627A301D71055774C85 + 0xDB2DF09E81959A81455E260799A0632F < (hi + 1) * 2 ^ 128 := by omega
  have f1 : (lo : ℝ) * 2 ^ 128 ≤ K * 2 ^ 50 * 0x3627A301D71055774C85 - 0x28F6481AB7F045A5AF012A19D003AAA := by exact_mod_cast e1
  have f2 : (K : ℝ) * 2 ^ 50 * 0x3627A301D71055774C85 + 0xDB2DF09E81959A81455E260799A0632F ≤ ((hi : ℝ) + 1) * 2 ^ 128 := by
    exact_mod_cast le_of_lt e2
  refine ⟨?_, ?_, by omega, by omega⟩
  · have g : (lo : ℝ) ≤ K * 2 ^ 50 * 0x3627A301D71055774C85 / 2 ^ 128 - 0.01 := by
      rw [div_sub' (by positivity), le_div_iff₀ (by positivity)]
      norm_num at f1 ⊢
      linarith
    have := mul_le_mul_of_nonneg_right g (show (0 : ℝ) ≤ Real.log 1.0001 / 2 by norm_num at c ⊢; linarith)
    rw [sub_mul] at this
    norm_num at this c u ⊢
    linarith
  · have g : (K : ℝ) * 2 ^ 50 * 0x3627A301D71055774C85 / 2 ^ 128 + 0.856169 ≤ (hi : ℝ) + 1 := by
      rw [div_add' _ _ _ (by positivity), div_le_iff₀ (by positivity)]
      norm_num at f2 ⊢
      linarith
    have := mul_le_mul_of_nonneg_right g (show (0 : ℝ) ≤ Real.log 1.0001 / 2 by norm_num at c ⊢; linarith)
    rw [add_mul] at this
    norm_num at this c v ⊢
    linarith

/-- The computation from the logarithm finds the tick of the price. -/
theorem getTickByLog_spec (p : U256) (h1 : 4295128739 ≤ p.toNat)
    (h2 : p.toNat < 1461446703485210103287273052203988822378723970342)
    (hmsb : 2 ^ mostSignificantBit (lsh p 32) ≤ (lsh p 32).toNat ∧ (lsh p 32).toNat < 2 ^ (mostSignificantBit (lsh p 32) + 1)) :
    ∃ t, getTickByLog p = .ok t ∧ -887272 ≤ t ∧ t < 887272 ∧ ratioN t ≤ p.toNat ∧ p.toNat < ratioN (t + 1) := by
  obtain ⟨K, k1, k2, hl, a, b⟩ := logSqrt10001_spec p (by omega) (by omega) hmsb
  have e1 : shiftedTick (sub (logSqrt10001 p) magicTickLow) =
      (K * 2 ^ 50 * 0x3627A301D71055774C85 - 0x28F6481AB7F045A5AF012A19D003AAA) / 2 ^ 128 := by
    apply shiftedTick_spec _ _ _ (by omega) (by omega)
    rw [toNat_sub, show magicTickLow.toNat = 0x28F6481AB7F045A5AF012A19D003AAA by decide +kernel]
    generalize (logSqrt10001 p).toNat = l at *
    omega
  have e2 : shiftedTick (add (logSqrt10001 p) magicTickHigh) =
      (K * 2 ^ 50 * 0x3627A301D71055774C85 + 0xDB2DF09E81959A81455E260799A0632F) / 2 ^ 128 := by
    apply shiftedTick_spec _ _ _ (by omega) (by omega)
    rw [toNat_add, show magicTickHigh.toNat = 0xDB2DF09E81959A81455E260799A0632F by decide +kernel]
    generalize (logSqrt10001 p).toNat = l at *
    omega
  obtain ⟨c1, c2, c3, c4⟩ := candidates K _ k1 k2 a b _ _ e1 e2
  unfold getTickByLog
  dsimp only
  clear hl a b e1 e2
  generalize shiftedTick (sub (logSqrt10001 p) magicTickLow) = lo at *
  generalize shiftedTick (add (logSqrt10001 p) magicTickHigh) = hi at *
  have hpos := log_10001.1
  have mono : ∀ s t : Int, s ≤ t → (s : ℝ) * (Real.log 1.0001 / 2) ≤ (t : ℝ) * (Real.log 1.0001 / 2) := fun s t h =>
    mul_le_mul_of_nonneg_right (by exact_mod_cast h) (by norm_num at hpos ⊢; linarith)
  -- the lower candidate is below the end of the table, the higher one above its start
  have lo2 : lo < 887272 := by
    by_contra hc
    have m := mono 887272 lo (by omega)
    have := below_log 887272 (by omega) (by omega) p.toNat h1 (by push_cast at m ⊢; linarith)
    rw [ratioN_max] at this
    omega
  have hi1 : -887272 ≤ hi := by
    by_contra hc
    have m := mono (hi + 1) (-887272) (by omega)
    have := above_log (-887272) (by omega) (by omega) p.toNat h1 (by push_cast at m ⊢; linarith)
    rw [ratioN_min] at this
    omega
  have up : hi < 887272 → p.toNat < ratioN (hi + 1) := fun h =>
    above_log (hi + 1) (by omega) (by omega) p.toNat h1 (by push_cast; exact c2)
  have dn : -887272 ≤ lo → ratioN lo ≤ p.toNat := fun h => below_log lo h (by omega) p.toNat h1 c1
  by_cases c : lo = hi
  · rw [if_pos c]
    exact ⟨lo, rfl, by omega, lo2, dn (by omega), by rw [c]; exact up (by omega)⟩
  · rw [if_neg c]
    have e : hi = lo + 1 := by omega
    obtain ⟨q, hq, hv⟩ := getSqrtRatioAtTick'_spec hi hi1 (by omega)
    rw [hq]
    simp only [Except_bind_ok]
    by_cases g : cmp q p ≤ 0
    · have g' := g
      rw [cmp_le0, hv] at g'
      have hh : hi < 887272 := by
        by_contra hc
        have : hi = 887272 := by omega
        rw [this, ratioN_max] at g'
        omega
      exact ⟨hi, by rw [if_pos g]; rfl, hi1, hh, g', up hh⟩
    · have g' := g
      rw [cmp_le0, hv] at g'
      have hl : -887272 ≤ lo := by
        by_contra hc
        have : hi = -887272 := by omega
        rw [this, ratioN_min] at g'
        omega
      exact ⟨lo, by rw [if_neg g]; rfl, hl, lo2, dn hl, by rw [← e]; omega⟩

end TickMath
end Uni
