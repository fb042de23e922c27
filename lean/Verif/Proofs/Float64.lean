import Verif.Model.Float64
import Verif.Proofs.TickRound
import Mathlib.Tactic.Linarith
import Mathlib.Tactic.Positivity
import Mathlib.Tactic.FieldSimp
import Mathlib.Tactic.Ring
/-! # Facts about binary64 rounding: monotone, idempotent, odd, relative error 2^-53 -/
namespace Uni
namespace TickRound

theorem roundEven_int (m : Int) : roundEven m = m := le_antisymm (roundEven_le le_rfl) (le_roundEven le_rfl)

theorem roundEven_mono {x y : ℚ} (h : x ≤ y) : roundEven x ≤ roundEven y := by
  have hfl : ⌊x⌋ ≤ ⌊y⌋ := Int.floor_le_floor h
  rcases eq_or_lt_of_le hfl with he | hl
  · unfold roundEven
    dsimp only
    rw [he]
    split_ifs <;> first | omega | (exfalso; linarith)
  · have h1 : roundEven x ≤ ⌊x⌋ + 1 := roundEven_le (by push_cast; exact (Int.lt_floor_add_one x).le)
    have h2 : ⌊y⌋ ≤ roundEven y := le_roundEven (Int.floor_le y)
    omega

theorem roundEven_neg (x : ℚ) : roundEven (-x) = -roundEven x := by
  by_cases hx : x = ⌊x⌋
  · rw [hx, ← Int.cast_neg, roundEven_int, roundEven_int]
  · have h1 : (⌊x⌋ : ℚ) < x := lt_of_le_of_ne (Int.floor_le x) (Ne.symm hx)
    have h2 := Int.lt_floor_add_one x
    have hf : ⌊-x⌋ = -⌊x⌋ - 1 := by
      rw [Int.floor_eq_iff]
      push_cast
      constructor <;> linarith
    unfold roundEven
    dsimp only
    rw [hf]
    push_cast
    split_ifs <;> first | omega | (exfalso; linarith)

theorem roundEven_err (x : ℚ) : |(roundEven x : ℚ) - x| ≤ 1 / 2 := by
  have h1 := Int.floor_le x
  have h2 := Int.lt_floor_add_one x
  unfold roundEven
  dsimp only
  rw [abs_le]
  split_ifs <;> push_cast <;> constructor <;> linarith

theorem rnd_zero : rnd 0 = 0 := by
  unfold rnd
  dsimp only
  rw [zero_div, show (0 : ℚ) = ((0 : Int) : ℚ) by norm_num, roundEven_int]
  simp

theorem rnd_neg (x : ℚ) : rnd (-x) = -rnd x := by
  unfold rnd
  dsimp only
  rw [abs_neg, neg_div, roundEven_neg]
  push_cast
  ring

/-- The power of two at which `x` is rounded. -/
theorem scale {x : ℚ} (hx : 0 < x) : (2 : ℚ) ^ (Int.log 2 x) ≤ x ∧ x < 2 ^ (Int.log 2 x + 1) := by
  constructor
  · have := Int.zpow_log_le_self (R := ℚ) (b := 2) (by norm_num) hx
    exact_mod_cast this
  · have := Int.lt_zpow_succ_log_self (R := ℚ) (b := 2) (by norm_num) x
    exact_mod_cast this

theorem two_zpow_pos (e : Int) : (0 : ℚ) < 2 ^ e := zpow_pos (by norm_num) e

theorem scaled {x : ℚ} (hx : 0 < x) :
    (2 : ℚ) ^ 52 ≤ x / 2 ^ (Int.log 2 x - 52) ∧ x / 2 ^ (Int.log 2 x - 52) < 2 ^ 53 := by
  obtain ⟨h1, h2⟩ := scale hx
  have hp := two_zpow_pos (Int.log 2 x - 52)
  constructor
  · rw [le_div_iff₀ hp, ← zpow_natCast, ← zpow_add₀ (by norm_num)]
    have : ((52 : ℕ) : Int) + (Int.log 2 x - 52) = Int.log 2 x := by push_cast; ring
    rw [this]; exact h1
  · rw [div_lt_iff₀ hp, ← zpow_natCast, ← zpow_add₀ (by norm_num)]
    have : ((53 : ℕ) : Int) + (Int.log 2 x - 52) = Int.log 2 x + 1 := by push_cast; ring
    rw [this]; exact h2

/-- The rounded value stays in the binade, end points included. -/
theorem rnd_binade {x : ℚ} (hx : 0 < x) : (2 : ℚ) ^ (Int.log 2 x) ≤ rnd x ∧ rnd x ≤ 2 ^ (Int.log 2 x + 1) := by
  obtain ⟨h1, h2⟩ := scaled hx
  have hp := two_zpow_pos (Int.log 2 x - 52)
  unfold rnd
  dsimp only
  rw [abs_of_pos hx]
  have h3 : (2 ^ 52 : Int) ≤ roundEven (x / 2 ^ (Int.log 2 x - 52)) := le_roundEven (by push_cast; exact h1)
  have h4 : roundEven (x / 2 ^ (Int.log 2 x - 52)) ≤ (2 ^ 53 : Int) := roundEven_le (by push_cast; exact h2.le)
  have h3' : (2 : ℚ) ^ 52 ≤ (roundEven (x / 2 ^ (Int.log 2 x - 52)) : ℚ) := by exact_mod_cast h3
  have h4' : (roundEven (x / 2 ^ (Int.log 2 x - 52)) : ℚ) ≤ 2 ^ 53 := by exact_mod_cast h4
  constructor
  · calc (2 : ℚ) ^ (Int.log 2 x) = 2 ^ 52 * 2 ^ (Int.log 2 x - 52) := by
          rw [← zpow_natCast, ← zpow_add₀ (by norm_num)]; congr 1; push_cast; ring
      _ ≤ _ := mul_le_mul_of_nonneg_right h3' hp.le
  · calc _ ≤ (2 : ℚ) ^ 53 * 2 ^ (Int.log 2 x - 52) := mul_le_mul_of_nonneg_right h4' hp.le
      _ = 2 ^ (Int.log 2 x + 1) := by
          rw [← zpow_natCast, ← zpow_add₀ (by norm_num)]; congr 1; push_cast; ring

theorem rnd_pos {x : ℚ} (hx : 0 < x) : 0 < rnd x := lt_of_lt_of_le (two_zpow_pos _) (rnd_binade hx).1

theorem rnd_nonneg {x : ℚ} (hx : 0 ≤ x) : 0 ≤ rnd x := by
  rcases eq_or_lt_of_le hx with h | h
  · rw [← h, rnd_zero]
  · exact (rnd_pos h).le

theorem rnd_mono_pos {x y : ℚ} (hx : 0 < x) (h : x ≤ y) : rnd x ≤ rnd y := by
  have hy := lt_of_lt_of_le hx h
  have hl : Int.log 2 x ≤ Int.log 2 y := Int.log_mono_right hx h
  rcases eq_or_lt_of_le hl with he | hlt
  · unfold rnd
    dsimp only
    rw [abs_of_pos hx, abs_of_pos hy, he]
    refine mul_le_mul_of_nonneg_right ?_ (two_zpow_pos _).le
    exact_mod_cast roundEven_mono (div_le_div_of_nonneg_right h (two_zpow_pos _).le)
  · calc rnd x ≤ 2 ^ (Int.log 2 x + 1) := (rnd_binade hx).2
      _ ≤ 2 ^ (Int.log 2 y) := zpow_le_zpow_right₀ (by norm_num) (by omega)
      _ ≤ rnd y := (rnd_binade hy).1

theorem rnd_mono {x y : ℚ} (h : x ≤ y) : rnd x ≤ rnd y := by
  rcases lt_trichotomy x 0 with hx | hx | hx
  · rcases lt_or_ge y 0 with hy | hy
    · have := rnd_mono_pos (x := -y) (y := -x) (by linarith) (by linarith)
      rw [rnd_neg, rnd_neg] at this
      linarith
    · have h1 := rnd_pos (x := -x) (by linarith)
      rw [rnd_neg] at h1
      have h2 := rnd_nonneg hy
      linarith
  · rw [hx, rnd_zero]
    exact rnd_nonneg (hx ▸ h)
  · exact rnd_mono_pos hx h

theorem rnd_err (x : ℚ) : |rnd x - x| ≤ |x| / 2 ^ 53 := by
  wlog hx : 0 < x generalizing x
  · rcases eq_or_lt_of_le (not_lt.1 hx) with h | h
    · rw [h, rnd_zero]; simp
    · have := this (-x) (by linarith)
      rw [rnd_neg, abs_neg, ← abs_neg (rnd x - x)] at *
      convert this using 2
      ring
  · obtain ⟨h1, _⟩ := scaled hx
    have hp := two_zpow_pos (Int.log 2 x - 52)
    have he := roundEven_err (x / 2 ^ (Int.log 2 x - 52))
    unfold rnd
    dsimp only
    rw [abs_of_pos hx]
    have hx' : x = x / 2 ^ (Int.log 2 x - 52) * 2 ^ (Int.log 2 x - 52) := by field_simp
    set u := x / 2 ^ (Int.log 2 x - 52)
    set w := (2 : ℚ) ^ (Int.log 2 x - 52)
    have : |(roundEven u : ℚ) * w - x| = |(roundEven u : ℚ) - u| * w := by
      conv_lhs => rw [hx']
      rw [← sub_mul, abs_mul, abs_of_pos hp]
    rw [this]
    rw [le_div_iff₀ (by norm_num)]
    calc |(roundEven u : ℚ) - u| * w * 2 ^ 53 ≤ 1 / 2 * w * 2 ^ 53 := by
          apply mul_le_mul_of_nonneg_right _ (by norm_num)
          exact mul_le_mul_of_nonneg_right he hp.le
      _ = 2 ^ 52 * w := by ring
      _ ≤ u * w := mul_le_mul_of_nonneg_right h1 hp.le
      _ = x := hx'.symm

/-- Numbers with a significand of at most 53 bits are not changed. -/
theorem rnd_exact {m : Int} (hm : |m| ≤ 2 ^ 53) (e : Int) : rnd (m * 2 ^ e) = m * 2 ^ e := by
  wlog hpos : 0 < m generalizing m
  · rcases eq_or_lt_of_le (not_lt.1 hpos) with h | h
    · rw [h]; simp [rnd_zero]
    · have := this (m := -m) (by rwa [abs_neg]) (by omega)
      push_cast at this
      rw [neg_mul, rnd_neg] at this
      linarith
  · have hm' : m ≤ 2 ^ 53 := by rwa [abs_of_pos hpos] at hm
    have hw := two_zpow_pos e
    have hmq : (0 : ℚ) < m := by exact_mod_cast hpos
    have hx : (0 : ℚ) < m * 2 ^ e := by positivity
    unfold rnd
    dsimp only
    rw [abs_of_pos hx]
    obtain ⟨h1, h2⟩ := scale hx
    -- the significand, rescaled, is an integer
    have hle : Int.log 2 ((m : ℚ) * 2 ^ e) - 52 ≤ e ∨ m = 2 ^ 53 := by
      by_cases hm2 : m = 2 ^ 53
      · exact Or.inr hm2
      · left
        have hlt : (m : ℚ) < 2 ^ 53 := by
          have : m < 2 ^ 53 := lt_of_le_of_ne hm' hm2
          exact_mod_cast this
        by_contra hc
        push Not at hc
        have : (m : ℚ) * 2 ^ e < 2 ^ (Int.log 2 ((m : ℚ) * 2 ^ e)) := by
          calc (m : ℚ) * 2 ^ e < 2 ^ 53 * 2 ^ e := mul_lt_mul_of_pos_right hlt hw
            _ = 2 ^ (53 + e) := by rw [← zpow_natCast, ← zpow_add₀ (by norm_num)]; norm_num
            _ ≤ _ := zpow_le_zpow_right₀ (by norm_num) (by omega)
        linarith
    have key : ∃ k : Int, (m : ℚ) * 2 ^ e / 2 ^ (Int.log 2 ((m : ℚ) * 2 ^ e) - 52) = k := by
      rcases hle with h | h
      · obtain ⟨d, hd⟩ := Int.eq_ofNat_of_zero_le (sub_nonneg.2 h)
        refine ⟨m * 2 ^ d, ?_⟩
        rw [mul_div_assoc, ← zpow_sub₀ (by norm_num), hd]
        push_cast
        rw [zpow_natCast]
      · have hl : Int.log 2 ((m : ℚ) * 2 ^ e) = 53 + e := by
          have : (m : ℚ) * 2 ^ e = ((2 : ℕ) : ℚ) ^ (53 + e) := by
            rw [h]; push_cast
            rw [zpow_add₀ (by norm_num)]; norm_num
          rw [this, Int.log_zpow (by norm_num)]
        refine ⟨2 ^ 52, ?_⟩
        rw [hl, h, mul_div_assoc, ← zpow_sub₀ (by norm_num)]
        have : e - (53 + e - 52) = -1 := by ring
        rw [this]; norm_num
    obtain ⟨k, hk⟩ := key
    rw [hk, roundEven_int, ← hk]
    field_simp

theorem rnd_idem (x : ℚ) : rnd (rnd x) = rnd x := by
  wlog hx : 0 < x generalizing x
  · rcases eq_or_lt_of_le (not_lt.1 hx) with h | h
    · rw [h, rnd_zero, rnd_zero]
    · have := this (-x) (by linarith)
      rw [rnd_neg, rnd_neg] at this
      linarith
  · have hb : |roundEven (x / 2 ^ (Int.log 2 x - 52))| ≤ 2 ^ 53 := by
      obtain ⟨h1, h2⟩ := scaled hx
      have h3 : (2 ^ 52 : Int) ≤ roundEven (x / 2 ^ (Int.log 2 x - 52)) := le_roundEven (by push_cast; exact h1)
      have h4 : roundEven (x / 2 ^ (Int.log 2 x - 52)) ≤ (2 ^ 53 : Int) := roundEven_le (by push_cast; exact h2.le)
      rw [abs_of_nonneg (by omega)]
      exact h4
    have := rnd_exact hb (Int.log 2 x - 52)
    conv_lhs => rw [show rnd x = roundEven (x / 2 ^ (Int.log 2 x - 52)) * 2 ^ (Int.log 2 x - 52) by
      unfold rnd; dsimp only; rw [abs_of_pos hx]]
    rw [this]
    unfold rnd; dsimp only; rw [abs_of_pos hx]

theorem rnd_one : rnd 1 = 1 := by
  have := rnd_exact (m := 1) (by norm_num) 0
  simpa using this

/-- Integers up to 2^53 are exact. -/
theorem rnd_natCast {n : Nat} (h : n ≤ 2 ^ 53) : rnd n = n := by
  have := rnd_exact (m := n) (by rw [abs_of_nonneg (by omega)]; exact_mod_cast h) 0
  simpa using this

theorem rnd_eq_zero {x : ℚ} : rnd x = 0 ↔ x = 0 := by
  constructor
  · intro h
    rcases lt_trichotomy x 0 with hx | hx | hx
    · have := rnd_pos (x := -x) (by linarith)
      rw [rnd_neg] at this
      linarith
    · exact hx
    · exact absurd h (rnd_pos hx).ne'
  · rintro rfl; exact rnd_zero

end TickRound
end Uni
