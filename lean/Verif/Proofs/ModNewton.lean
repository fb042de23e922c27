import Mathlib.Tactic.LinearCombination
import Mathlib.Tactic.Linarith
import Mathlib.Tactic.Ring
import Mathlib.Tactic.NormNum
/-! The Newton iterations of `Reciprocal`, on integers. -/
set_option exponentiation.threshold 1000
namespace Uni.Newton

/-- One iteration: `t` is the truncated product of the square with `Y`, `N = F * r - t`. -/
theorem iter_id {D F H r Y t ρ N P : ℤ} (hDF : D * F = 2 * H) (hP : P = r * Y) (ht : r * P = D * t + ρ)
    (hN : N = F * r - t) : D * N * Y = H ^ 2 - (P - H) ^ 2 + ρ * Y := by
  subst hN hP
  linear_combination r * Y * hDF + Y * ht

theorem sq_le {a b : ℤ} (h1 : -b ≤ a) (h2 : a ≤ b) : a ^ 2 ≤ b ^ 2 := by
  have h : 0 ≤ (b - a) * (b + a) := mul_nonneg (by linarith) (by linarith)
  linarith [h]

theorem step1 {y3 yh r0 t : ℤ} (hy : 2 ^ 63 ≤ y3) (hy2 : y3 < 2 ^ 64) (h1 : 2 ^ 32 * yh ≤ y3) (h2 : y3 < 2 ^ 32 * (yh + 1))
    (ha : 2 ^ 63 - yh ≤ r0 * yh) (hb : r0 * yh ≤ 2 ^ 63) (hr0 : 0 ≤ r0) (hr : r0 < 2 ^ 32)
    (hs : yh = 2 ^ 31 → r0 = 2 ^ 32 - 1)
    (t1 : 2 ^ 64 * t ≤ r0 * r0 * y3) (t2 : r0 * r0 * y3 < 2 ^ 64 * (t + 1)) :
    2 ^ 127 - 2 ^ 65 ≤ 2 * (2 ^ 32 * r0 - t) * y3 ∧ 2 * (2 ^ 32 * r0 - t) * y3 < 2 ^ 127 + 2 * y3 ∧
    0 < 2 * (2 ^ 32 * r0 - t) ∧
    (y3 = 2 ^ 63 → 2 * (2 ^ 32 * r0 - t) = 2 ^ 64) ∧ (y3 ≠ 2 ^ 63 → 2 * (2 ^ 32 * r0 - t) < 2 ^ 64) := by
  obtain ⟨N, hN⟩ : ∃ N, N = 2 ^ 32 * r0 - t := ⟨_, rfl⟩
  obtain ⟨P, hP⟩ : ∃ P, P = r0 * y3 := ⟨_, rfl⟩
  obtain ⟨ρ, hρ⟩ : ∃ ρ, ρ = r0 * P - 2 ^ 64 * t := ⟨_, rfl⟩
  have hid := iter_id (D := 2 ^ 64) (F := 2 ^ 32) (H := 2 ^ 95) (by norm_num) hP (by linarith : r0 * P = 2 ^ 64 * t + ρ) hN
  rw [← hN]
  have hrr : r0 * r0 * y3 = r0 * P := by rw [hP]; ring
  rw [hrr] at t1 t2
  have hρ0 : 0 ≤ ρ := by linarith
  have hρ1 : ρ ≤ 2 ^ 64 - 1 := by
    have : ρ < 2 ^ 64 := by linarith
    omega
  have hyh : yh ≤ 2 ^ 32 - 1 := by omega
  have hPl : -2 ^ 64 ≤ P - 2 ^ 95 := by
    have : r0 * (2 ^ 32 * yh) ≤ r0 * y3 := mul_le_mul_of_nonneg_left h1 hr0
    linarith
  have hPu : P - 2 ^ 95 ≤ 2 ^ 64 := by
    have : r0 * y3 ≤ r0 * (2 ^ 32 * (yh + 1)) := mul_le_mul_of_nonneg_left (by omega) hr0
    linarith
  have hsq := sq_le hPl hPu
  have hρy : 0 ≤ ρ * y3 := mul_nonneg hρ0 (by omega)
  have hρy2 : ρ * y3 ≤ (2 ^ 64 - 1) * y3 := mul_le_mul_of_nonneg_right hρ1 (by omega)
  have hsq0 : 0 ≤ (P - 2 ^ 95) ^ 2 := sq_nonneg _
  have e1 : 2 ^ 127 - 2 ^ 65 ≤ 2 * N * y3 := by nlinarith
  have e2 : 2 * N * y3 < 2 ^ 127 + 2 * y3 := by nlinarith
  have e3 : 0 < 2 * N := by
    by_contra hc
    have : 2 * N * y3 ≤ 0 := mul_nonpos_of_nonpos_of_nonneg (by omega) (by omega)
    linarith
  have hr31 : y3 < 2 ^ 63 + 2 ^ 32 → r0 = 2 ^ 32 - 1 := by
    intro h
    apply hs
    omega
  refine ⟨e1, e2, e3, ?_, ?_⟩
  · intro hy3
    have h := hr31 (by omega)
    subst h
    subst hy3
    rw [hP] at t1 t2
    omega
  · intro hne
    by_contra hc
    have hN63 : 2 ^ 63 ≤ N := by omega
    obtain ⟨k, hk⟩ : ∃ k, y3 = 2 ^ 63 + k := ⟨y3 - 2 ^ 63, by ring⟩
    by_cases hk2 : 2 ≤ k
    · have : (2 : ℤ) ^ 63 * y3 ≤ N * y3 := mul_le_mul_of_nonneg_right hN63 (by omega)
      nlinarith
    · have hk1 : k = 1 := by omega
      have h := hr31 (by omega)
      subst h
      rw [hk1] at hk
      subst hk
      rw [hP] at t1 t2
      omega

theorem step2 {y3 y2 r1 e : ℤ} (hy : 2 ^ 63 ≤ y3) (hy2 : y3 < 2 ^ 64) (hz : 0 ≤ y2) (hz2 : y2 < 2 ^ 64)
    (hr0 : 0 ≤ r1) (hr : r1 < 2 ^ 64)
    (ha : 2 ^ 127 - 2 ^ 65 ≤ r1 * y3) (hb : r1 * y3 < 2 ^ 127 + 2 * y3) (hs : y3 = 2 ^ 63 → r1 = 2 ^ 64 - 1)
    (t1 : 2 ^ 128 * e ≤ r1 * r1 * (y2 + 2 ^ 64 * y3)) (t2 : r1 * r1 * (y2 + 2 ^ 64 * y3) < 2 ^ 128 * (e + 1)) :
    2 ^ 255 - 9 * 2 ^ 129 ≤ 2 * (2 ^ 64 * r1 - e) * (y2 + 2 ^ 64 * y3) ∧
    2 * (2 ^ 64 * r1 - e) * (y2 + 2 ^ 64 * y3) < 2 ^ 255 + 2 * (y2 + 2 ^ 64 * y3) ∧
    0 < 2 * (2 ^ 64 * r1 - e) ∧
    (y3 = 2 ^ 63 ∧ y2 = 0 → 2 * (2 ^ 64 * r1 - e) = 2 ^ 128) ∧
    (¬ (y3 = 2 ^ 63 ∧ y2 = 0) → 2 * (2 ^ 64 * r1 - e) < 2 ^ 128) := by
  obtain ⟨Y, hY⟩ : ∃ Y, Y = y2 + 2 ^ 64 * y3 := ⟨_, rfl⟩
  rw [← hY] at t1 t2 ⊢
  obtain ⟨N, hN⟩ : ∃ N, N = 2 ^ 64 * r1 - e := ⟨_, rfl⟩
  obtain ⟨P, hP⟩ : ∃ P, P = r1 * Y := ⟨_, rfl⟩
  obtain ⟨ρ, hρ⟩ : ∃ ρ, ρ = r1 * P - 2 ^ 128 * e := ⟨_, rfl⟩
  have hid := iter_id (D := 2 ^ 128) (F := 2 ^ 64) (H := 2 ^ 191) (by norm_num) hP (by linarith : r1 * P = 2 ^ 128 * e + ρ) hN
  rw [← hN]
  have hrr : r1 * r1 * Y = r1 * P := by rw [hP]; ring
  rw [hrr] at t1 t2
  have hρ0 : 0 ≤ ρ := by linarith
  have hρ1 : ρ ≤ 2 ^ 128 - 1 := by
    have : ρ < 2 ^ 128 := by linarith
    omega
  have hY0 : 2 ^ 127 ≤ Y := by omega
  have hry : r1 * y2 ≤ (2 ^ 64 - 1) * (2 ^ 64 - 1) :=
    le_trans (mul_le_mul_of_nonneg_right (by omega : r1 ≤ 2 ^ 64 - 1) hz) (mul_le_mul_of_nonneg_left (by omega) (by norm_num))
  have hry0 : 0 ≤ r1 * y2 := mul_nonneg hr0 hz
  have hPe : P = r1 * y2 + 2 ^ 64 * (r1 * y3) := by rw [hP, hY]; ring
  have hPl : -(3 * 2 ^ 128) ≤ P - 2 ^ 191 := by linarith
  have hPu : P - 2 ^ 191 ≤ 3 * 2 ^ 128 := by linarith
  have hsq := sq_le hPl hPu
  have hρy : 0 ≤ ρ * Y := mul_nonneg hρ0 (by omega)
  have hρy2 : ρ * Y ≤ (2 ^ 128 - 1) * Y := mul_le_mul_of_nonneg_right hρ1 (by omega)
  have hsq0 : 0 ≤ (P - 2 ^ 191) ^ 2 := sq_nonneg _
  have e1 : 2 ^ 255 - 9 * 2 ^ 129 ≤ 2 * N * Y := by linarith
  have e2 : 2 * N * Y < 2 ^ 255 + 2 * Y := by linarith
  have e3 : 0 < 2 * N := by
    by_contra hc
    have : 2 * N * Y ≤ 0 := mul_nonpos_of_nonpos_of_nonneg (by omega) (by omega)
    linarith
  refine ⟨e1, e2, e3, ?_, ?_⟩
  · rintro ⟨hy3, h0⟩
    have h := hs hy3
    subst h h0 hy3 hY
    rw [hP] at t1 t2
    omega
  · intro hne
    by_contra hc
    have hN1 : 2 ^ 127 ≤ N := by omega
    obtain ⟨k, hk⟩ : ∃ k, Y = 2 ^ 127 + k := ⟨Y - 2 ^ 127, by ring⟩
    by_cases hk2 : 2 ≤ k
    · have : (2 : ℤ) ^ 127 * Y ≤ N * Y := mul_le_mul_of_nonneg_right hN1 (by omega)
      nlinarith
    · have hk1 : k = 1 := by omega
      have h := hs (by omega)
      subst h
      rw [hk1] at hk
      subst hk
      rw [hP] at t1 t2
      omega

theorem step3 {Y Yl Y2 r2 q : ℤ} (hY : Y = Yl + 2 ^ 128 * Y2) (hl : 0 ≤ Yl) (hl2 : Yl < 2 ^ 128) (hY0 : 2 ^ 255 < Y)
    (hY1 : Y < 2 ^ 256) (hr0 : 0 ≤ r2) (hr : r2 < 2 ^ 128)
    (ha : 2 ^ 255 - 9 * 2 ^ 129 ≤ r2 * Y2) (hb : r2 * Y2 < 2 ^ 255 + 2 * Y2)
    (t1 : 2 ^ 192 * q ≤ r2 * r2 * Y) (t2 : r2 * r2 * Y < 2 ^ 192 * (q + 8)) :
    2 ^ 574 - 81 * 2 ^ 322 ≤ (2 ^ 192 * r2 - q) * Y ∧ (2 ^ 192 * r2 - q) * Y ≤ 2 ^ 574 + 8 * Y ∧
    0 ≤ 2 ^ 192 * r2 - q ∧ 2 * (2 ^ 192 * r2 - q) < 2 ^ 320 := by
  obtain ⟨N, hN⟩ : ∃ N, N = 2 ^ 192 * r2 - q := ⟨_, rfl⟩
  obtain ⟨P, hP⟩ : ∃ P, P = r2 * Y := ⟨_, rfl⟩
  obtain ⟨ρ, hρ⟩ : ∃ ρ, ρ = r2 * P - 2 ^ 192 * q := ⟨_, rfl⟩
  have hid := iter_id (D := 2 ^ 192) (F := 2 ^ 192) (H := 2 ^ 383) (by norm_num) hP (by linarith : r2 * P = 2 ^ 192 * q + ρ) hN
  rw [← hN]
  have hrr : r2 * r2 * Y = r2 * P := by rw [hP]; ring
  rw [hrr] at t1 t2
  have hρ0 : 0 ≤ ρ := by linarith
  have hρ1 : ρ ≤ 8 * 2 ^ 192 - 1 := by
    have : ρ < 8 * 2 ^ 192 := by linarith
    omega
  have hY2 : 2 ^ 127 ≤ Y2 := by omega
  have hY2' : Y2 < 2 ^ 128 := by omega
  have hry : r2 * Yl ≤ (2 ^ 128 - 1) * (2 ^ 128 - 1) :=
    le_trans (mul_le_mul_of_nonneg_right (by omega : r2 ≤ 2 ^ 128 - 1) hl) (mul_le_mul_of_nonneg_left (by omega) (by norm_num))
  have hry0 : 0 ≤ r2 * Yl := mul_nonneg hr0 hl
  have hPe : P = r2 * Yl + 2 ^ 128 * (r2 * Y2) := by rw [hP, hY]; ring
  have hPl : -(9 * 2 ^ 257) ≤ P - 2 ^ 383 := by linarith
  have hPu : P - 2 ^ 383 ≤ 9 * 2 ^ 257 := by linarith
  have hsq := sq_le hPl hPu
  have hρy : 0 ≤ ρ * Y := mul_nonneg hρ0 (by omega)
  have hρy2 : ρ * Y ≤ (8 * 2 ^ 192 - 1) * Y := mul_le_mul_of_nonneg_right hρ1 (by omega)
  have hsq0 : 0 ≤ (P - 2 ^ 383) ^ 2 := sq_nonneg _
  have e1 : 2 ^ 574 - 81 * 2 ^ 322 ≤ N * Y := by linarith
  have e2 : N * Y ≤ 2 ^ 574 + 8 * Y := by linarith
  have e3 : 0 ≤ N := by
    by_contra hc
    have : N * Y ≤ 0 := mul_nonpos_of_nonpos_of_nonneg (by omega) (by omega)
    linarith
  refine ⟨e1, e2, e3, ?_⟩
  by_contra hc
  have hN1 : 2 ^ 319 ≤ N := by omega
  have hNY : (2 : ℤ) ^ 319 * Y ≤ N * Y := mul_le_mul_of_nonneg_right hN1 (by omega)
  linarith

theorem step4 {Y r3 x : ℤ} (hY0 : 2 ^ 255 < Y) (hY1 : Y < 2 ^ 256)
    (ha : 2 ^ 447 - 2 ^ 258 ≤ r3 * Y) (hb : r3 * Y ≤ 2 ^ 447 + 2 ^ 132)
    (t1 : 2 ^ 192 * x ≤ r3 * r3 * Y) (t2 : r3 * r3 * Y < 2 ^ 192 * (x + 4 * 2 ^ 64)) :
    2 ^ 702 - 2 ^ 324 ≤ (2 ^ 256 * r3 - x) * Y ∧ (2 ^ 256 * r3 - x) * Y ≤ 2 ^ 702 + 2 ^ 66 * Y ∧
    0 ≤ 2 ^ 256 * r3 - x := by
  obtain ⟨N, hN⟩ : ∃ N, N = 2 ^ 256 * r3 - x := ⟨_, rfl⟩
  obtain ⟨P, hP⟩ : ∃ P, P = r3 * Y := ⟨_, rfl⟩
  obtain ⟨ρ, hρ⟩ : ∃ ρ, ρ = r3 * P - 2 ^ 192 * x := ⟨_, rfl⟩
  have hid := iter_id (D := 2 ^ 192) (F := 2 ^ 256) (H := 2 ^ 447) (by norm_num) hP (by linarith : r3 * P = 2 ^ 192 * x + ρ) hN
  rw [← hN]
  have hrr : r3 * r3 * Y = r3 * P := by rw [hP]; ring
  rw [hrr] at t1 t2
  have hρ0 : 0 ≤ ρ := by linarith
  have hρ1 : ρ ≤ 2 ^ 258 := by linarith
  rw [← hP] at ha hb
  have hPl : -(2 ^ 258) ≤ P - 2 ^ 447 := by linarith
  have hPu : P - 2 ^ 447 ≤ 2 ^ 258 := by linarith
  have hsq := sq_le hPl hPu
  have hρy : 0 ≤ ρ * Y := mul_nonneg hρ0 (by omega)
  have hρy2 : ρ * Y ≤ 2 ^ 258 * Y := mul_le_mul_of_nonneg_right hρ1 (by omega)
  have hsq0 : 0 ≤ (P - 2 ^ 447) ^ 2 := sq_nonneg _
  have e1 : 2 ^ 702 - 2 ^ 324 ≤ N * Y := by linarith
  have e2 : N * Y ≤ 2 ^ 702 + 2 ^ 66 * Y := by linarith
  refine ⟨e1, e2, ?_⟩
  by_contra hc
  have : N * Y ≤ 0 := mul_nonpos_of_nonpos_of_nonneg (by omega) (by omega)
  linarith

end Uni.Newton
