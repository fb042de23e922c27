import Verif.Proofs.ModBlocks
/-! Values of the subtractions, of the decrement, of the doubling and of the final addition in `Reciprocal` and `reduce4`. -/
set_option exponentiation.threshold 1000
namespace Uni

theorem carry0 {c : ℤ} (h0 : 0 ≤ c) (h1 : c < 1) : c = 0 := by omega

theorem bit01 {n : ℕ} (h : n ≤ 1) : n = 0 ∨ n = 1 := by omega

theorem subZ (x y b : Word) (hb : b.toNat ≤ 1) :
    (x.toNat : ℤ) + 18446744073709551616 * (sub64 x y b).2.toNat = (sub64 x y b).1.toNat + y.toNat + b.toNat ∧
    (sub64 x y b).2.toNat ≤ 1 := by
  have h := sub64_spec x y b hb
  exact ⟨by exact_mod_cast h.1, h.2⟩

theorem Words2.lt (x : Words2) : (x.toNat : ℤ) < 2 ^ 128 := by
  rw [Words2.toZ]
  have := @wU x.w0
  have := @wU x.w1
  norm_num
  linarith

theorem Words3.lt (x : Words3) : (x.toNat : ℤ) < 2 ^ 192 := by
  rw [Words3.toZ]
  have := @wU x.w0
  have := @wU x.w1
  have := @wU x.w2
  norm_num
  linarith

theorem Words5.lt (x : Words5) : (x.toNat : ℤ) < 2 ^ 320 := by
  rw [Words5.toZ]
  have := @wU x.w0
  have := @wU x.w1
  have := @wU x.w2
  have := @wU x.w3
  have := @wU x.w4
  norm_num
  linarith

namespace U256

theorem recipSub2_spec (r1 : Word) (e : Words2) :
    ∃ k : ℤ, ((recipSub2 r1 e).toNat : ℤ) = 2 * (2 ^ 64 * r1.toNat - e.toNat) + 2 ^ 128 * k := by
  unfold recipSub2
  extract_lets d1 d2 s3 s4
  have e_d1 : ((0 : Word).toNat : ℤ) + 18446744073709551616 * d1.2.toNat = d1.1.toNat + e.w0.toNat + (0 : Word).toNat ∧ d1.2.toNat ≤ 1 := subZ _ _ _ (by decide)
  have e_d2 : (r1.toNat : ℤ) + 18446744073709551616 * d2.2.toNat = d2.1.toNat + e.w1.toNat + d1.2.toNat ∧ d2.2.toNat ≤ 1 := subZ _ _ _ e_d1.2
  have e_s3 : (s3.1.toNat : ℤ) + 18446744073709551616 * s3.2.toNat = d1.1.toNat + d1.1.toNat ∧ s3.2.toNat ≤ 1 := addZc _ _
  have e_s4 : (s4.1.toNat : ℤ) + 18446744073709551616 * s4.2.toNat = d2.1.toNat + d2.1.toNat + s3.2.toNat ∧ s4.2.toNat ≤ 1 := addZ _ _ _ e_s3.2
  rw [show ((0 : Word).toNat : ℤ) = 0 from rfl] at e_d1
  clear_value d1 d2 s3 s4
  rw [Words2.toZ, Words2.toZ e]
  refine ⟨2 * d2.2.toNat - s4.2.toNat, ?_⟩
  linear_combination e_s3.1 + 18446744073709551616 * e_s4.1 - 2 * e_d1.1 - 2 * 18446744073709551616 * e_d2.1

theorem recipSub3_spec (r2 : Words2) (q : Words5) (N : ℤ) (hN : N = 2 ^ 192 * r2.toNat - q.toNat) (h0 : 0 ≤ N)
    (h1 : 2 * N < 2 ^ 320) :
    2 ^ 128 * ((recipSub3 r2 q).toNat : ℤ) ≤ 2 * N ∧ 2 * N < 2 ^ 128 * ((recipSub3 r2 q).toNat + 2) := by
  unfold recipSub3
  extract_lets d1 d2 d3 d4 d5 s6 s7 s8
  have e_d1 : ((0 : Word).toNat : ℤ) + 18446744073709551616 * d1.2.toNat = d1.1.toNat + q.w0.toNat + (0 : Word).toNat ∧ d1.2.toNat ≤ 1 := subZ _ _ _ (by decide)
  have e_d2 : ((0 : Word).toNat : ℤ) + 18446744073709551616 * d2.2.toNat = d2.1.toNat + q.w1.toNat + d1.2.toNat ∧ d2.2.toNat ≤ 1 := subZ _ _ _ e_d1.2
  have e_d3 : ((0 : Word).toNat : ℤ) + 18446744073709551616 * d3.2.toNat = d3.1.toNat + q.w2.toNat + d2.2.toNat ∧ d3.2.toNat ≤ 1 := subZ _ _ _ e_d2.2
  have e_d4 : (r2.w0.toNat : ℤ) + 18446744073709551616 * d4.2.toNat = d4.1.toNat + q.w3.toNat + d3.2.toNat ∧ d4.2.toNat ≤ 1 := subZ _ _ _ e_d3.2
  have e_d5 : (r2.w1.toNat : ℤ) + 18446744073709551616 * d5.2.toNat = d5.1.toNat + q.w4.toNat + d4.2.toNat ∧ d5.2.toNat ≤ 1 := subZ _ _ _ e_d4.2
  have e_s6 : (s6.1.toNat : ℤ) + 18446744073709551616 * s6.2.toNat = d3.1.toNat + d3.1.toNat ∧ s6.2.toNat ≤ 1 := addZc _ _
  have e_s7 : (s7.1.toNat : ℤ) + 18446744073709551616 * s7.2.toNat = d4.1.toNat + d4.1.toNat + s6.2.toNat ∧ s7.2.toNat ≤ 1 := addZ _ _ _ e_s6.2
  have e_s8 : (s8.1.toNat : ℤ) + 18446744073709551616 * s8.2.toNat = d5.1.toNat + d5.1.toNat + s7.2.toNat ∧ s8.2.toNat ≤ 1 := addZ _ _ _ e_s7.2
  rw [show ((0 : Word).toNat : ℤ) = 0 from rfl] at e_d1 e_d2 e_d3
  clear_value d1 d2 d3 d4 d5 s6 s7 s8
  rw [Words2.toZ, Words5.toZ] at hN
  rw [Words3.toZ]
  dsimp only
  have l1 := @wL d1.1
  have u1 := @wU d1.1
  have l2 := @wL d2.1
  have u2 := @wU d2.1
  have l3 := @wL d3.1
  have u3 := @wU d3.1
  have l4 := @wL d4.1
  have u4 := @wU d4.1
  have l5 := @wL d5.1
  have u5 := @wU d5.1
  have hd : N + 2 ^ 320 * d5.2.toNat = d1.1.toNat + 18446744073709551616 * d2.1.toNat + 2 ^ 128 * (d3.1.toNat + 2 ^ 64 * d4.1.toNat + 2 ^ 128 * d5.1.toNat) := by
    linear_combination hN + e_d1.1 + 2 ^ 64 * e_d2.1 + 2 ^ 128 * e_d3.1 + 2 ^ 192 * e_d4.1 + 2 ^ 256 * e_d5.1
  have z5 : (d5.2.toNat : ℤ) = 0 := by
    have : (d5.2.toNat : ℤ) < 1 := by linarith
    exact carry0 wL this
  have hs : (s6.1.toNat : ℤ) + 18446744073709551616 * s7.1.toNat + 2 ^ 128 * s8.1.toNat + 2 ^ 192 * s8.2.toNat =
      2 * (d3.1.toNat + 2 ^ 64 * d4.1.toNat + 2 ^ 128 * d5.1.toNat) := by
    linear_combination e_s6.1 + 2 ^ 64 * e_s7.1 + 2 ^ 128 * e_s8.1
  have := @wL s6.1
  have := @wL s7.1
  have := @wL s8.1
  have z8 : (s8.2.toNat : ℤ) = 0 := by
    have : (s8.2.toNat : ℤ) < 1 := by
      rw [z5] at hd
      linarith
    exact carry0 wL this
  rw [z5] at hd
  rw [z8] at hs
  constructor <;> linarith

theorem recipSub4_spec (r3 : Words3) (x : Words7) (N : ℤ) (hN : N = 2 ^ 256 * r3.toNat - x.toNat) (h0 : 0 ≤ N) :
    2 ^ 128 * ((recipSub4 r3 x).toNat : ℤ) ≤ N ∧ N < 2 ^ 128 * ((recipSub4 r3 x).toNat + 1) := by
  unfold recipSub4
  extract_lets d1 d2 d3 d4 d5 d6 d7
  have e_d1 : ((0 : Word).toNat : ℤ) + 18446744073709551616 * d1.2.toNat = d1.1.toNat + x.w0.toNat + (0 : Word).toNat ∧ d1.2.toNat ≤ 1 := subZ _ _ _ (by decide)
  have e_d2 : ((0 : Word).toNat : ℤ) + 18446744073709551616 * d2.2.toNat = d2.1.toNat + x.w1.toNat + d1.2.toNat ∧ d2.2.toNat ≤ 1 := subZ _ _ _ e_d1.2
  have e_d3 : ((0 : Word).toNat : ℤ) + 18446744073709551616 * d3.2.toNat = d3.1.toNat + x.w2.toNat + d2.2.toNat ∧ d3.2.toNat ≤ 1 := subZ _ _ _ e_d2.2
  have e_d4 : ((0 : Word).toNat : ℤ) + 18446744073709551616 * d4.2.toNat = d4.1.toNat + x.w3.toNat + d3.2.toNat ∧ d4.2.toNat ≤ 1 := subZ _ _ _ e_d3.2
  have e_d5 : (r3.w0.toNat : ℤ) + 18446744073709551616 * d5.2.toNat = d5.1.toNat + x.w4.toNat + d4.2.toNat ∧ d5.2.toNat ≤ 1 := subZ _ _ _ e_d4.2
  have e_d6 : (r3.w1.toNat : ℤ) + 18446744073709551616 * d6.2.toNat = d6.1.toNat + x.w5.toNat + d5.2.toNat ∧ d6.2.toNat ≤ 1 := subZ _ _ _ e_d5.2
  have e_d7 : (r3.w2.toNat : ℤ) + 18446744073709551616 * d7.2.toNat = d7.1.toNat + x.w6.toNat + d6.2.toNat ∧ d7.2.toNat ≤ 1 := subZ _ _ _ e_d6.2
  rw [show ((0 : Word).toNat : ℤ) = 0 from rfl] at e_d1 e_d2 e_d3 e_d4
  clear_value d1 d2 d3 d4 d5 d6 d7
  rw [Words3.toZ, Words7.toZ] at hN
  rw [Words5.toZ]
  dsimp only
  have hd : N + 2 ^ 448 * d7.2.toNat = d1.1.toNat + 18446744073709551616 * d2.1.toNat + 2 ^ 128 * (d3.1.toNat +
      2 ^ 64 * d4.1.toNat + 2 ^ 128 * d5.1.toNat + 2 ^ 192 * d6.1.toNat + 2 ^ 256 * d7.1.toNat) := by
    linear_combination hN + e_d1.1 + 2 ^ 64 * e_d2.1 + 2 ^ 128 * e_d3.1 + 2 ^ 192 * e_d4.1 + 2 ^ 256 * e_d5.1 +
      2 ^ 320 * e_d6.1 + 2 ^ 384 * e_d7.1
  have z7 : (d7.2.toNat : ℤ) = 0 := by
    have : (d7.2.toNat : ℤ) < 1 := by
      linarith only [hd, h0, @wU d1.1, @wU d2.1, @wU d3.1, @wU d4.1, @wU d5.1, @wU d6.1, @wU d7.1]
    exact carry0 wL this
  rw [z7] at hd
  constructor
  · linarith only [hd, @wL d1.1, @wL d2.1]
  · linarith only [hd, @wU d1.1, @wU d2.1]

/-- The borrow tells whether the product exceeds 2^574. -/
theorem recipBorrow_spec (q : Words9) : recipBorrow q ≠ 0 ↔ (2 : ℤ) ^ 574 < q.toNat := by
  unfold recipBorrow
  extract_lets d0 d1 d2 d3 d4 d5 d6 d7 d8
  have e0 : ((0 : Word).toNat : ℤ) + 18446744073709551616 * d0.2.toNat = d0.1.toNat + q.w0.toNat + (0 : Word).toNat ∧ d0.2.toNat ≤ 1 := subZ _ _ _ (by decide)
  have e1 : ((0 : Word).toNat : ℤ) + 18446744073709551616 * d1.2.toNat = d1.1.toNat + q.w1.toNat + d0.2.toNat ∧ d1.2.toNat ≤ 1 := subZ _ _ _ e0.2
  have e2 : ((0 : Word).toNat : ℤ) + 18446744073709551616 * d2.2.toNat = d2.1.toNat + q.w2.toNat + d1.2.toNat ∧ d2.2.toNat ≤ 1 := subZ _ _ _ e1.2
  have e3 : ((0 : Word).toNat : ℤ) + 18446744073709551616 * d3.2.toNat = d3.1.toNat + q.w3.toNat + d2.2.toNat ∧ d3.2.toNat ≤ 1 := subZ _ _ _ e2.2
  have e4 : ((0 : Word).toNat : ℤ) + 18446744073709551616 * d4.2.toNat = d4.1.toNat + q.w4.toNat + d3.2.toNat ∧ d4.2.toNat ≤ 1 := subZ _ _ _ e3.2
  have e5 : ((0 : Word).toNat : ℤ) + 18446744073709551616 * d5.2.toNat = d5.1.toNat + q.w5.toNat + d4.2.toNat ∧ d5.2.toNat ≤ 1 := subZ _ _ _ e4.2
  have e6 : ((0 : Word).toNat : ℤ) + 18446744073709551616 * d6.2.toNat = d6.1.toNat + q.w6.toNat + d5.2.toNat ∧ d6.2.toNat ≤ 1 := subZ _ _ _ e5.2
  have e7 : ((0 : Word).toNat : ℤ) + 18446744073709551616 * d7.2.toNat = d7.1.toNat + q.w7.toNat + d6.2.toNat ∧ d7.2.toNat ≤ 1 := subZ _ _ _ e6.2
  have e8 : ((0x4000000000000000 : Word).toNat : ℤ) + 18446744073709551616 * d8.2.toNat = d8.1.toNat + q.w8.toNat + d7.2.toNat ∧ d8.2.toNat ≤ 1 := subZ _ _ _ e7.2
  rw [show ((0 : Word).toNat : ℤ) = 0 from rfl] at e0 e1 e2 e3 e4 e5 e6 e7
  rw [show ((0x4000000000000000 : Word).toNat : ℤ) = 2 ^ 62 from rfl] at e8
  clear_value d0 d1 d2 d3 d4 d5 d6 d7 d8
  rw [Words9.toZ]
  have hd : 2 ^ 574 + 2 ^ 576 * (d8.2.toNat : ℤ) = (d0.1.toNat + 2 ^ 64 * d1.1.toNat + 2 ^ 128 * d2.1.toNat +
      2 ^ 192 * d3.1.toNat + 2 ^ 256 * d4.1.toNat + 2 ^ 320 * d5.1.toNat + 2 ^ 384 * d6.1.toNat + 2 ^ 448 * d7.1.toNat +
      2 ^ 512 * d8.1.toNat) + (q.w0.toNat + 2 ^ 64 * q.w1.toNat + 2 ^ 128 * q.w2.toNat + 2 ^ 192 * q.w3.toNat +
      2 ^ 256 * q.w4.toNat + 2 ^ 320 * q.w5.toNat + 2 ^ 384 * q.w6.toNat + 2 ^ 448 * q.w7.toNat + 2 ^ 512 * q.w8.toNat) := by
    linear_combination e0.1 + 2 ^ 64 * e1.1 + 2 ^ 128 * e2.1 + 2 ^ 192 * e3.1 + 2 ^ 256 * e4.1 + 2 ^ 320 * e5.1 +
      2 ^ 384 * e6.1 + 2 ^ 448 * e7.1 + 2 ^ 512 * e8.1
  rcases bit01 e8.2 with h | h <;> rw [h] at hd
  · have h0 : d8.2 = 0 := BitVec.eq_of_toNat_eq h
    refine ⟨fun hn => absurd h0 hn, fun hlt => ?_⟩
    exfalso
    push_cast at hd
    linarith only [hd, hlt, @wL d0.1, @wL d1.1, @wL d2.1, @wL d3.1, @wL d4.1, @wL d5.1, @wL d6.1, @wL d7.1, @wL d8.1]
  · have h1 : d8.2 ≠ 0 := fun h0 => by
      rw [h0] at h
      exact absurd h (by decide)
    refine ⟨fun _ => ?_, fun _ => h1⟩
    push_cast at hd
    linarith only [hd, @wU d0.1, @wU d1.1, @wU d2.1, @wU d3.1, @wU d4.1, @wU d5.1, @wU d6.1, @wU d7.1, @wU d8.1]

theorem recipDec_spec (r : Words5) (h1 : (1 : ℤ) ≤ r.toNat) : ((recipDec r).toNat : ℤ) = r.toNat - 1 := by
  unfold recipDec
  extract_lets d1 d2 d3 d4 d5
  have e1 : (r.w0.toNat : ℤ) + 18446744073709551616 * d1.2.toNat = d1.1.toNat + (1 : Word).toNat + (0 : Word).toNat ∧ d1.2.toNat ≤ 1 := subZ _ _ _ (by decide)
  have e2 : (r.w1.toNat : ℤ) + 18446744073709551616 * d2.2.toNat = d2.1.toNat + (0 : Word).toNat + d1.2.toNat ∧ d2.2.toNat ≤ 1 := subZ _ _ _ e1.2
  have e3 : (r.w2.toNat : ℤ) + 18446744073709551616 * d3.2.toNat = d3.1.toNat + (0 : Word).toNat + d2.2.toNat ∧ d3.2.toNat ≤ 1 := subZ _ _ _ e2.2
  have e4 : (r.w3.toNat : ℤ) + 18446744073709551616 * d4.2.toNat = d4.1.toNat + (0 : Word).toNat + d3.2.toNat ∧ d4.2.toNat ≤ 1 := subZ _ _ _ e3.2
  have e5 : (r.w4.toNat : ℤ) + 18446744073709551616 * d5.2.toNat = d5.1.toNat + (0 : Word).toNat + d4.2.toNat ∧ d5.2.toNat ≤ 1 := subZ _ _ _ e4.2
  rw [show ((0 : Word).toNat : ℤ) = 0 from rfl] at e1 e2 e3 e4 e5
  rw [show ((1 : Word).toNat : ℤ) = 1 from rfl] at e1
  clear_value d1 d2 d3 d4 d5
  rw [Words5.toZ] at h1 ⊢
  rw [Words5.toZ r]
  dsimp only
  have hd : (r.w0.toNat : ℤ) + 18446744073709551616 * r.w1.toNat + 340282366920938463463374607431768211456 * r.w2.toNat +
      6277101735386680763835789423207666416102355444464034512896 * r.w3.toNat +
      115792089237316195423570985008687907853269984665640564039457584007913129639936 * r.w4.toNat + 2 ^ 320 * d5.2.toNat =
      (d1.1.toNat + 2 ^ 64 * d2.1.toNat + 2 ^ 128 * d3.1.toNat + 2 ^ 192 * d4.1.toNat + 2 ^ 256 * d5.1.toNat) + 1 := by
    linear_combination e1.1 + 2 ^ 64 * e2.1 + 2 ^ 128 * e3.1 + 2 ^ 192 * e4.1 + 2 ^ 256 * e5.1
  have z : (d5.2.toNat : ℤ) = 0 := by
    have : (d5.2.toNat : ℤ) < 1 := by
      linarith only [hd, h1, @wU d1.1, @wU d2.1, @wU d3.1, @wU d4.1, @wU d5.1]
    exact carry0 wL this
  rw [z] at hd
  linarith only [hd]

theorem recipDouble_spec (r : Words5) (h1 : 2 * (r.toNat : ℤ) < 2 ^ 320) : ((recipDouble r).toNat : ℤ) = 2 * r.toNat := by
  unfold recipDouble
  extract_lets s1 s2 s3 s4 s5
  have e1 : (s1.1.toNat : ℤ) + 18446744073709551616 * s1.2.toNat = r.w0.toNat + r.w0.toNat ∧ s1.2.toNat ≤ 1 := addZc _ _
  have e2 : (s2.1.toNat : ℤ) + 18446744073709551616 * s2.2.toNat = r.w1.toNat + r.w1.toNat + s1.2.toNat ∧ s2.2.toNat ≤ 1 := addZ _ _ _ e1.2
  have e3 : (s3.1.toNat : ℤ) + 18446744073709551616 * s3.2.toNat = r.w2.toNat + r.w2.toNat + s2.2.toNat ∧ s3.2.toNat ≤ 1 := addZ _ _ _ e2.2
  have e4 : (s4.1.toNat : ℤ) + 18446744073709551616 * s4.2.toNat = r.w3.toNat + r.w3.toNat + s3.2.toNat ∧ s4.2.toNat ≤ 1 := addZ _ _ _ e3.2
  have e5 : (s5.1.toNat : ℤ) + 18446744073709551616 * s5.2.toNat = r.w4.toNat + r.w4.toNat + s4.2.toNat ∧ s5.2.toNat ≤ 1 := addZ _ _ _ e4.2
  clear_value s1 s2 s3 s4 s5
  rw [Words5.toZ] at h1 ⊢
  rw [Words5.toZ r]
  dsimp only
  have hd : (s1.1.toNat : ℤ) + 2 ^ 64 * s2.1.toNat + 2 ^ 128 * s3.1.toNat + 2 ^ 192 * s4.1.toNat + 2 ^ 256 * s5.1.toNat + 2 ^ 320 * s5.2.toNat =
      2 * (r.w0.toNat + 2 ^ 64 * r.w1.toNat + 2 ^ 128 * r.w2.toNat + 2 ^ 192 * r.w3.toNat + 2 ^ 256 * r.w4.toNat) := by
    linear_combination e1.1 + 2 ^ 64 * e2.1 + 2 ^ 128 * e3.1 + 2 ^ 192 * e4.1 + 2 ^ 256 * e5.1
  have z : (s5.2.toNat : ℤ) = 0 := by
    have : (s5.2.toNat : ℤ) < 1 := by
      linarith only [hd, h1, @wL s1.1, @wL s2.1, @wL s3.1, @wL s4.1, @wL s5.1]
    exact carry0 wL this
  rw [z] at hd
  linarith only [hd]

theorem reduceFix_spec (r : Words5) (m : U256) (h1 : (r.toNat : ℤ) + m.toNat < 2 ^ 320) :
    ((reduceFix r m).toNat : ℤ) = r.toNat + m.toNat := by
  unfold reduceFix
  extract_lets s1 s2 s3 s4 s5
  have e1 : (s1.1.toNat : ℤ) + 18446744073709551616 * s1.2.toNat = r.w0.toNat + m.w0.toNat ∧ s1.2.toNat ≤ 1 := addZc _ _
  have e2 : (s2.1.toNat : ℤ) + 18446744073709551616 * s2.2.toNat = r.w1.toNat + m.w1.toNat + s1.2.toNat ∧ s2.2.toNat ≤ 1 := addZ _ _ _ e1.2
  have e3 : (s3.1.toNat : ℤ) + 18446744073709551616 * s3.2.toNat = r.w2.toNat + m.w2.toNat + s2.2.toNat ∧ s3.2.toNat ≤ 1 := addZ _ _ _ e2.2
  have e4 : (s4.1.toNat : ℤ) + 18446744073709551616 * s4.2.toNat = r.w3.toNat + m.w3.toNat + s3.2.toNat ∧ s4.2.toNat ≤ 1 := addZ _ _ _ e3.2
  have e5 : (s5.1.toNat : ℤ) + 18446744073709551616 * s5.2.toNat = r.w4.toNat + s4.2.toNat ∧ s5.2.toNat ≤ 1 := addZ0 _ _ e4.2
  clear_value s1 s2 s3 s4 s5
  rw [Words5.toZ, U256.toZ] at h1
  rw [Words5.toZ, U256.toZ, Words5.toZ r]
  dsimp only
  have hd : (s1.1.toNat : ℤ) + 2 ^ 64 * s2.1.toNat + 2 ^ 128 * s3.1.toNat + 2 ^ 192 * s4.1.toNat + 2 ^ 256 * s5.1.toNat + 2 ^ 320 * s5.2.toNat =
      (r.w0.toNat + 2 ^ 64 * r.w1.toNat + 2 ^ 128 * r.w2.toNat + 2 ^ 192 * r.w3.toNat + 2 ^ 256 * r.w4.toNat) +
      (m.w0.toNat + 2 ^ 64 * m.w1.toNat + 2 ^ 128 * m.w2.toNat + 2 ^ 192 * m.w3.toNat) := by
    linear_combination e1.1 + 2 ^ 64 * e2.1 + 2 ^ 128 * e3.1 + 2 ^ 192 * e4.1 + 2 ^ 256 * e5.1
  have z : (s5.2.toNat : ℤ) = 0 := by
    have : (s5.2.toNat : ℤ) < 1 := by
      linarith only [hd, h1, @wL s1.1, @wL s2.1, @wL s3.1, @wL s4.1, @wL s5.1]
    exact carry0 wL this
  rw [z] at hd
  linarith only [hd]

/-- Difference modulo 2^320, and the borrow. -/
theorem sub320_spec (x r : Words5) :
    ((sub320 x r).2 = 0 ∧ ((sub320 x r).1.toNat : ℤ) = x.toNat - r.toNat) ∨
    ((sub320 x r).2 ≠ 0 ∧ ((sub320 x r).1.toNat : ℤ) = x.toNat - r.toNat + 2 ^ 320) := by
  unfold sub320
  extract_lets d0 d1 d2 d3 d4
  have e0 : (x.w0.toNat : ℤ) + 18446744073709551616 * d0.2.toNat = d0.1.toNat + r.w0.toNat + (0 : Word).toNat ∧ d0.2.toNat ≤ 1 := subZ _ _ _ (by decide)
  have e1 : (x.w1.toNat : ℤ) + 18446744073709551616 * d1.2.toNat = d1.1.toNat + r.w1.toNat + d0.2.toNat ∧ d1.2.toNat ≤ 1 := subZ _ _ _ e0.2
  have e2 : (x.w2.toNat : ℤ) + 18446744073709551616 * d2.2.toNat = d2.1.toNat + r.w2.toNat + d1.2.toNat ∧ d2.2.toNat ≤ 1 := subZ _ _ _ e1.2
  have e3 : (x.w3.toNat : ℤ) + 18446744073709551616 * d3.2.toNat = d3.1.toNat + r.w3.toNat + d2.2.toNat ∧ d3.2.toNat ≤ 1 := subZ _ _ _ e2.2
  have e4 : (x.w4.toNat : ℤ) + 18446744073709551616 * d4.2.toNat = d4.1.toNat + r.w4.toNat + d3.2.toNat ∧ d4.2.toNat ≤ 1 := subZ _ _ _ e3.2
  rw [show ((0 : Word).toNat : ℤ) = 0 from rfl] at e0
  clear_value d0 d1 d2 d3 d4
  rw [Words5.toZ, Words5.toZ x, Words5.toZ r]
  dsimp only
  have hd : (d0.1.toNat : ℤ) + 18446744073709551616 * d1.1.toNat + 340282366920938463463374607431768211456 * d2.1.toNat +
      6277101735386680763835789423207666416102355444464034512896 * d3.1.toNat +
      115792089237316195423570985008687907853269984665640564039457584007913129639936 * d4.1.toNat =
      (x.w0.toNat + 2 ^ 64 * x.w1.toNat + 2 ^ 128 * x.w2.toNat + 2 ^ 192 * x.w3.toNat + 2 ^ 256 * x.w4.toNat) -
      (r.w0.toNat + 2 ^ 64 * r.w1.toNat + 2 ^ 128 * r.w2.toNat + 2 ^ 192 * r.w3.toNat + 2 ^ 256 * r.w4.toNat) +
      2 ^ 320 * d4.2.toNat := by
    linear_combination -e0.1 - 2 ^ 64 * e1.1 - 2 ^ 128 * e2.1 - 2 ^ 192 * e3.1 - 2 ^ 256 * e4.1
  have h01 : d4.2.toNat = 0 ∨ d4.2.toNat = 1 := bit01 e4.2
  rcases h01 with h | h
  · left
    refine ⟨BitVec.eq_of_toNat_eq h, ?_⟩
    rw [h] at hd
    push_cast at hd
    linarith only [hd]
  · right
    refine ⟨fun h0 => ?_, ?_⟩
    · rw [h0] at h
      exact absurd h (by decide)
    · rw [h] at hd
      push_cast at hd
      linarith only [hd]

end U256
end Uni
