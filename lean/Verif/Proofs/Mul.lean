import Verif.Proofs.Basic
import Mathlib.Tactic.LinearCombination
/-! Multiplication. -/
namespace Uni
namespace U256

theorem umulHop_spec (z x y : Word) :
    (umulHop z x y).2.toNat + 2 ^ 64 * (umulHop z x y).1.toNat = z.toNat + x.toNat * y.toNat := by
  have hm := mul64_spec x y
  have hh := mul64_hi_le x y
  have s0 := add64_spec (mul64 x y).2 z 0 (by simp)
  have s1 := add64_spec (mul64 x y).1 0 _ s0.2
  have := (add64 (mul64 x y).1 0 (add64 (mul64 x y).2 z 0).2).1.isLt
  simp only [umulHop]
  simp only [word_toNat_zero] at s0 s1
  omega

theorem umulStep_spec (z x y c : Word) :
    (umulStep z x y c).2.toNat + 2 ^ 64 * (umulStep z x y c).1.toNat = z.toNat + x.toNat * y.toNat + c.toNat := by
  have hm := mul64_spec x y
  have hh := mul64_hi_le x y
  have hx := x.isLt
  have hy := y.isLt
  have hz := z.isLt
  have hc := c.isLt
  have hp : x.toNat * y.toNat ≤ (2 ^ 64 - 1) * (2 ^ 64 - 1) := Nat.mul_le_mul (by omega) (by omega)
  have s0 := add64_spec (mul64 x y).2 c 0 (by simp)
  have s1 := add64_spec (mul64 x y).1 0 _ s0.2
  have s2 := add64_spec (add64 (mul64 x y).2 c 0).1 z 0 (by simp)
  have s3 := add64_spec (add64 (mul64 x y).1 0 (add64 (mul64 x y).2 c 0).2).1 0 _ s2.2
  simp only [umulStep]
  simp only [word_toNat_zero] at s0 s1 s2 s3
  generalize x.toNat * y.toNat = p at *
  generalize mul64 x y = m at *
  generalize add64 m.2 c 0 = r0 at *
  generalize add64 m.1 0 r0.2 = r1 at *
  generalize add64 r0.1 z 0 = r2 at *
  generalize add64 r1.1 0 r2.2 = r3 at *
  omega

/-- The schoolbook identity behind `Umul`, over plain numbers. -/
theorem umul_identity {B : Nat} {x0 x1 x2 x3 y0 y1 y2 y3 : Nat}
    {a0l a0h a1l a1h a2l a2h a3l a3h b0l b0h b1l b1h b2l b2h b3l b3h : Nat}
    {c0l c0h c1l c1h c2l c2h c3l c3h d0l d0h d1l d1h d2l d2h d3l d3h : Nat}
    (a0 : a0l + B * a0h = x0 * y0) (a1 : a1l + B * a1h = a0h + x1 * y0)
    (a2 : a2l + B * a2h = a1h + x2 * y0) (a3 : a3l + B * a3h = a2h + x3 * y0)
    (b0 : b0l + B * b0h = a1l + x0 * y1) (b1 : b1l + B * b1h = a2l + x1 * y1 + b0h)
    (b2 : b2l + B * b2h = a3l + x2 * y1 + b1h) (b3 : b3l + B * b3h = a3h + x3 * y1 + b2h)
    (c0 : c0l + B * c0h = b1l + x0 * y2) (c1 : c1l + B * c1h = b2l + x1 * y2 + c0h)
    (c2 : c2l + B * c2h = b3l + x2 * y2 + c1h) (c3 : c3l + B * c3h = b3h + x3 * y2 + c2h)
    (d0 : d0l + B * d0h = c1l + x0 * y3) (d1 : d1l + B * d1h = c2l + x1 * y3 + d0h)
    (d2 : d2l + B * d2h = c3l + x2 * y3 + d1h) (d3 : d3l + B * d3h = c3h + x3 * y3 + d2h) :
    a0l + B * b0l + B ^ 2 * c0l + B ^ 3 * d0l + B ^ 4 * d1l + B ^ 5 * d2l + B ^ 6 * d3l + B ^ 7 * d3h =
    (x0 + B * x1 + B ^ 2 * x2 + B ^ 3 * x3) * (y0 + B * y1 + B ^ 2 * y2 + B ^ 3 * y3) := by
  zify at *
  linear_combination a0 + B * a1 + B ^ 2 * a2 + B ^ 3 * a3 + B * b0 + B ^ 2 * b1 + B ^ 3 * b2 + B ^ 4 * b3 +
    B ^ 2 * c0 + B ^ 3 * c1 + B ^ 4 * c2 + B ^ 5 * c3 + B ^ 3 * d0 + B ^ 4 * d1 + B ^ 5 * d2 + B ^ 6 * d3

theorem toNat_pow (x : U256) : x.toNat =
    x.w0.toNat + (2 ^ 64) * x.w1.toNat + (2 ^ 64) ^ 2 * x.w2.toNat + (2 ^ 64) ^ 3 * x.w3.toNat := by
  unfold toNat
  norm_num

theorem val_umul (x y : U256) : val (umul x y) = x.toNat * y.toNat := by
  rw [toNat_pow x, toNat_pow y]
  unfold umul
  rw [← umul_identity (mul64_spec _ _) (umulHop_spec _ _ _) (umulHop_spec _ _ _) (umulHop_spec _ _ _)
    (umulHop_spec _ _ _) (umulStep_spec _ _ _ _) (umulStep_spec _ _ _ _) (umulStep_spec _ _ _ _)
    (umulHop_spec _ _ _) (umulStep_spec _ _ _ _) (umulStep_spec _ _ _ _) (umulStep_spec _ _ _ _)
    (umulHop_spec _ _ _) (umulStep_spec _ _ _ _) (umulStep_spec _ _ _ _) (umulStep_spec _ _ _ _)]
  simp only [val_cons, val_nil]
  ring

theorem length_umul (x y : U256) : (umul x y).length = 8 := rfl

/-- The identity behind the truncated product `Mul`. -/
theorem mul_identity {B : Nat} {x0 x1 x2 x3 y0 y1 y2 y3 : Nat}
    {a0l a0h a1l a1h a2l a2h b0l b0h b1l b1h c0l c0h r k : Nat}
    (a0 : a0l + B * a0h = x0 * y0) (a1 : a1l + B * a1h = a0h + x1 * y0)
    (a2 : a2l + B * a2h = a1h + x2 * y0)
    (b0 : b0l + B * b0h = a1l + x0 * y1) (b1 : b1l + B * b1h = a2l + x1 * y1 + b0h)
    (c0 : c0l + B * c0h = b1l + x0 * y2)
    (hr : r + B * k = x3 * y0 + a2h + x2 * y1 + b1h + x1 * y2 + c0h + x0 * y3) :
    a0l + B * b0l + B ^ 2 * c0l + B ^ 3 * r +
      B ^ 4 * (k + x3 * y1 + x2 * y2 + x1 * y3 + B * (x3 * y2 + x2 * y3) + B ^ 2 * (x3 * y3)) =
    (x0 + B * x1 + B ^ 2 * x2 + B ^ 3 * x3) * (y0 + B * y1 + B ^ 2 * y2 + B ^ 3 * y3) := by
  zify at *
  linear_combination a0 + B * a1 + B ^ 2 * a2 + B * b0 + B ^ 2 * b1 + B ^ 2 * c0 + B ^ 3 * hr

theorem word_mod_form (w : Word) (n : Nat) (h : w.toNat = n % 2 ^ 64) : w.toNat + 2 ^ 64 * (n / 2 ^ 64) = n := by
  omega

theorem mul_top (x0 x1 x2 x3 y0 y1 y2 y3 p q r : Word) :
    (x3 * y0 + p + x2 * y1 + q + x1 * y2 + r + x0 * y3).toNat + 2 ^ 64 *
      ((x3.toNat * y0.toNat + p.toNat + x2.toNat * y1.toNat + q.toNat + x1.toNat * y2.toNat + r.toNat +
        x0.toNat * y3.toNat) / 2 ^ 64) =
      x3.toNat * y0.toNat + p.toNat + x2.toNat * y1.toNat + q.toNat + x1.toNat * y2.toNat + r.toNat +
        x0.toNat * y3.toNat :=
  word_mod_form _ _ (by simp only [BitVec.toNat_add, BitVec.toNat_mul, Nat.mod_add_mod, Nat.add_mod_mod])

theorem squared_top (x0 x1 x2 x3 p q r : Word) :
    (2 * (x0 * x3 + x1 * x2) + p + q + r).toNat + 2 ^ 64 *
      ((2 * (x0.toNat * x3.toNat + x1.toNat * x2.toNat) + p.toNat + q.toNat + r.toNat) / 2 ^ 64) =
      2 * (x0.toNat * x3.toNat + x1.toNat * x2.toNat) + p.toNat + q.toNat + r.toNat :=
  word_mod_form _ _ (by
    have h2 : (2 : Word).toNat = 2 := rfl
    simp only [BitVec.toNat_add, BitVec.toNat_mul, Nat.mod_add_mod, Nat.add_mod_mod, Nat.mul_mod_mod, h2])

theorem toNat_mul (x y : U256) : (mul x y).toNat = (x.toNat * y.toNat) % 2 ^ 256 := by
  have hl := (mul x y).toNat_lt
  obtain ⟨K, hK⟩ : ∃ K, (mul x y).toNat + 2 ^ 256 * K = x.toNat * y.toNat := by
    rw [toNat_pow x, toNat_pow y, toNat_pow (mul x y)]
    unfold mul
    dsimp only
    rw [← mul_identity (k := _) (mul64_spec _ _) (umulHop_spec _ _ _) (umulHop_spec _ _ _)
      (umulHop_spec _ _ _) (umulStep_spec _ _ _ _) (umulHop_spec _ _ _)
      (mul_top x.w0 x.w1 x.w2 x.w3 y.w0 y.w1 y.w2 y.w3 _ _ _)]
    exact ⟨_, by rw [show (2 : Nat) ^ 256 = (2 ^ 64) ^ 4 by norm_num]⟩
  rw [← hK, Nat.add_mul_mod_self_left, Nat.mod_eq_of_lt hl]

theorem toNat_mul_of_lt {x y : U256} (h : x.toNat * y.toNat < 2 ^ 256) :
    (mul x y).toNat = x.toNat * y.toNat := by
  rw [toNat_mul, Nat.mod_eq_of_lt h]

theorem squared_identity {B : Nat} {x0 x1 x2 x3 : Nat}
    {a0l a0h a1l a1h a2l a2h b0l b0h b1l b1h c0l c0h r k : Nat}
    (a0 : a0l + B * a0h = x0 * x0) (a1 : a1l + B * a1h = a0h + x0 * x1)
    (a2 : a2l + B * a2h = a1h + x0 * x2)
    (b0 : b0l + B * b0h = a1l + x0 * x1) (b1 : b1l + B * b1h = a2l + x1 * x1 + b0h)
    (c0 : c0l + B * c0h = b1l + x0 * x2)
    (hr : r + B * k = 2 * (x0 * x3 + x1 * x2) + a2h + b1h + c0h) :
    a0l + B * b0l + B ^ 2 * c0l + B ^ 3 * r +
      B ^ 4 * (k + 2 * (x3 * x1) + x2 * x2 + B * (2 * (x3 * x2)) + B ^ 2 * (x3 * x3)) =
    (x0 + B * x1 + B ^ 2 * x2 + B ^ 3 * x3) * (x0 + B * x1 + B ^ 2 * x2 + B ^ 3 * x3) := by
  zify at *
  linear_combination a0 + B * a1 + B ^ 2 * a2 + B * b0 + B ^ 2 * b1 + B ^ 2 * c0 + B ^ 3 * hr

theorem toNat_squared (x : U256) : (squared x).toNat = (x.toNat * x.toNat) % 2 ^ 256 := by
  have hl := (squared x).toNat_lt
  obtain ⟨K, hK⟩ : ∃ K, (squared x).toNat + 2 ^ 256 * K = x.toNat * x.toNat := by
    rw [toNat_pow x, toNat_pow (squared x)]
    unfold squared
    dsimp only
    rw [← squared_identity (k := _) (mul64_spec _ _) (umulHop_spec _ _ _) (umulHop_spec _ _ _)
      (umulHop_spec _ _ _) (umulStep_spec _ _ _ _) (umulHop_spec _ _ _)
      (squared_top x.w0 x.w1 x.w2 x.w3 _ _ _)]
    exact ⟨_, by rw [show (2 : Nat) ^ 256 = (2 ^ 64) ^ 4 by norm_num]⟩
  rw [← hK, Nat.add_mul_mod_self_left, Nat.mod_eq_of_lt hl]

theorem val_eight (p0 p1 p2 p3 p4 p5 p6 p7 : Word) :
    val [p0, p1, p2, p3, p4, p5, p6, p7] =
    toNat ⟨p0, p1, p2, p3⟩ + 2 ^ 256 * toNat ⟨p4, p5, p6, p7⟩ := by
  simp only [val_cons, val_nil, toNat]
  ring

theorem mulOverflow_spec (x y : U256) :
    (mulOverflow x y).1.toNat = x.toNat * y.toNat % 2 ^ 256 ∧
    ((mulOverflow x y).2 = true ↔ 2 ^ 256 ≤ x.toNat * y.toNat) := by
  have hv := val_umul x y
  have hl := length_umul x y
  unfold mulOverflow
  generalize umul x y = u at *
  match u, hl with
  | [p0, p1, p2, p3, p4, p5, p6, p7], _ =>
    rw [val_eight] at hv
    have h1 := toNat_lt ⟨p0, p1, p2, p3⟩
    have hz := isZero_iff ⟨p4, p5, p6, p7⟩
    unfold isZero at hz
    dsimp only at hz ⊢
    constructor
    · rw [← hv]; omega
    · rw [← hv, bne, Bool.not_eq_true', Bool.eq_false_iff, Ne, hz]
      omega

end U256
end Uni
