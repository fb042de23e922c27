import Verif.Model.SqrtPriceMath
import Verif.Spec.Amounts
import Verif.Proofs.FullMath
import Verif.Proofs.Cmp
/-! Amounts between prices: exact values and panic sets. -/
namespace Uni
namespace U256

theorem div_eq (x y : U256) : div x y = .ok (ofNat (x.toNat / y.toNat)) := by
  obtain ⟨z, hz, hv⟩ := div_spec x y
  rw [hz, ← hv, ofNat_toNat]

theorem toNat_and_allOne (x : U256) : (U256.and x allOne) = x := by
  have h : ∀ w : Word, w &&& 0xFFFFFFFFFFFFFFFF#64 = w := by
    intro w
    have : 0xFFFFFFFFFFFFFFFF#64 = BitVec.allOnes 64 := by decide
    rw [this, BitVec.and_allOnes]
  cases x
  simp only [U256.and, allOne]
  congr 1 <;> exact h _

end U256

namespace SqrtPriceMath
open U256 FullMath

theorem toNat_q96 : Cons.q96.toNat = 2 ^ 96 := by decide +kernel
theorem toNat_q128 : Cons.q128.toNat = 2 ^ 128 := by decide +kernel
theorem toNat_maxUint160 : maxUint160.toNat = 2 ^ 160 - 1 := by decide +kernel

theorem ceilDiv_ceilDiv (n : Nat) {a b : Nat} (ha : 0 < a) (hb : 0 < b) :
    Spec.ceilDiv (Spec.ceilDiv n b) a = Spec.ceilDiv n (a * b) := by
  apply eq_of_forall_ge_iff
  intro k
  rw [ceilDiv_le_iff ha, ceilDiv_le_iff hb, ceilDiv_le_iff (Nat.mul_pos ha hb), Nat.mul_assoc]

theorem order_toNat (a b : U256) : (order a b).1.toNat = min a.toNat b.toNat ∧ (order a b).2.toNat = max a.toNat b.toNat := by
  unfold order
  by_cases h : cmp a b > 0
  · rw [if_pos h]
    rw [cmp_gt0] at h
    exact ⟨by simp only []; omega, by simp only []; omega⟩
  · rw [if_neg h]
    rw [cmp_gt0] at h
    exact ⟨by simp only []; omega, by simp only []; omega⟩

theorem order_comm (a b : U256) : order a b = order b a := by
  apply Prod.ext
  · apply ext_toNat; rw [(order_toNat a b).1, (order_toNat b a).1, Nat.min_comm]
  · apply ext_toNat; rw [(order_toNat a b).2, (order_toNat b a).2, Nat.max_comm]

theorem toNat_lsh96 {L : U256} (h : L.toNat < 2 ^ 128) : (lsh L 96).toNat = L.toNat * 2 ^ 96 := by
  rw [toNat_lsh, Nat.mod_eq_of_lt]
  have := Nat.mul_lt_mul_of_pos_right h (show 0 < 2 ^ 96 by norm_num)
  omega

theorem order_sub (a b : U256) : (sub (order a b).2 (order a b).1).toNat = Spec.dist a.toNat b.toNat := by
  obtain ⟨h1, h2⟩ := order_toNat a b
  rw [toNat_sub_of_le (by rw [h1, h2]; omega), h1, h2]
  rfl

theorem dist_le (p q : Nat) : Spec.dist p q ≤ max p q := Nat.sub_le _ _

/-- The intermediate value of the rounded-up token0 amount. -/
def inner0 (p q L : Nat) : Nat := Spec.ceilDiv (L * 2 ^ 96 * Spec.dist p q) (max p q)

/-- Panic condition of the rounded-up token0 amount. -/
def Panics0 (p q L : Nat) : Prop := 2 ^ 128 ≤ min p q ∧ 0 < inner0 p q L ∧ inner0 p q L < 2 ^ 64

instance (p q L : Nat) : Decidable (Panics0 p q L) := by unfold Panics0; infer_instance

theorem frac_le {N d m : Nat} (h : d ≤ m) : N * d / m ≤ N := by
  apply Nat.div_le_of_le_mul
  rw [Nat.mul_comm m]
  exact Nat.mul_le_mul_left _ h

theorem frac_ceil_le {N d m : Nat} (h : d ≤ m) (hm : 0 < m) : Spec.ceilDiv (N * d) m ≤ N := by
  rw [ceilDiv_le_iff hm]
  exact Nat.mul_le_mul_left _ h

theorem inner_not_panics {L d m : Nat} (hL : L < 2 ^ 128) (h : d ≤ m) (hm : 0 < m) (hm2 : m < 2 ^ 160)
    (h0 : L * 2 ^ 96 * d ≠ 0) : ¬ Panics (L * 2 ^ 96 * d) m := by
  apply not_panics h0 (by omega)
  · have hd : 0 < d := Nat.pos_of_ne_zero (fun h => h0 (by rw [h]; ring))
    have hL0 : 0 < L := Nat.pos_of_ne_zero (fun h => h0 (by rw [h]; ring))
    have : 1 ≤ L * d := Nat.mul_pos hL0 hd
    have e : L * 2 ^ 96 * d = L * d * 2 ^ 96 := by ring
    rw [e]
    have := Nat.mul_le_mul_right (2 ^ 96) this
    omega
  · have := frac_le (N := L * 2 ^ 96) h
    omega

theorem getAmount0Delta_up (a b L : U256) (ha : 0 < a.toNat) (hb : 0 < b.toNat) (ha' : a.toNat < 2 ^ 160)
    (hb' : b.toNat < 2 ^ 160) (hL : L.toNat < 2 ^ 128) :
    getAmount0Delta a b L true =
      if Panics0 a.toNat b.toNat L.toNat then .error .panic else .ok (ofNat (Spec.amount0Up a.toNat b.toNat L.toNat)) := by
  obtain ⟨h1, h2⟩ := order_toNat a b
  have h3 := order_sub a b
  have h4 := toNat_lsh96 hL
  have hdle := dist_le a.toNat b.toNat
  unfold getAmount0Delta
  dsimp only
  rw [if_pos rfl]
  have hmin : 0 < min a.toNat b.toNat := by omega
  have hmax : 0 < max a.toNat b.toNat := by omega
  have hprod : a.toNat * b.toNat = min a.toNat b.toNat * max a.toNat b.toNat := by
    rcases Nat.le_total a.toNat b.toNat with h | h
    · rw [Nat.min_eq_left h, Nat.max_eq_right h]
    · rw [Nat.min_eq_right h, Nat.max_eq_left h, Nat.mul_comm]
  have hin : inner0 a.toNat b.toNat L.toNat < 2 ^ 256 := by
    have h : L.toNat * 2 ^ 96 < 2 ^ 256 := by omega
    exact lt_of_le_of_lt (frac_ceil_le hdle hmax) h
  have hx : mulDivRoundingUp (lsh L 96) (sub (order a b).2 (order a b).1) (order a b).2 =
      .ok (ofNat (inner0 a.toNat b.toNat L.toNat)) := by
    rw [mulDivRoundingUp_ok_iff, h2, h3, h4]
    refine ⟨?_, rfl⟩
    by_cases h0 : L.toNat * 2 ^ 96 * Spec.dist a.toNat b.toNat = 0
    · exact Or.inl h0
    · right
      exact inner_not_panics hL hdle hmax (by omega) h0
  rw [hx, Except_bind_ok]
  have hfin : Spec.ceilDiv (inner0 a.toNat b.toNat L.toNat) (min a.toNat b.toNat) =
      Spec.amount0Up a.toNat b.toNat L.toNat := by
    unfold inner0 Spec.amount0Up
    rw [ceilDiv_ceilDiv _ hmin hmax, hprod]
  have hone : (ofNat (inner0 a.toNat b.toNat L.toNat)).toNat * one.toNat = inner0 a.toNat b.toNat L.toNat := by
    rw [toNat_ofNat, Nat.mod_eq_of_lt hin, toNat_one, Nat.mul_one]
  by_cases hp : Panics0 a.toNat b.toNat L.toNat
  · rw [if_pos hp, mulDivRoundingUp_err_iff, hone, h1]
    refine ⟨rfl, ?_, ?_⟩
    · have := hp.2.1; omega
    · right; left
      have w1 : Spec.words (inner0 a.toNat b.toNat L.toNat) ≤ 1 := words_le (by have := hp.2.2; omega)
      have w2 : ¬ Spec.words (min a.toNat b.toNat) ≤ 2 := by
        intro h
        have := lt_words (min a.toNat b.toNat)
        have h128 : (2 : Nat) ^ (64 * Spec.words (min a.toNat b.toNat)) ≤ 2 ^ 128 :=
          Nat.pow_le_pow_right (by norm_num) (by omega)
        have := hp.1
        omega
      omega
  · rw [if_neg hp, mulDivRoundingUp_ok_iff, hone, h1, hfin]
    refine ⟨?_, rfl⟩
    by_cases h0 : inner0 a.toNat b.toNat L.toNat = 0
    · exact Or.inl h0
    · right
      unfold Panics
      push Not
      refine ⟨by omega, ?_, ?_⟩
      · by_contra hc
        push Not at hc
        have w3 : Spec.words (min a.toNat b.toNat) ≤ 3 := words_le (by omega)
        have w1 : Spec.words (inner0 a.toNat b.toNat L.toNat) ≤ 1 := by omega
        apply hp
        refine ⟨?_, by omega, ?_⟩
        · have hw0 : 1 ≤ Spec.words (inner0 a.toNat b.toNat L.toNat) := by
            unfold Spec.words; rw [if_neg h0]; omega
          have := words_ge (show min a.toNat b.toNat ≠ 0 by omega)
          have e : Spec.words (min a.toNat b.toNat) = 3 := by omega
          rw [e] at this
          norm_num at this ⊢
          omega
        · have := lt_words (inner0 a.toNat b.toNat L.toNat)
          have h64 : (2 : Nat) ^ (64 * Spec.words (inner0 a.toNat b.toNat L.toNat)) ≤ 2 ^ 64 :=
            Nat.pow_le_pow_right (by norm_num) (by omega)
          omega
      · have : Spec.words (inner0 a.toNat b.toNat L.toNat) ≤ 4 := words_le (by omega)
        omega

theorem getAmount0Delta_down (a b L : U256) (ha : 0 < a.toNat) (hb : 0 < b.toNat) (ha' : a.toNat < 2 ^ 160)
    (hb' : b.toNat < 2 ^ 160) (hL : L.toNat < 2 ^ 128) :
    getAmount0Delta a b L false = .ok (ofNat (Spec.amount0Down a.toNat b.toNat L.toNat)) := by
  obtain ⟨h1, h2⟩ := order_toNat a b
  have h3 := order_sub a b
  have h4 := toNat_lsh96 hL
  have hdle := dist_le a.toNat b.toNat
  unfold getAmount0Delta
  dsimp only
  rw [if_neg (by decide)]
  have hmin : 0 < min a.toNat b.toNat := by omega
  have hmax : 0 < max a.toNat b.toNat := by omega
  have hprod : a.toNat * b.toNat = max a.toNat b.toNat * min a.toNat b.toNat := by
    rcases Nat.le_total a.toNat b.toNat with h | h
    · rw [Nat.min_eq_left h, Nat.max_eq_right h, Nat.mul_comm]
    · rw [Nat.min_eq_right h, Nat.max_eq_left h]
  have hin : L.toNat * 2 ^ 96 * Spec.dist a.toNat b.toNat / max a.toNat b.toNat < 2 ^ 256 := by
    have := frac_le (N := L.toNat * 2 ^ 96) hdle
    omega
  have hx : mulDiv (lsh L 96) (sub (order a b).2 (order a b).1) (order a b).2 =
      .ok (ofNat (L.toNat * 2 ^ 96 * Spec.dist a.toNat b.toNat / max a.toNat b.toNat)) := by
    rw [mulDiv_ok_iff, h2, h3, h4]
    refine ⟨?_, rfl⟩
    by_cases h0 : L.toNat * 2 ^ 96 * Spec.dist a.toNat b.toNat = 0
    · exact Or.inl h0
    · right
      exact inner_not_panics hL hdle hmax (by omega) h0
  rw [hx]
  simp only [Except_bind_ok]
  rw [div_eq, toNat_ofNat, Nat.mod_eq_of_lt hin, h1, Nat.div_div_eq_div_mul]
  unfold Spec.amount0Down
  rw [hprod]

theorem words_pos {n : Nat} (h : n ≠ 0) : 1 ≤ Spec.words n := by
  unfold Spec.words; rw [if_neg h]; omega

theorem amt1_not_panics {L d : Nat} (hL : L < 2 ^ 128) (hd : d < 2 ^ 160) (h0 : L * d ≠ 0) : ¬ Panics (L * d) (2 ^ 96) := by
  have h1 := words_pos h0
  have h2 : Spec.words (2 ^ 96) = 2 := by decide +kernel
  have h3 := Nat.mul_lt_mul'' hL hd
  have h4 : Spec.words (L * d) ≤ 5 := words_le (lt_of_lt_of_le h3 (by rw [← pow_add]; exact Nat.pow_le_pow_right (by norm_num) (by norm_num)))
  unfold Panics
  rw [h2]
  omega

theorem dist_lt {p q b : Nat} (hp : p < b) (hq : q < b) : Spec.dist p q < b := by
  unfold Spec.dist; omega

theorem getAmount1Delta_up (a b L : U256) (ha' : a.toNat < 2 ^ 160) (hb' : b.toNat < 2 ^ 160) (hL : L.toNat < 2 ^ 128) :
    getAmount1Delta a b L true = .ok (ofNat (Spec.amount1Up a.toNat b.toNat L.toNat)) := by
  have h3 := order_sub a b
  unfold getAmount1Delta
  dsimp only
  rw [if_pos rfl, mulDivRoundingUp_ok_iff, h3, toNat_q96]
  refine ⟨?_, rfl⟩
  by_cases h0 : L.toNat * Spec.dist a.toNat b.toNat = 0
  · exact Or.inl h0
  · exact Or.inr (amt1_not_panics hL (dist_lt ha' hb') h0)

theorem getAmount1Delta_down (a b L : U256) (ha' : a.toNat < 2 ^ 160) (hb' : b.toNat < 2 ^ 160) (hL : L.toNat < 2 ^ 128) :
    getAmount1Delta a b L false = .ok (ofNat (Spec.amount1Down a.toNat b.toNat L.toNat)) := by
  have h3 := order_sub a b
  unfold getAmount1Delta
  dsimp only
  rw [if_neg (by decide), mulDiv_ok_iff, h3, toNat_q96]
  refine ⟨?_, rfl⟩
  by_cases h0 : L.toNat * Spec.dist a.toNat b.toNat = 0
  · exact Or.inl h0
  · exact Or.inr (amt1_not_panics hL (dist_lt ha' hb') h0)

/-! ### Size bounds -/

theorem amount1Up_lt {p q L : Nat} (hp : p < 2 ^ 160) (hq : q < 2 ^ 160) (hL : L < 2 ^ 128) : Spec.amount1Up p q L ≤ 2 ^ 192 := by
  unfold Spec.amount1Up
  rw [ceilDiv_le_iff (by norm_num)]
  have := Nat.mul_lt_mul'' hL (dist_lt hp hq)
  omega

theorem amount1Down_lt {p q L : Nat} (hp : p < 2 ^ 160) (hq : q < 2 ^ 160) (hL : L < 2 ^ 128) : Spec.amount1Down p q L < 2 ^ 192 := by
  unfold Spec.amount1Down
  rw [Nat.div_lt_iff_lt_mul (by norm_num)]
  have := Nat.mul_lt_mul'' hL (dist_lt hp hq)
  omega

theorem dist_le_mul {p q : Nat} (hp : 0 < p) (hq : 0 < q) : Spec.dist p q ≤ p * q := by
  unfold Spec.dist
  have h1 : p * 1 ≤ p * q := Nat.mul_le_mul_left p hq
  have h2 : 1 * q ≤ p * q := Nat.mul_le_mul_right q hp
  omega

theorem amount0Up_lt {p q L : Nat} (hp : 0 < p) (hq : 0 < q) (hL : L < 2 ^ 128) : Spec.amount0Up p q L < 2 ^ 224 := by
  unfold Spec.amount0Up
  have := frac_ceil_le (N := L * 2 ^ 96) (dist_le_mul hp hq) (Nat.mul_pos hp hq)
  omega

theorem amount0Down_lt {p q L : Nat} (hp : 0 < p) (hq : 0 < q) (hL : L < 2 ^ 128) : Spec.amount0Down p q L < 2 ^ 224 := by
  unfold Spec.amount0Down
  have := frac_le (N := L * 2 ^ 96) (dist_le_mul hp hq)
  omega

theorem dist_comm (p q : Nat) : Spec.dist p q = Spec.dist q p := by
  unfold Spec.dist; rw [Nat.max_comm, Nat.min_comm]

theorem dist_of_le {p q : Nat} (h : p ≤ q) : Spec.dist p q = q - p := by
  unfold Spec.dist; omega

end SqrtPriceMath
end Uni
