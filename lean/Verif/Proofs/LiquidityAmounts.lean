import Verif.Proofs.SwapMath
import Verif.Model.LiquidityAmounts
/-! # `lib/liquidity_amounts` -/
namespace Uni
namespace LiquidityAmounts
open U256 FullMath SqrtPriceMath

theorem order_of_le {a b : U256} (h : a.toNat ≤ b.toNat) : order a b = (a, b) := by
  unfold order
  rw [if_neg]
  rw [cmp_gt0]; omega

theorem ofNat_le (n : Nat) : (ofNat n).toNat ≤ n := by rw [toNat_ofNat]; exact Nat.mod_le _ _

/-- Liquidity from token0 is affordable. -/
theorem forAmount0_cost {a b x r : U256} (ha : 0 < a.toNat) (hab : a.toNat < b.toNat)
    (h : getLiquidityForAmount0 a b x = .ok r) : Spec.amount0Up a.toNat b.toNat r.toNat ≤ x.toNat := by
  unfold getLiquidityForAmount0 at h
  dsimp only at h
  rw [order_of_le (le_of_lt hab)] at h
  dsimp only at h
  rcases hi : mulDiv a b Cons.q96 with e | i
  · rw [hi] at h; cases h
  · rw [hi, Except_bind_ok] at h
    obtain ⟨_, hi2⟩ := (mulDiv_ok_iff _ _ _ _).1 hi
    obtain ⟨_, hr⟩ := (mulDiv_ok_iff _ _ _ _).1 h
    rw [toNat_sub_of_le (le_of_lt hab)] at hr
    have h1 : i.toNat ≤ a.toNat * b.toNat / 2 ^ 96 := by
      rw [hi2, ← toNat_q96]; exact ofNat_le _
    have h2 : r.toNat ≤ x.toNat * i.toNat / (b.toNat - a.toNat) := by rw [hr]; exact ofNat_le _
    have h3 : r.toNat * (b.toNat - a.toNat) ≤ x.toNat * i.toNat := by
      rw [← Nat.le_div_iff_mul_le (by omega)]; exact h2
    have h4 : i.toNat * 2 ^ 96 ≤ a.toNat * b.toNat := by
      rw [← Nat.le_div_iff_mul_le (by norm_num)]; exact h1
    unfold Spec.amount0Up
    rw [ceilDiv_le_iff (Nat.mul_pos ha (by omega)), dist_of_le (le_of_lt hab)]
    generalize b.toNat - a.toNat = d at *
    calc r.toNat * 2 ^ 96 * d = r.toNat * d * 2 ^ 96 := by ring
      _ ≤ x.toNat * i.toNat * 2 ^ 96 := Nat.mul_le_mul_right _ h3
      _ = x.toNat * (i.toNat * 2 ^ 96) := by ring
      _ ≤ x.toNat * (a.toNat * b.toNat) := Nat.mul_le_mul_left _ h4

/-- Liquidity from token1 is affordable. -/
theorem forAmount1_cost {a b x r : U256} (hab : a.toNat < b.toNat)
    (h : getLiquidityForAmount1 a b x = .ok r) : Spec.amount1Up a.toNat b.toNat r.toNat ≤ x.toNat := by
  unfold getLiquidityForAmount1 at h
  dsimp only at h
  rw [order_of_le (le_of_lt hab)] at h
  obtain ⟨_, hr⟩ := (mulDiv_ok_iff _ _ _ _).1 h
  rw [toNat_sub_of_le (le_of_lt hab), toNat_q96] at hr
  have h2 : r.toNat ≤ x.toNat * 2 ^ 96 / (b.toNat - a.toNat) := by rw [hr]; exact ofNat_le _
  unfold Spec.amount1Up
  rw [ceilDiv_le_iff (by norm_num), dist_of_le (le_of_lt hab)]
  rw [← Nat.le_div_iff_mul_le (by omega)]; exact h2

theorem amount0Up_mono {p q L L' : Nat} (h : L ≤ L') (hp : 0 < p) (hq : 0 < q) : Spec.amount0Up p q L ≤ Spec.amount0Up p q L' := by
  unfold Spec.amount0Up
  rw [ceilDiv_le_iff (Nat.mul_pos hp hq)]
  refine le_trans ?_ (le_ceilDiv_mul (Nat.mul_pos hp hq))
  exact Nat.mul_le_mul_right _ (Nat.mul_le_mul_right _ h)

theorem amount1Up_mono {p q L L' : Nat} (h : L ≤ L') : Spec.amount1Up p q L ≤ Spec.amount1Up p q L' := by
  unfold Spec.amount1Up
  rw [ceilDiv_le_iff (by norm_num)]
  refine le_trans ?_ (le_ceilDiv_mul (by norm_num))
  exact Nat.mul_le_mul_right _ h

theorem dist_self (p : Nat) : Spec.dist p p = 0 := by unfold Spec.dist; omega
theorem amount0Up_self (p L : Nat) : Spec.amount0Up p p L = 0 := by
  unfold Spec.amount0Up; rw [dist_self, Nat.mul_zero, ceilDiv_zero]
theorem amount1Up_self (p L : Nat) : Spec.amount1Up p p L = 0 := by
  unfold Spec.amount1Up; rw [dist_self, Nat.mul_zero, ceilDiv_zero]
theorem amount0Down_self (p L : Nat) : Spec.amount0Down p p L = 0 := by
  unfold Spec.amount0Down; rw [dist_self, Nat.mul_zero, Nat.zero_div]
theorem amount1Down_self (p L : Nat) : Spec.amount1Down p p L = 0 := by
  unfold Spec.amount1Down; rw [dist_self, Nat.mul_zero, Nat.zero_div]

theorem clamp_lo {P a b : Nat} (h : P ≤ a) : Spec.clamp P a b = a := by unfold Spec.clamp; omega
theorem clamp_mid {P a b : Nat} (h : a ≤ P) (h2 : P ≤ b) : Spec.clamp P a b = P := by unfold Spec.clamp; omega
theorem clamp_hi {P a b : Nat} (h : b ≤ P) (h2 : a ≤ b) : Spec.clamp P a b = b := by unfold Spec.clamp; omega

theorem getLiquidityForAmount_cost {p a b x0 x1 r : U256} (ha : 0 < a.toNat) (hab : a.toNat < b.toNat)
    (h : getLiquidityForAmount p a b x0 x1 = .ok r) :
    Spec.amount0Up (Spec.clamp p.toNat a.toNat b.toNat) b.toNat r.toNat ≤ x0.toNat ∧
    Spec.amount1Up a.toNat (Spec.clamp p.toNat a.toNat b.toNat) r.toNat ≤ x1.toNat := by
  unfold getLiquidityForAmount at h
  dsimp only at h
  rw [order_of_le (le_of_lt hab)] at h
  dsimp only at h
  by_cases h1 : cmp p a ≤ 0
  · rw [if_pos h1] at h
    rw [cmp_le0] at h1
    rw [clamp_lo h1, amount1Up_self]
    exact ⟨forAmount0_cost ha hab h, by omega⟩
  · rw [if_neg h1] at h
    rw [cmp_le0] at h1
    by_cases h2 : cmp p b < 0
    · rw [if_pos h2] at h
      rw [cmp_lt0] at h2
      rw [clamp_mid (by omega) (by omega)]
      rcases h3 : getLiquidityForAmount0 p b x0 with e | l0
      · rw [h3] at h; cases h
      · rw [h3, Except_bind_ok] at h
        rcases h4 : getLiquidityForAmount1 a p x1 with e | l1
        · rw [h4] at h; cases h
        · rw [h4, Except_bind_ok] at h
          have h5 := forAmount0_cost (by omega) h2 h3
          have h6 := forAmount1_cost (show a.toNat < p.toNat by omega) h4
          have hr : r = if cmp l0 l1 < 0 then l0 else l1 := by
            cases h; rfl
          have hle : r.toNat ≤ l0.toNat ∧ r.toNat ≤ l1.toNat := by
            rw [hr]
            by_cases h7 : cmp l0 l1 < 0
            · rw [if_pos h7]; rw [cmp_lt0] at h7; omega
            · rw [if_neg h7]; rw [cmp_lt0] at h7; omega
          exact ⟨le_trans (amount0Up_mono hle.1 (by omega) (by omega)) h5, le_trans (amount1Up_mono hle.2) h6⟩
    · rw [if_neg h2] at h
      rw [cmp_lt0] at h2
      rw [clamp_hi (by omega) (by omega), amount0Up_self]
      exact ⟨by omega, forAmount1_cost hab h⟩

theorem getAmount0ForLiquidity_eq (a b L : U256) : getAmount0ForLiquidity a b L = getAmount0Delta a b L false := rfl
theorem getAmount1ForLiquidity_eq (a b L : U256) : getAmount1ForLiquidity a b L = getAmount1Delta a b L false := rfl

theorem getAmountsForLiquidity_spec {p a b L : U256} (ha : 0 < a.toNat) (hab : a.toNat ≤ b.toNat) (hb : b.toNat < 2 ^ 160)
    (hL : L.toNat < 2 ^ 128) :
    getAmountsForLiquidity p a b L = .ok
      (ofNat (Spec.amount0Down (Spec.clamp p.toNat a.toNat b.toNat) b.toNat L.toNat),
       ofNat (Spec.amount1Down a.toNat (Spec.clamp p.toNat a.toNat b.toNat) L.toNat)) := by
  have hz : zero = ofNat 0 := by apply ext_toNat; rw [toNat_ofNat]; rfl
  unfold getAmountsForLiquidity
  dsimp only
  rw [order_of_le hab]
  dsimp only
  by_cases h1 : cmp p a ≤ 0
  · rw [if_pos h1]
    rw [cmp_le0] at h1
    rw [clamp_lo h1, getAmount0ForLiquidity_eq, getAmount0Delta_down a b L ha (by omega) (by omega) hb hL, Except_bind_ok,
      amount1Down_self, hz]
    rfl
  · rw [if_neg h1]
    rw [cmp_le0] at h1
    by_cases h2 : cmp p b < 0
    · rw [if_pos h2]
      rw [cmp_lt0] at h2
      rw [clamp_mid (by omega) (by omega), getAmount0ForLiquidity_eq, getAmount1ForLiquidity_eq,
        getAmount0Delta_down p b L (by omega) (by omega) (by omega) hb hL, Except_bind_ok,
        getAmount1Delta_down a p L (by omega) (by omega) hL, Except_bind_ok]
      rfl
    · rw [if_neg h2]
      rw [cmp_lt0] at h2
      rw [clamp_hi (by omega) (by omega), getAmount1ForLiquidity_eq,
        getAmount1Delta_down a b L (by omega) (by omega) hL, Except_bind_ok, amount0Down_self, hz]
      rfl

end LiquidityAmounts
end Uni
