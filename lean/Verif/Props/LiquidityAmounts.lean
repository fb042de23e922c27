import Verif.Proofs.LiquidityAmounts
import Verif.Props.SqrtPriceMath
/-! # C38: liquidity for given amounts -/
namespace Uni
namespace Props
open U256 FullMath SqrtPriceMath SwapMath LiquidityAmounts

/-- C38: whatever liquidity is computed for a range `[a, b)` at price `p`, providing it costs (exact amounts rounded up,
the price clamped into the range) at most the given amounts. -/
theorem C38_affordable (p a b x0 x1 L : U256) (ha : 0 < a.toNat) (hab : a.toNat < b.toNat)
    (h : getLiquidityForAmount p a b x0 x1 = .ok L) :
    ⌈Spec.exact0 (Spec.clamp p.toNat a.toNat b.toNat) b.toNat L.toNat⌉ ≤ (x0.toNat : Int) ∧
    ⌈Spec.exact1 a.toNat (Spec.clamp p.toNat a.toNat b.toNat) L.toNat⌉ ≤ (x1.toNat : Int) := by
  have hc : 0 < Spec.clamp p.toNat a.toNat b.toNat := by unfold Spec.clamp; omega
  rw [← amount0Up_eq _ _ _ hc (by omega), ← amount1Up_eq]
  obtain ⟨h1, h2⟩ := getLiquidityForAmount_cost ha hab h
  exact ⟨by exact_mod_cast h1, by exact_mod_cast h2⟩

/-- C38: the order in which the range boundaries are given does not matter. -/
theorem C38_order (p a b x0 x1 L : U256) :
    getLiquidityForAmount p a b x0 x1 = getLiquidityForAmount p b a x0 x1 ∧
    getAmountsForLiquidity p a b L = getAmountsForLiquidity p b a L := by
  unfold getLiquidityForAmount getAmountsForLiquidity
  rw [order_comm]
  exact ⟨rfl, rfl⟩

theorem best0 {a b x L : U256} (ha : 0 < a.toNat) (hab : a.toNat < b.toNat)
    (h : getLiquidityForAmount0 a b x = .ok L) (hfit : a.toNat * b.toNat / 2 ^ 96 < 2 ^ 256)
    (hfit2 : x.toNat * (a.toNat * b.toNat / 2 ^ 96) / (b.toNat - a.toNat) < 2 ^ 256) :
    (x.toNat : ℚ) * (1 - 2 ^ 96 / (a.toNat * b.toNat)) < Spec.exact0 a.toNat b.toNat (L.toNat + 1) := by
  unfold getLiquidityForAmount0 at h
  dsimp only at h
  rw [order_of_le (le_of_lt hab)] at h
  rcases hi : mulDiv a b Cons.q96 with e | i
  · rw [hi] at h; cases h
  · rw [hi, Except_bind_ok] at h
    obtain ⟨_, hiv⟩ := (mulDiv_ok_iff _ _ _ _).1 hi
    obtain ⟨_, hr⟩ := (mulDiv_ok_iff _ _ _ _).1 h
    rw [toNat_q96] at hiv
    have hi2 : i.toNat = a.toNat * b.toNat / 2 ^ 96 := by rw [hiv]; exact toNat_ofNat_of_lt hfit
    rw [toNat_sub_of_le (le_of_lt hab), hi2] at hr
    have hL : L.toNat = x.toNat * (a.toNat * b.toNat / 2 ^ 96) / (b.toNat - a.toNat) := by
      rw [hr]; exact toNat_ofNat_of_lt hfit2
    have h3 : x.toNat * (a.toNat * b.toNat / 2 ^ 96) < (L.toNat + 1) * (b.toNat - a.toNat) := by
      rw [hL, ← Nat.div_lt_iff_lt_mul (by omega)]; exact Nat.lt_succ_self _
    have h5 : a.toNat * b.toNat < (a.toNat * b.toNat / 2 ^ 96 + 1) * 2 ^ 96 :=
      Nat.lt_mul_of_div_lt (Nat.lt_succ_self _) (by norm_num)
    have hab0 : 0 < a.toNat * b.toNat := Nat.mul_pos ha (by omega)
    generalize a.toNat * b.toNat / 2 ^ 96 = I at *
    have h3' : ((x.toNat * I : Nat) : ℚ) < (((L.toNat + 1) * (b.toNat - a.toNat) : Nat) : ℚ) := by exact_mod_cast h3
    have h5' : ((a.toNat * b.toNat : Nat) : ℚ) < (((I + 1) * 2 ^ 96 : Nat) : ℚ) := by exact_mod_cast h5
    have h0' : (0 : ℚ) < (a.toNat : ℚ) * b.toNat := by exact_mod_cast hab0
    have hx : (0 : ℚ) ≤ x.toNat := by exact_mod_cast Nat.zero_le _
    unfold Spec.exact0
    rw [lt_div_iff₀ h0', ← cast_dist, dist_of_le (le_of_lt hab)]
    push_cast at h3' h5' ⊢
    have e1 : (x.toNat : ℚ) * (1 - 2 ^ 96 / (a.toNat * b.toNat)) * (a.toNat * b.toNat) =
        x.toNat * (a.toNat * b.toNat - 2 ^ 96) := by
      rw [mul_assoc, sub_mul, one_mul, div_mul_cancel₀ _ (ne_of_gt h0')]
    rw [e1]
    have h6 : (x.toNat : ℚ) * (a.toNat * b.toNat - 2 ^ 96) ≤ x.toNat * (I * 2 ^ 96) :=
      mul_le_mul_of_nonneg_left (by linarith) hx
    have h7 := mul_lt_mul_of_pos_right h3' (show (0 : ℚ) < 2 ^ 96 by norm_num)
    calc (x.toNat : ℚ) * (a.toNat * b.toNat - 2 ^ 96) ≤ x.toNat * (I * 2 ^ 96) := h6
      _ = x.toNat * I * 2 ^ 96 := by ring
      _ < _ := h7
      _ = _ := by ring

theorem best1 {a b x L : U256} (hab : a.toNat < b.toNat) (h : getLiquidityForAmount1 a b x = .ok L)
    (hfit : x.toNat * 2 ^ 96 / (b.toNat - a.toNat) < 2 ^ 256) :
    (x.toNat : ℚ) < Spec.exact1 a.toNat b.toNat (L.toNat + 1) := by
  unfold getLiquidityForAmount1 at h
  dsimp only at h
  rw [order_of_le (le_of_lt hab)] at h
  obtain ⟨_, hr⟩ := (mulDiv_ok_iff _ _ _ _).1 h
  rw [toNat_sub_of_le (le_of_lt hab), toNat_q96] at hr
  have h2 : L.toNat = x.toNat * 2 ^ 96 / (b.toNat - a.toNat) := by rw [hr]; exact toNat_ofNat_of_lt hfit
  have h3 : x.toNat * 2 ^ 96 < (L.toNat + 1) * (b.toNat - a.toNat) := by
    rw [h2, ← Nat.div_lt_iff_lt_mul (by omega)]; exact Nat.lt_succ_self _
  have h4 : ((x.toNat * 2 ^ 96 : Nat) : ℚ) < (((L.toNat + 1) * (b.toNat - a.toNat) : Nat) : ℚ) := by exact_mod_cast h3
  unfold Spec.exact1
  rw [lt_div_iff₀ (by norm_num), ← cast_dist, dist_of_le (le_of_lt hab)]
  push_cast at h4 ⊢
  exact h4

/-- C38: with only token1 needed (price at or above the range) the liquidity is the largest affordable one. -/
theorem C38_best1 (p a b x0 x1 L : U256) (hab : a.toNat < b.toNat) (hp : b.toNat ≤ p.toNat)
    (h : getLiquidityForAmount p a b x0 x1 = .ok L) (hfit : x1.toNat * 2 ^ 96 / (b.toNat - a.toNat) < 2 ^ 256) :
    (x1.toNat : ℚ) < Spec.exact1 a.toNat b.toNat (L.toNat + 1) := by
  unfold getLiquidityForAmount at h
  dsimp only at h
  rw [order_of_le (le_of_lt hab)] at h
  dsimp only at h
  rw [if_neg (by rw [cmp_le0]; omega), if_neg (by rw [cmp_lt0]; omega)] at h
  exact best1 hab h hfit

/-- C38: the liquidity uses up what is given: with `P` the price clamped into the range, one unit of liquidity more would
need more than the given amount of a token that is needed, either more token1 than given or more than the given token0
less a fraction `2^96 / (P * b)` (the code rounds `P * b / 2^96` first; for prices around 1 the fraction is `2^-96`).
The hypotheses say that the results fit 256 bits. -/
theorem C38_best (p a b x0 x1 L : U256) (P : Nat) (hP : P = Spec.clamp p.toNat a.toNat b.toNat) (ha : 0 < a.toNat)
    (hab : a.toNat < b.toNat) (h : getLiquidityForAmount p a b x0 x1 = .ok L) (hfit : P * b.toNat / 2 ^ 96 < 2 ^ 256)
    (hfit0 : x0.toNat * (P * b.toNat / 2 ^ 96) / (b.toNat - P) < 2 ^ 256)
    (hfit1 : x1.toNat * 2 ^ 96 / (P - a.toNat) < 2 ^ 256) :
    (P < b.toNat ∧ (x0.toNat : ℚ) * (1 - 2 ^ 96 / (P * b.toNat)) < Spec.exact0 P b.toNat (L.toNat + 1)) ∨
    (a.toNat < P ∧ (x1.toNat : ℚ) < Spec.exact1 a.toNat P (L.toNat + 1)) := by
  unfold getLiquidityForAmount at h
  dsimp only at h
  rw [order_of_le (le_of_lt hab)] at h
  dsimp only at h
  unfold Spec.clamp at hP
  by_cases h1 : p.toNat ≤ a.toNat
  · rw [if_pos (by rw [cmp_le0]; exact h1)] at h
    obtain rfl : P = a.toNat := by omega
    exact Or.inl ⟨hab, best0 ha hab h hfit hfit0⟩
  · rw [if_neg (by rw [cmp_le0]; exact h1)] at h
    by_cases h2 : p.toNat < b.toNat
    · rw [if_pos (by rw [cmp_lt0]; exact h2)] at h
      obtain rfl : P = p.toNat := by omega
      rcases hl0 : getLiquidityForAmount0 p b x0 with e | l0
      · rw [hl0] at h; cases h
      rcases hl1 : getLiquidityForAmount1 a p x1 with e | l1
      · rw [hl0, hl1] at h; cases h
      rw [hl0, hl1, Except_bind_ok, Except_bind_ok] at h
      cases h
      by_cases hc : cmp l0 l1 < 0
      · rw [if_pos hc]; exact Or.inl ⟨h2, best0 (by omega) h2 hl0 hfit hfit0⟩
      · rw [if_neg hc]; exact Or.inr ⟨by omega, best1 (by omega) hl1 hfit1⟩
    · rw [if_neg (by rw [cmp_lt0]; exact h2)] at h
      obtain rfl : P = b.toNat := by omega
      exact Or.inr ⟨hab, best1 hab h hfit1⟩

/-- C38: the reported amounts of a liquidity are the exact amounts rounded down, so at most what a mint charges and
less than one unit below the exact value. -/
theorem C38_amounts (p a b L : U256) (ha : 0 < a.toNat) (hab : a.toNat < b.toNat) (hb : b.toNat < 2 ^ 160)
    (hL : L.toNat < 2 ^ 128) :
    ∃ r, getAmountsForLiquidity p a b L = .ok r ∧
      (r.1.toNat : Int) = ⌊Spec.exact0 (Spec.clamp p.toNat a.toNat b.toNat) b.toNat L.toNat⌋ ∧
      (r.2.toNat : Int) = ⌊Spec.exact1 a.toNat (Spec.clamp p.toNat a.toNat b.toNat) L.toNat⌋ := by
  have hc : 0 < Spec.clamp p.toNat a.toNat b.toNat := by unfold Spec.clamp; omega
  have hc2 : Spec.clamp p.toNat a.toNat b.toNat < 2 ^ 160 := by unfold Spec.clamp; omega
  refine ⟨_, getAmountsForLiquidity_spec ha (le_of_lt hab) hb hL, ?_, ?_⟩
  · dsimp only
    rw [toNat_ofNat_of_lt (lt_trans (amount0Down_lt hc (by omega) hL) (by norm_num)), amount0Down_eq]
  · dsimp only
    rw [toNat_ofNat_of_lt (lt_trans (amount1Down_lt (by omega) hc2 hL) (by norm_num)), amount1Down_eq]

-- in range, below and above; the first one meets the hypotheses of `C38_best`
example : 2 ^ 96 = Spec.clamp (2 ^ 96) (2 ^ 95) (2 ^ 97) ∧ 2 ^ 96 * 2 ^ 97 / 2 ^ 96 < 2 ^ 256 ∧
    10 ^ 18 * (2 ^ 96 * 2 ^ 97 / 2 ^ 96) / (2 ^ 97 - 2 ^ 96) < 2 ^ 256 ∧ 10 ^ 18 * 2 ^ 96 / (2 ^ 96 - 2 ^ 95) < 2 ^ 256 := by
  decide +kernel
example : getLiquidityForAmount (ofNat (2 ^ 96)) (ofNat (2 ^ 95)) (ofNat (2 ^ 97)) (ofNat (10 ^ 18)) (ofNat (10 ^ 18)) =
    .ok (ofNat (2 * 10 ^ 18)) := by decide +kernel
example : getLiquidityForAmount (ofNat (2 ^ 95)) (ofNat (2 ^ 96)) (ofNat (2 ^ 97)) (ofNat (10 ^ 18)) (ofNat 0) =
    .ok (ofNat (2 * 10 ^ 18)) := by decide +kernel
example : getLiquidityForAmount (ofNat (2 ^ 98)) (ofNat (2 ^ 96)) (ofNat (2 ^ 97)) (ofNat 0) (ofNat (10 ^ 18)) =
    .ok (ofNat (10 ^ 18)) := by decide +kernel

end Props
end Uni
