import Verif.Proofs.StratRanges
import Verif.Spec.Invest
/-! # The swapping strategy -/
namespace Uni
open U256 Spec TickData TickMath SwapMath FullMath SqrtPriceMath LiquidityAmounts Pool
namespace Strat

/-! ### The amounts of a liquidity never exceed the exact ones, even if they wrap -/

theorem amount0Delta_le {a b L r : U256} (hab : a.toNat ≤ b.toNat) (h : getAmount0Delta a b L false = .ok r) :
    r.toNat ≤ Spec.amount0Down a.toNat b.toNat L.toNat := by
  unfold getAmount0Delta at h
  dsimp only at h
  rw [order_of_le hab, if_neg (by decide)] at h
  obtain ⟨x, h1, h⟩ := bind_ok h
  dsimp only at h1 h
  obtain ⟨z, h2, h3⟩ := div_spec x a
  rw [h] at h2
  cases h2
  have h4 := ((mulDiv_ok_iff _ _ _ _).1 h1).2
  rw [toNat_sub_of_le hab, toNat_lsh] at h4
  have h5 : x.toNat ≤ (L.toNat * 2 ^ 96 % 2 ^ 256) * (b.toNat - a.toNat) / b.toNat := by rw [h4]; exact ofNat_le _
  rw [h3]
  unfold Spec.amount0Down
  rw [dist_of_le hab, mul_comm a.toNat, ← Nat.div_div_eq_div_mul]
  refine Nat.div_le_div_right (le_trans h5 (Nat.div_le_div_right (Nat.mul_le_mul_right _ (Nat.mod_le _ _))))

theorem amount1Delta_le {a b L r : U256} (hab : a.toNat ≤ b.toNat) (h : getAmount1Delta a b L false = .ok r) :
    r.toNat ≤ Spec.amount1Down a.toNat b.toNat L.toNat := by
  unfold getAmount1Delta at h
  dsimp only at h
  rw [order_of_le hab, if_neg (by decide)] at h
  have h4 := ((mulDiv_ok_iff _ _ _ _).1 h).2
  rw [toNat_sub_of_le hab, toNat_q96] at h4
  rw [h4]
  unfold Spec.amount1Down
  rw [dist_of_le hab]
  exact ofNat_le _

theorem amounts_le {p a b L : U256} {r : U256 × U256} (hab : a.toNat < b.toNat)
    (h : getAmountsForLiquidity p a b L = .ok r) :
    r.1.toNat ≤ Spec.amount0Down (Spec.clamp p.toNat a.toNat b.toNat) b.toNat L.toNat ∧
    r.2.toNat ≤ Spec.amount1Down a.toNat (Spec.clamp p.toNat a.toNat b.toNat) L.toNat := by
  unfold getAmountsForLiquidity at h
  dsimp only at h
  rw [order_of_le (le_of_lt hab)] at h
  dsimp only at h
  by_cases h1 : cmp p a ≤ 0
  · rw [if_pos h1] at h
    rw [cmp_le0] at h1
    obtain ⟨x, h2, h⟩ := bind_ok h
    cases h
    rw [clamp_lo h1]
    exact ⟨amount0Delta_le (le_of_lt hab) h2, Nat.zero_le _⟩
  · rw [if_neg h1] at h
    rw [cmp_le0] at h1
    by_cases h2 : cmp p b < 0
    · rw [if_pos h2] at h
      rw [cmp_lt0] at h2
      obtain ⟨x, h3, h⟩ := bind_ok h
      obtain ⟨y, h4, h⟩ := bind_ok h
      cases h
      rw [clamp_mid (by omega) (by omega)]
      exact ⟨amount0Delta_le (le_of_lt h2) h3, amount1Delta_le (by omega) h4⟩
    · rw [if_neg h2] at h
      rw [cmp_lt0] at h2
      obtain ⟨y, h4, h⟩ := bind_ok h
      cases h
      rw [clamp_hi (by omega) (by omega)]
      exact ⟨Nat.zero_le _, amount1Delta_le (le_of_lt hab) h4⟩

theorem amount0_down_le_up {p q L : Nat} (hp : 0 < p) (hq : 0 < q) : Spec.amount0Down p q L ≤ Spec.amount0Up p q L := by
  unfold Spec.amount0Down Spec.amount0Up
  have := le_ceilDiv_mul (n := L * 2 ^ 96 * Spec.dist p q) (Nat.mul_pos hp hq)
  exact Nat.div_le_of_le_mul (le_trans this (le_of_eq (mul_comm _ _)))

theorem amount1_down_le_up {p q L : Nat} : Spec.amount1Down p q L ≤ Spec.amount1Up p q L := by
  unfold Spec.amount1Down Spec.amount1Up
  have := le_ceilDiv_mul (n := L * Spec.dist p q) (d := 2 ^ 96) (by norm_num)
  exact Nat.div_le_of_le_mul (le_trans this (le_of_eq (mul_comm _ _)))

/-- What a liquidity bought with some balances uses is at most these balances. -/
theorem used_le {p a b x0 x1 L : U256} {r : U256 × U256} (ha : 0 < a.toNat) (hab : a.toNat < b.toNat)
    (h : getLiquidityForAmount p a b x0 x1 = .ok L) (hr : getAmountsForLiquidity p a b L = .ok r) :
    r.1.toNat ≤ x0.toNat ∧ r.2.toNat ≤ x1.toNat := by
  obtain ⟨c0, c1⟩ := getLiquidityForAmount_cost ha hab h
  obtain ⟨d0, d1⟩ := amounts_le hab hr
  have hc : 0 < Spec.clamp p.toNat a.toNat b.toNat := by unfold Spec.clamp; omega
  exact ⟨le_trans d0 (le_trans (amount0_down_le_up hc (by omega)) c0), le_trans d1 (le_trans amount1_down_le_up c1)⟩

/-! ### The swap -/

/-- From one state to the next by a swap that takes `x0` and `x1` (negative: that pays out). -/
structure Traded (m : List Entry) (s s' : Strat) (x0 x1 : Int) : Prop where
  pos : s'.positions = s.positions
  kind : s'.kind = s.kind
  history : s'.history = s.history
  same : SameId s.pool s'.pool
  own : Owns m s'.positions s'.pool
  bal0 : (s.amount0.toNat : Int) = s'.amount0.toNat + x0
  bal1 : (s.amount1.toNat : Int) = s'.amount1.toNat + x1
  sign : (0 ≤ x0 ∧ x1 ≤ 0) ∨ (x0 ≤ 0 ∧ 0 ≤ x1)
  half : 2 * x0 ≤ s.amount0.toNat ∧ 2 * x1 ≤ s.amount1.toNat
  swap : SwapOf s.pool s'.pool x0 x1

theorem Traded.refl {m : List Entry} {s : Strat} (ho : Owns m s.positions s.pool) : Traded m s s 0 0 :=
  ⟨rfl, rfl, rfl, ⟨rfl, rfl, rfl, rfl⟩, ho, by omega, by omega, by omega, by omega, Or.inl ⟨rfl, rfl, rfl⟩⟩

theorem sub_signed {a r : U256} (ha : a.toNat < 2 ^ 160) (hr : r.toInt ≤ a.toNat) :
    ((sub a r).toNat : Int) = a.toNat - r.toInt := by
  have h1 := toInt_range r
  have h2 := r.toNat_lt
  rw [toNat_sub]
  have h3 : r.toInt = r.toNat ∨ r.toInt = (r.toNat : Int) - 2 ^ 256 := by
    unfold toInt
    split
    · exact Or.inl rfl
    · exact Or.inr rfl
  rcases h3 with h3 | h3
  · rw [Nat.add_mod, show (2 ^ 256 - r.toNat) % 2 ^ 256 = if r.toNat = 0 then 0 else 2 ^ 256 - r.toNat by split <;> omega]
    split <;> omega
  · rw [Nat.mod_eq_of_lt (by omega)]
    omega

theorem swapPay_traded {m : List Entry} {s s' : Strat} {fuel : Nat} {a : U256} {z : Bool}
    (ho : Owns m s.positions s.pool) (hne : s.pool.token0 ≠ s.pool.token1)
    (h0 : s.amount0.toNat < 2 ^ 160) (h1 : s.amount1.toNat < 2 ^ 160)
    (hc : ClearAbove s.pool.spacing s.pool.tick (book m s)) (ha : 0 < a.toInt)
    (hle : 2 * a.toNat ≤ (if z then s.amount0 else s.amount1).toNat)
    (hx : s.swapPay fuel a (if z then s.pool.token0 else s.pool.token1) = .ok s') :
    ∃ r0 r1, s.pool.exactInputSwap fuel a (if z then s.pool.token0 else s.pool.token1) zero = .ok (r0, r1, s'.pool) ∧
      Traded m s s' r0.toInt r1.toInt := by
  unfold swapPay at hx
  obtain ⟨⟨r0, r1, q⟩, h2, hx⟩ := bind_ok hx
  cases hx
  obtain ⟨h, hr, hs⟩ := ho.pool
  have hb : SameBook h (book m s) := hs
  have hcl := hb.clear hc
  have hz : decide ((if z then s.pool.token0 else s.pool.token1) = s.pool.token0) = z := by
    cases z
    · exact decide_eq_false (Ne.symm hne)
    · exact decide_eq_true rfl
  have hx2 : s.pool.swap fuel z a zero = .ok (r0, r1, q) := by
    rw [← hz]; exact h2
  have hsmall : a.toNat < 2 ^ 160 := by
    cases z
    · rw [if_neg (by decide)] at hle; omega
    · rw [if_pos rfl] at hle; omega
  have hai : a.toInt = a.toNat := by
    unfold toInt; rw [if_pos (by omega)]
  obtain ⟨k1, k2, k3, _⟩ := Props.C26_exact_input h s.pool hr fuel z a zero _ ha (by omega) (fun _ => hcl) hx2
  have key : r0.toInt ≤ s.amount0.toNat ∧ r1.toInt ≤ s.amount1.toNat ∧
      ((0 ≤ r0.toInt ∧ r1.toInt ≤ 0) ∨ (r0.toInt ≤ 0 ∧ 0 ≤ r1.toInt)) ∧
      (2 * r0.toInt ≤ s.amount0.toNat ∧ 2 * r1.toInt ≤ s.amount1.toNat) := by
    unfold sold at k1 k2
    unfold bought at k3
    cases z
    · rw [if_neg (by decide)] at k1 k2 k3 hle
      dsimp only at k1 k2 k3
      omega
    · rw [if_pos rfl] at k1 k2 k3 hle
      dsimp only at k1 k2 k3
      omega
  have hadm : (PoolOp.exactInput a (if z then s.pool.token0 else s.pool.token1) zero).Admissible s.pool h :=
    ⟨by omega, fun _ => hcl⟩
  have hre := reachable_step hr fuel _ hadm (exec_input h2)
  refine ⟨r0, r1, h2, rfl, rfl, rfl, exec_id (exec_input h2), ⟨⟨h, hre, hs⟩, ho.nonneg, ho.wf⟩, ?_, ?_, key.2.2.1, key.2.2.2,
    Or.inr ⟨fuel, a, _, r0, r1, h2, rfl, rfl⟩⟩
  · dsimp only
    rw [sub_signed h0 key.1]; omega
  · dsimp only
    rw [sub_signed h1 key.2.1]; omega

theorem sign_pos {a : U256} (h : a.sign = 1) : 0 < a.toInt := by
  rw [sign_eq_toInt] at h
  exact (sgn_pos _).1 (by omega)

theorem sign_small {a : U256} (h : a.toNat < 2 ^ 255) : a.sign = 1 ↔ a.toNat ≠ 0 := by
  have e : a.toInt = a.toNat := by unfold toInt; rw [if_pos h]
  constructor
  · intro h1
    have := sign_pos h1
    omega
  · intro h1
    have h2 : 0 < a.toInt := by omega
    rw [sign_eq_toInt, Int.sign_eq_one_of_pos h2]

theorem shift_gt {d0 d1 : U256} (h : d0.toNat < 2 ^ 160) : cmp (lsh d0 9) d1 > 0 ↔ d1.toNat < 512 * d0.toNat := by
  rw [cmp_gt0, toNat_lsh, Nat.mod_eq_of_lt (by omega)]
  omega

/-- What is swapped: one half of `d0` or one half of `d1`, which a position in the range would leave. -/
theorem swapExcess_traded {m : List Entry} {s s' : Strat} {fuel : Nat} {a b : U256}
    (ho : Owns m s.positions s.pool) (hne : s.pool.token0 ≠ s.pool.token1)
    (h0 : s.amount0.toNat < 2 ^ 160) (h1 : s.amount1.toNat < 2 ^ 160)
    (hc : ClearAbove s.pool.spacing s.pool.tick (book m s)) (ha : 0 < a.toNat) (hab : a.toNat < b.toNat)
    (hx : s.swapExcess fuel a b = .ok s') : ∃ x0 x1, Traded m s s' x0 x1 ∧
      ∃ L u, ∃ d0 d1 : Nat, getLiquidityForAmount s.pool.price a b s.amount0 s.amount1 = .ok L ∧
        getAmountsForLiquidity s.pool.price a b L = .ok u ∧
        s.amount0.toNat = d0 + u.1.toNat ∧ s.amount1.toNat = d1 + u.2.toNat ∧
        (if d1 < 512 * d0 then Sells fuel s.pool s'.pool (d0 / 2) s.pool.token0 (s.amount0, s.amount1) (s'.amount0, s'.amount1)
          else Sells fuel s.pool s'.pool (d1 / 2) s.pool.token1 (s.amount0, s.amount1) (s'.amount0, s'.amount1)) := by
  unfold swapExcess at hx
  obtain ⟨L, h2, hx⟩ := bind_ok hx
  obtain ⟨r, h3, hx⟩ := bind_ok hx
  dsimp only at hx
  obtain ⟨u0, u1⟩ := used_le ha hab h2 h3
  have e0 := toNat_sub_of_le u0
  have e1 := toNat_sub_of_le u1
  have hg := shift_gt (d0 := sub s.amount0 r.1) (d1 := sub s.amount1 r.2) (by omega)
  have fin : ∀ {x0 x1 : Int}, Traded m s s' x0 x1 →
      (if (sub s.amount1 r.2).toNat < 512 * (sub s.amount0 r.1).toNat then
        Sells fuel s.pool s'.pool ((sub s.amount0 r.1).toNat / 2) s.pool.token0 (s.amount0, s.amount1) (s'.amount0, s'.amount1)
        else Sells fuel s.pool s'.pool ((sub s.amount1 r.2).toNat / 2) s.pool.token1 (s.amount0, s.amount1) (s'.amount0, s'.amount1)) →
      ∃ x0 x1, Traded m s s' x0 x1 ∧
      ∃ L u, ∃ d0 d1 : Nat, getLiquidityForAmount s.pool.price a b s.amount0 s.amount1 = .ok L ∧
        getAmountsForLiquidity s.pool.price a b L = .ok u ∧
        s.amount0.toNat = d0 + u.1.toNat ∧ s.amount1.toNat = d1 + u.2.toNat ∧
        (if d1 < 512 * d0 then Sells fuel s.pool s'.pool (d0 / 2) s.pool.token0 (s.amount0, s.amount1) (s'.amount0, s'.amount1)
          else Sells fuel s.pool s'.pool (d1 / 2) s.pool.token1 (s.amount0, s.amount1) (s'.amount0, s'.amount1)) :=
    fun {x0 x1} t k => ⟨x0, x1, t, L, r, _, _, h2, h3, by omega, by omega, k⟩
  by_cases hd : cmp (lsh (sub s.amount0 r.1) 9) (sub s.amount1 r.2) > 0
  · rw [if_pos hd] at hx
    obtain ⟨half, h4, hx⟩ := bind_ok hx
    have h5 := half_le h4
    by_cases hs : half.sign = 1
    · rw [if_pos hs] at hx
      obtain ⟨r0, r1, k1, k2⟩ := swapPay_traded (z := true) ho hne h0 h1 hc (sign_pos hs) (by rw [if_pos rfl]; omega)
        (by rw [if_pos rfl]; exact hx)
      refine fin k2 ?_
      rw [if_pos (hg.1 hd)]
      unfold Sells
      rw [if_neg (by rw [← h5]; exact (sign_small (by omega)).1 hs)]
      exact ⟨half, r0, r1, h5, k1, k2.bal0, k2.bal1⟩
    · rw [if_neg hs] at hx
      cases hx
      refine fin (Traded.refl ho) ?_
      rw [if_pos (hg.1 hd)]
      unfold Sells
      rw [if_pos (by
        by_contra hz
        exact hs ((sign_small (by omega)).2 (by omega)))]
      exact ⟨rfl, rfl⟩
  · rw [if_neg hd] at hx
    obtain ⟨half, h4, hx⟩ := bind_ok hx
    have h5 := half_le h4
    by_cases hs : half.sign = 1
    · rw [if_pos hs] at hx
      obtain ⟨r0, r1, k1, k2⟩ := swapPay_traded (z := false) ho hne h0 h1 hc (sign_pos hs) (by rw [if_neg Bool.false_ne_true]; omega)
        (by rw [if_neg Bool.false_ne_true]; exact hx)
      refine fin k2 ?_
      rw [if_neg (fun h => hd (hg.2 h))]
      unfold Sells
      rw [if_neg (by rw [← h5]; exact (sign_small (by omega)).1 hs)]
      exact ⟨half, r0, r1, h5, k1, k2.bal0, k2.bal1⟩
    · rw [if_neg hs] at hx
      cases hx
      refine fin (Traded.refl ho) ?_
      rw [if_neg (fun h => hd (hg.2 h))]
      unfold Sells
      rw [if_pos (by
        by_contra hz
        exact hs ((sign_small (by omega)).2 (by omega)))]
      exact ⟨rfl, rfl⟩

/-- The swapping strategy: one swap of at most one half of a balance, then one position that is paid for exactly. -/
theorem swapMint_opens {m : List Entry} {s s' : Strat} {fuel : Nat} {l u : Int}
    (ho : Owns m s.positions s.pool) (hne : s.pool.token0 ≠ s.pool.token1)
    (h0 : s.amount0.toNat < 2 ^ 160) (h1 : s.amount1.toNat < 2 ^ 160)
    (hc : ClearAbove s.pool.spacing s.pool.tick (book m s))
    (hx : s.swapMint fuel l u = .ok s') : ∃ s1 x0 x1, Traded m s s1 x0 x1 ∧ Opens m s1 s' [(l, u)] := by
  unfold swapMint at hx
  obtain ⟨a, h2, hx⟩ := bind_ok hx
  obtain ⟨b, h3, hx⟩ := bind_ok hx
  obtain ⟨s1, h4, hx⟩ := bind_ok hx
  obtain ⟨L, h5, hx⟩ := bind_ok hx
  have hlu : l < u ∧ -887272 ≤ l ∧ u ≤ 887272 := by
    unfold mintAmount at hx
    obtain ⟨⟨a0, a1, q⟩, h6, hx⟩ := bind_ok hx
    obtain ⟨_, _, pos, h7⟩ := mintStrategy_eq h6
    obtain ⟨k1, k2, k3, _⟩ := modifyStrategy_eq h7
    exact ⟨k1, k2, k3⟩
  obtain ⟨hlu, hl, hu⟩ := hlu
  obtain ⟨a', ha', ha2⟩ := getSqrtRatioAtTick_spec l hl (by omega)
  obtain ⟨b', hb', hb2⟩ := getSqrtRatioAtTick_spec u (by omega) hu
  rw [h2] at ha'
  rw [h3] at hb'
  cases ha'
  cases hb'
  obtain ⟨r1, r2⟩ := ratio_lt hl hlu hu
  obtain ⟨x0, x1, ht, _⟩ := swapExcess_traded ho hne h0 h1 hc (by omega) (by omega) h4
  exact ⟨s1, x0, x1, ht, _, mintAmount_grown hx (forAmount_cost h2 h3 h5 (le_refl _)), List.Sublist.refl _⟩

end Strat
end Uni
