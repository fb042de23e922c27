import Verif.Proofs.SwapMath
/-! # C18, C19: token amounts and next prices -/
namespace Uni
namespace Props
open U256 FullMath SqrtPriceMath SwapMath

/-! ### The natural-number formulas are the rounded exact amounts -/

theorem cast_dist (p q : Nat) : ((Spec.dist p q : Nat) : ℚ) = |(q : ℚ) - p| := by
  unfold Spec.dist
  rcases Nat.le_total p q with h | h
  · rw [Nat.max_eq_right h, Nat.min_eq_left h, Nat.cast_sub h, abs_of_nonneg]
    have : (p : ℚ) ≤ q := by exact_mod_cast h
    linarith
  · rw [Nat.max_eq_left h, Nat.min_eq_right h, Nat.cast_sub h, abs_of_nonpos]
    · ring
    · have : (q : ℚ) ≤ p := by exact_mod_cast h
      linarith

theorem ceilDiv_eq_ceil (n d : Nat) (hd : 0 < d) : ((Spec.ceilDiv n d : Nat) : Int) = ⌈(n : ℚ) / d⌉ := by
  have hd' : (0 : ℚ) < d := by exact_mod_cast hd
  symm
  rw [Int.ceil_eq_iff]
  constructor
  · rw [lt_div_iff₀ hd']
    rcases Nat.eq_zero_or_pos (Spec.ceilDiv n d) with h | h
    · rw [h]
      have : (0 : ℚ) ≤ n := by exact_mod_cast Nat.zero_le n
      push_cast; linarith
    · have h1 : (Spec.ceilDiv n d - 1) * d < n := by
        rw [← lt_ceilDiv_iff hd]; omega
      have h2 : (((Spec.ceilDiv n d - 1) * d : Nat) : ℚ) < n := by exact_mod_cast h1
      rw [Nat.cast_mul, Nat.cast_sub h] at h2
      push_cast at h2 ⊢
      linarith
  · rw [div_le_iff₀ hd']
    exact_mod_cast le_ceilDiv_mul hd

theorem div_eq_floor (n d : Nat) : ((n / d : Nat) : Int) = ⌊(n : ℚ) / d⌋ := by
  rw [Rat.floor_natCast_div_natCast, Int.natCast_div]

theorem amount0Up_eq (p q L : Nat) (hp : 0 < p) (hq : 0 < q) : (Spec.amount0Up p q L : Int) = ⌈Spec.exact0 p q L⌉ := by
  unfold Spec.amount0Up Spec.exact0
  rw [ceilDiv_eq_ceil _ _ (Nat.mul_pos hp hq), Nat.cast_mul, cast_dist]
  push_cast
  rfl

theorem amount0Down_eq (p q L : Nat) : (Spec.amount0Down p q L : Int) = ⌊Spec.exact0 p q L⌋ := by
  unfold Spec.amount0Down Spec.exact0
  rw [div_eq_floor, Nat.cast_mul, cast_dist]
  push_cast
  rfl

theorem amount1Up_eq (p q L : Nat) : (Spec.amount1Up p q L : Int) = ⌈Spec.exact1 p q L⌉ := by
  unfold Spec.amount1Up Spec.exact1
  rw [ceilDiv_eq_ceil _ _ (by norm_num), Nat.cast_mul, cast_dist]
  push_cast
  rfl

theorem amount1Down_eq (p q L : Nat) : (Spec.amount1Down p q L : Int) = ⌊Spec.exact1 p q L⌋ := by
  unfold Spec.amount1Down Spec.exact1
  rw [div_eq_floor, Nat.cast_mul, cast_dist]
  push_cast
  rfl

/-! ### C18 -/

/-- C18 (token0): rounding down returns the floor of the exact amount; rounding up returns its ceiling, except that
it panics when the smaller price is at least 2^128 and the intermediate value is below 2^64. -/
theorem C18_amount0 (a b L : U256) (ha : 0 < a.toNat) (hb : 0 < b.toNat) (ha' : a.toNat < 2 ^ 160)
    (hb' : b.toNat < 2 ^ 160) (hL : L.toNat < 2 ^ 128) :
    (∃ d, getAmount0Delta a b L false = .ok d ∧ (d.toNat : Int) = ⌊Spec.exact0 a.toNat b.toNat L.toNat⌋) ∧
    ((∃ u, getAmount0Delta a b L true = .ok u ∧ (u.toNat : Int) = ⌈Spec.exact0 a.toNat b.toNat L.toNat⌉) ∨
     (getAmount0Delta a b L true = .error .panic ∧ 2 ^ 128 ≤ a.toNat ∧ 2 ^ 128 ≤ b.toNat ∧
        0 < ⌈Spec.exact0 a.toNat b.toNat L.toNat⌉ ∧
        L.toNat * 2 ^ 96 * Spec.dist a.toNat b.toNat < 2 ^ 64 * max a.toNat b.toNat)) := by
  have h1 := amount0Up_lt ha hb hL
  have h2 := amount0Down_lt ha hb hL
  refine ⟨⟨_, getAmount0Delta_down a b L ha hb ha' hb' hL, ?_⟩, ?_⟩
  · rw [toNat_ofNat_of_lt (lt_trans h2 (by norm_num)), amount0Down_eq]
  · rw [getAmount0Delta_up a b L ha hb ha' hb' hL]
    by_cases hp : Panics0 a.toNat b.toNat L.toNat
    · rw [if_pos hp]
      right
      obtain ⟨p1, p2, p3⟩ := hp
      refine ⟨rfl, by omega, by omega, ?_, ?_⟩
      · rw [← amount0Up_eq _ _ _ ha hb]
        unfold inner0 at p2
        unfold Spec.amount0Up
        rw [lt_ceilDiv_iff (by omega)] at p2
        have : 0 < Spec.ceilDiv (L.toNat * 2 ^ 96 * Spec.dist a.toNat b.toNat) (a.toNat * b.toNat) := by
          rw [lt_ceilDiv_iff (Nat.mul_pos ha hb)]; omega
        exact_mod_cast this
      · unfold inner0 at p3
        have h3 : Spec.ceilDiv (L.toNat * 2 ^ 96 * Spec.dist a.toNat b.toNat) (max a.toNat b.toNat) ≤ 2 ^ 64 - 1 := by omega
        rw [ceilDiv_le_iff (by omega)] at h3
        have h4 : (2 ^ 64 - 1) * max a.toNat b.toNat < 2 ^ 64 * max a.toNat b.toNat :=
          Nat.mul_lt_mul_of_pos_right (by norm_num) (by omega)
        exact lt_of_le_of_lt h3 h4
    · rw [if_neg hp]
      refine Or.inl ⟨_, rfl, ?_⟩
      rw [toNat_ofNat_of_lt (lt_trans h1 (by norm_num)), amount0Up_eq _ _ _ ha hb]

/-- C18 (token0), the case of every price below 2^128: no panic. -/
theorem C18_amount0_small (a b L : U256) (ha : 0 < a.toNat) (hb : 0 < b.toNat) (ha' : a.toNat < 2 ^ 160)
    (hb' : b.toNat < 2 ^ 160) (hL : L.toNat < 2 ^ 128) (hsmall : a.toNat < 2 ^ 128 ∨ b.toNat < 2 ^ 128) :
    ∃ u, getAmount0Delta a b L true = .ok u ∧ (u.toNat : Int) = ⌈Spec.exact0 a.toNat b.toNat L.toNat⌉ := by
  rcases (C18_amount0 a b L ha hb ha' hb' hL).2 with h | ⟨_, h1, h2, _⟩
  · exact h
  · omega

/-- C18 (token1): floor and ceiling of the exact amount, never a panic. -/
theorem C18_amount1 (a b L : U256) (ha' : a.toNat < 2 ^ 160) (hb' : b.toNat < 2 ^ 160) (hL : L.toNat < 2 ^ 128) :
    (∃ d, getAmount1Delta a b L false = .ok d ∧ (d.toNat : Int) = ⌊Spec.exact1 a.toNat b.toNat L.toNat⌋) ∧
    (∃ u, getAmount1Delta a b L true = .ok u ∧ (u.toNat : Int) = ⌈Spec.exact1 a.toNat b.toNat L.toNat⌉) := by
  refine ⟨⟨_, getAmount1Delta_down a b L ha' hb' hL, ?_⟩, ⟨_, getAmount1Delta_up a b L ha' hb' hL, ?_⟩⟩
  · rw [toNat_ofNat_of_lt (lt_trans (amount1Down_lt ha' hb' hL) (by norm_num)), amount1Down_eq]
  · rw [toNat_ofNat_of_lt (lt_of_le_of_lt (amount1Up_lt ha' hb' hL) (by norm_num)), amount1Up_eq]

/-- C18: the order of the two prices does not matter (for every input, also when it panics). -/
theorem C18_order (a b L : U256) (r : Bool) :
    getAmount0Delta a b L r = getAmount0Delta b a L r ∧ getAmount1Delta a b L r = getAmount1Delta b a L r :=
  ⟨getAmount0Delta_comm a b L r, getAmount1Delta_comm a b L r⟩

theorem exact0_neg (p q : Nat) (L : Int) : Spec.exact0 p q (-L) = - Spec.exact0 p q L := by
  unfold Spec.exact0; push_cast; ring
theorem exact1_neg (p q : Nat) (L : Int) : Spec.exact1 p q (-L) = - Spec.exact1 p q L := by
  unfold Spec.exact1; push_cast; ring

theorem toInt_neg_floor {x : U256} {q : ℚ} (h : (x.toNat : Int) = ⌊q⌋) (hlt : x.toNat < 2 ^ 255) :
    (neg x).toInt = ⌈-q⌉ := by
  have h1 : x.toInt = x.toNat := toInt_of_lt hlt
  rw [toInt_neg_of x (by omega), h1, h, Int.ceil_neg]

/-- C18: for signed liquidity changes the charge (positive) or refund (negative) is the exact signed amount rounded up,
that is, always in the pool's favour. -/
theorem C18_rounded (a b L : U256) (ha : 0 < a.toNat) (hb : 0 < b.toNat) (ha' : a.toNat < 2 ^ 160)
    (hb' : b.toNat < 2 ^ 160) (hL : -2 ^ 128 < L.toInt) (hL2 : L.toInt < 2 ^ 128) :
    (∃ r, getAmount1DeltaRounded a b L = .ok r ∧ r.toInt = ⌈Spec.exact1 a.toNat b.toNat L.toInt⌉) ∧
    (L.toInt < 0 ∨ a.toNat < 2 ^ 128 ∨ b.toNat < 2 ^ 128 →
      ∃ r, getAmount0DeltaRounded a b L = .ok r ∧ r.toInt = ⌈Spec.exact0 a.toNat b.toNat L.toInt⌉) := by
  unfold getAmount1DeltaRounded getAmount0DeltaRounded
  by_cases hs : L.toInt < 0
  · have hsg : sign L = -1 := by rw [sign_eq_toInt, Int.sign_eq_neg_one_of_neg hs]
    have hn : ((neg L).toNat : Int) = -L.toInt := toNat_neg_of_neg (by omega)
    have hnl : (neg L).toNat < 2 ^ 128 := by omega
    have hLn : L.toInt = -((neg L).toNat : Int) := by omega
    constructor
    · obtain ⟨d, hd, hdv⟩ := (C18_amount1 a b (neg L) ha' hb' hnl).1
      rw [if_pos hsg, hd, Except_bind_ok]
      refine ⟨_, rfl, ?_⟩
      have hdlt := amount1Down_lt ha' hb' hnl
      rw [← amount1Down_eq] at hdv
      rw [toInt_neg_floor (q := Spec.exact1 a.toNat b.toNat (neg L).toNat) (by rw [← amount1Down_eq]; exact hdv) (by omega)]
      rw [hLn, exact1_neg]
    · intro _
      obtain ⟨d, hd, hdv⟩ := (C18_amount0 a b (neg L) ha hb ha' hb' hnl).1
      rw [if_pos hsg, hd, Except_bind_ok]
      refine ⟨_, rfl, ?_⟩
      have hdlt := amount0Down_lt ha hb hnl
      rw [← amount0Down_eq] at hdv
      rw [toInt_neg_floor (q := Spec.exact0 a.toNat b.toNat (neg L).toNat) (by rw [← amount0Down_eq]; exact hdv) (by omega)]
      rw [hLn, exact0_neg]
  · have hsg : ¬ sign L = -1 := by
      rw [sign_eq_toInt]; intro h
      have := (sgn_neg L.toInt).1 (by omega)
      omega
    have hn : (L.toNat : Int) = L.toInt := toNat_of_nonneg (by omega)
    have hnl : L.toNat < 2 ^ 128 := by omega
    constructor
    · obtain ⟨d, hd, hdv⟩ := (C18_amount1 a b L ha' hb' hnl).2
      rw [if_neg hsg]
      refine ⟨d, hd, ?_⟩
      have hdlt := amount1Up_lt ha' hb' hnl
      rw [← hn, ← hdv]
      rw [← amount1Up_eq] at hdv
      exact toInt_of_lt (by omega)
    · intro h
      obtain ⟨d, hd, hdv⟩ := C18_amount0_small a b L ha hb ha' hb' hnl (by omega)
      rw [if_neg hsg]
      refine ⟨d, hd, ?_⟩
      have hdlt := amount0Up_lt ha hb hnl
      rw [← hn, ← hdv]
      rw [← amount0Up_eq _ _ _ ha hb] at hdv
      exact toInt_of_lt (by omega)

-- a concrete case: price 1 to 4 (sqrt 1 to 2), liquidity 10^18 and its negation
example : getAmount0DeltaRounded (ofNat (2 ^ 96)) (ofNat (2 ^ 97)) (ofNat (10 ^ 18 + 1)) = .ok (ofNat (5 * 10 ^ 17 + 1)) := by
  decide +kernel
example : getAmount0DeltaRounded (ofNat (2 ^ 96)) (ofNat (2 ^ 97)) (neg (ofNat (10 ^ 18 + 1))) = .ok (neg (ofNat (5 * 10 ^ 17))) := by
  decide +kernel
-- the panic exists
example : getAmount0Delta (ofNat (2 ^ 128)) (ofNat (2 ^ 128 + 1)) one true = .error .panic := by decide +kernel

/-! ### C19 -/

/-- C19 (input): the price moves in the direction of the trade, the input needed for the move does not exceed the
given input, and the price is pushed as far as the input allows: every price further on needs more than the input.
(For token0, if the code's denominator `L*2^96 + a*p` does not fit 256 bits: at least the input.) -/
theorem C19_input (p L a : U256) (z : Bool) (hp : 2 ^ 32 ≤ p.toNat) (hp' : p.toNat < 2 ^ 160) (hL : 0 < L.toNat)
    (hL' : L.toNat < 2 ^ 128) (ha : a.toNat < 2 ^ 160) (hfit : z = false → p.toNat + a.toNat * 2 ^ 96 / L.toNat < 2 ^ 256) :
    ∃ n, getNextSqrtPriceFromInput p L a z = .ok n ∧
      (if z then 0 < n.toNat ∧ n.toNat ≤ p.toNat else p.toNat ≤ n.toNat) ∧
      Spec.inAmount z p.toNat n.toNat L.toNat ≤ a.toNat ∧
      (z = false → ∀ q, n.toNat < q → a.toNat < Spec.inAmount z p.toNat q L.toNat) ∧
      (z = true → ∀ q, 0 < q → q < n.toNat → a.toNat ≤ Spec.inAmount z p.toNat q L.toNat ∧
        (L.toNat * 2 ^ 96 + a.toNat * p.toNat < 2 ^ 256 → a.toNat < Spec.inAmount z p.toNat q L.toNat)) := by
  have s1 := sign_pos_of (p := p) (by omega) hp'
  have s2 := sign_pos_of (p := L) hL (by omega)
  unfold getNextSqrtPriceFromInput
  rw [s1, Except_bind_ok, s2, Except_bind_ok]
  cases z
  · rw [if_neg (by decide), next1In_ok p L a ha (hfit rfl)]
    refine ⟨_, rfl, ?_⟩
    have hfit' : next1In L.toNat p.toNat a.toNat < 2 ^ 256 := hfit rfl
    rw [if_neg (by decide), toNat_ofNat_of_lt hfit', inAmount_f]
    refine ⟨Nat.le_add_right _ _, next1In_amount, ?_, by intro h; cases h⟩
    intro _ q hq
    rw [inAmount_f]
    exact next1In_far hL hq
  · have hp0 : 0 < p.toNat := by omega
    rw [if_pos rfl, next0In_ok p L a hL hL' hp hp' ha]
    obtain ⟨h1, h2⟩ := next0In_bounds (a := a.toNat) hL hL' hp0
    refine ⟨_, rfl, ?_⟩
    rw [if_pos rfl, toNat_ofNat_of_lt (by omega), inAmount_t, amount0Up_comm]
    refine ⟨⟨pos_of_ceil (by omega) hp0 h1, h2⟩, amount0Up_le_of hL hp0 h1 h2, (fun h => by cases h), ?_⟩
    intro _ q hq0 hq
    rw [inAmount_t, amount0Up_comm]
    exact next0In_far hL hp0 hq0 (by omega) hq

/-- C19 (output): if the requested output is available, the price moves in the direction of the trade far enough to
free the requested output, and no further than necessary. -/
theorem C19_output (p L a : U256) (z : Bool) (hp : 2 ^ 32 ≤ p.toNat) (hp' : p.toNat < 2 ^ 160) (hL : 0 < L.toNat)
    (hL' : L.toNat < 2 ^ 128) (ha : 0 < a.toNat) (t : Nat) (ht : if z then t ≤ p.toNat else p.toNat ≤ t ∧ t < 2 ^ 160)
    (havail : a.toNat < Spec.outAmount z p.toNat t L.toNat) :
    ∃ n, getNextSqrtPriceFromOutput p L a z = .ok n ∧
      (if z then t ≤ n.toNat ∧ n.toNat ≤ p.toNat else p.toNat ≤ n.toNat ∧ n.toNat ≤ t) ∧
      a.toNat ≤ Spec.outAmount z p.toNat n.toNat L.toNat ∧
      ∀ q, (if z then n.toNat < q ∧ q ≤ p.toNat else p.toNat ≤ q ∧ q < n.toNat) →
        Spec.outAmount z p.toNat q L.toNat < a.toNat := by
  have s1 := sign_pos_of (p := p) (by omega) hp'
  have s2 := sign_pos_of (p := L) hL (by omega)
  have hp0 : 0 < p.toNat := by omega
  unfold getNextSqrtPriceFromOutput
  rw [s1, Except_bind_ok, s2, Except_bind_ok]
  cases z
  · rw [if_neg (by decide)] at ht
    rw [outAmount_f] at havail
    obtain ⟨h1, h2, h3, h4⟩ := next0Out_spec hL hp0 ht.1 havail
    rw [if_neg (by decide), next0Out_ok p L a hL hL' hp hp' ha h1 (by omega)]
    refine ⟨_, rfl, ?_⟩
    rw [if_neg (by decide), toNat_ofNat_of_lt (by omega), outAmount_f]
    refine ⟨⟨h3, h2⟩, h4, ?_⟩
    intro q hq
    rw [if_neg (by decide)] at hq
    rw [outAmount_f]
    exact next0Out_far hp0 ha h1 hq.1 hq.2
  · rw [if_pos rfl] at ht
    rw [outAmount_t, amount1Down_comm] at havail
    obtain ⟨h1, h2, h3, h4⟩ := next1Out_spec hL ht havail
    rw [if_pos rfl, next1Out_ok p L a hL hL' ha hp' (by omega)]
    refine ⟨_, rfl, ?_⟩
    rw [if_pos rfl, toNat_ofNat_of_lt (by omega), outAmount_t, amount1Down_comm]
    refine ⟨⟨h2, h3⟩, h4, ?_⟩
    intro q hq
    rw [if_pos rfl] at hq
    rw [outAmount_t, amount1Down_comm]
    exact next1Out_far hL hq.1 hq.2

-- concrete cases: 10^18 liquidity at price 1
example : getNextSqrtPriceFromInput (ofNat (2 ^ 96)) (ofNat (10 ^ 18)) (ofNat (10 ^ 18)) true = .ok (ofNat (2 ^ 95)) := by decide +kernel
example : getNextSqrtPriceFromInput (ofNat (2 ^ 96)) (ofNat (10 ^ 18)) (ofNat (10 ^ 18)) false = .ok (ofNat (2 ^ 97)) := by decide +kernel
example : getNextSqrtPriceFromOutput (ofNat (2 ^ 96)) (ofNat (10 ^ 18)) (ofNat (5 * 10 ^ 17)) true = .ok (ofNat (2 ^ 95)) := by decide +kernel
example : getNextSqrtPriceFromOutput (ofNat (2 ^ 96)) (ofNat (10 ^ 18)) (ofNat (5 * 10 ^ 17)) false = .ok (ofNat (2 ^ 97)) := by decide +kernel
-- a denominator that does not fit 256 bits
example : ∃ n, getNextSqrtPriceFromInput (ofNat (2 ^ 140)) (ofNat (2 ^ 120)) (ofNat (2 ^ 130)) true = .ok n ∧ 0 < n.toNat ∧
    n.toNat < 2 ^ 140 ∧ 2 ^ 256 ≤ 2 ^ 120 * 2 ^ 96 + 2 ^ 130 * 2 ^ 140 :=
  ⟨ofNat 77371252455336262886227969, by decide +kernel, by decide +kernel, by decide +kernel, by decide +kernel⟩

/-- Outside these hypotheses the direction is not guaranteed: a request for more output than there is moves the price
the wrong way (the subtraction wraps), where the contract reverts; and an input of 2^160 wraps to no move at all. -/
theorem C19_unchecked :
    (∃ n, getNextSqrtPriceFromOutput (ofNat (2 ^ 96)) (ofNat (10 ^ 18)) (ofNat (2 * 10 ^ 18)) true = .ok n ∧
      (ofNat (2 ^ 96)).toNat < n.toNat) ∧
    getNextSqrtPriceFromInput (ofNat (2 ^ 96)) (ofNat (2 ^ 127)) (ofNat (2 ^ 160)) false = .ok (ofNat (2 ^ 96)) := by
  refine ⟨⟨sub (ofNat (2 ^ 96)) (ofNat (2 ^ 97)), by decide +kernel, by decide +kernel⟩, by decide +kernel⟩

end Props
end Uni
