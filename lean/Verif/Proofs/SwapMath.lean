import Verif.Proofs.NextPrice
import Verif.Model.SwapMath
/-! # `ComputeSwapStep` -/
namespace Uni
namespace SwapMath
open U256 FullMath SqrtPriceMath

theorem toNat_ofGoInt {i : Int} (h : 0 ≤ i) (h2 : i < 2 ^ 63) : (ofGoInt i).toNat = i.toNat := by
  unfold ofGoInt
  rw [toNat_ofWord, BitVec.toNat_ofInt]
  omega

theorem toNat_maxFee : maxFee.toNat = 1000000 := by decide +kernel

theorem toNat_feeComp {i : Int} (h : 0 ≤ i) (h2 : i < 1000000) :
    (sub maxFee (ofGoInt i)).toNat = 1000000 - i.toNat := by
  rw [toNat_sub_of_le, toNat_maxFee, toNat_ofGoInt h (by omega)]
  rw [toNat_maxFee, toNat_ofGoInt h (by omega)]
  omega

theorem getAmount0Delta_comm (a b L : U256) (r : Bool) : getAmount0Delta a b L r = getAmount0Delta b a L r := by
  unfold getAmount0Delta; rw [order_comm]

theorem getAmount1Delta_comm (a b L : U256) (r : Bool) : getAmount1Delta a b L r = getAmount1Delta b a L r := by
  unfold getAmount1Delta; rw [order_comm]

/-- Input amount in either direction. -/
def goIn (z : Bool) (a b L : U256) : Go U256 := if z then getAmount0Delta a b L true else getAmount1Delta a b L true
/-- Output amount in either direction. -/
def goOut (z : Bool) (a b L : U256) : Go U256 := if z then getAmount1Delta a b L false else getAmount0Delta a b L false

/-- Valid prices and liquidity. -/
structure PriceOk (p : U256) : Prop where
  lo : 2 ^ 32 ≤ p.toNat
  hi : p.toNat < 2 ^ 160

theorem inAmount_t (p q L : Nat) : Spec.inAmount true p q L = Spec.amount0Up p q L := by
  unfold Spec.inAmount; rw [if_pos rfl]
theorem inAmount_f (p q L : Nat) : Spec.inAmount false p q L = Spec.amount1Up p q L := by
  unfold Spec.inAmount; rw [if_neg (by decide)]
theorem outAmount_t (p q L : Nat) : Spec.outAmount true p q L = Spec.amount1Down p q L := by
  unfold Spec.outAmount; rw [if_pos rfl]
theorem outAmount_f (p q L : Nat) : Spec.outAmount false p q L = Spec.amount0Down p q L := by
  unfold Spec.outAmount; rw [if_neg (by decide)]

theorem inAmount_lt (z : Bool) {p q L : Nat} (hp0 : 0 < p) (hq0 : 0 < q) (hp : p < 2 ^ 160) (hq : q < 2 ^ 160)
    (hL : L < 2 ^ 128) : Spec.inAmount z p q L < 2 ^ 224 := by
  unfold Spec.inAmount
  cases z
  · rw [if_neg (by decide)]; exact lt_of_le_of_lt (amount1Up_lt hp hq hL) (by norm_num)
  · rw [if_pos rfl]; exact amount0Up_lt hp0 hq0 hL

theorem outAmount_lt (z : Bool) {p q L : Nat} (hp0 : 0 < p) (hq0 : 0 < q) (hp : p < 2 ^ 160) (hq : q < 2 ^ 160)
    (hL : L < 2 ^ 128) : Spec.outAmount z p q L < 2 ^ 224 := by
  unfold Spec.outAmount
  cases z
  · rw [if_neg (by decide)]; exact amount0Down_lt hp0 hq0 hL
  · rw [if_pos rfl]; exact lt_of_lt_of_le (amount1Down_lt hp hq hL) (by norm_num)

theorem goIn_eq (z : Bool) {a b L : U256} (ha : PriceOk a) (hb : PriceOk b) (hL : L.toNat < 2 ^ 128) :
    (z = true ∧ Panics0 a.toNat b.toNat L.toNat ∧ goIn z a b L = .error .panic) ∨
    (∃ r, goIn z a b L = .ok r ∧ r.toNat = Spec.inAmount z a.toNat b.toNat L.toNat) := by
  have ha1 := ha.lo; have ha2 := ha.hi; have hb1 := hb.lo; have hb2 := hb.hi
  have hlt := inAmount_lt z (show 0 < a.toNat by omega) (show 0 < b.toNat by omega) ha2 hb2 hL
  have hlt2 := lt_trans hlt (show 2 ^ 224 < 2 ^ 256 by norm_num)
  unfold goIn
  cases z
  · right
    rw [inAmount_f] at *
    rw [if_neg (by decide), getAmount1Delta_up a b L ha2 hb2 hL]
    exact ⟨_, rfl, toNat_ofNat_of_lt hlt2⟩
  · rw [inAmount_t] at *
    rw [if_pos rfl, getAmount0Delta_up a b L (by omega) (by omega) ha2 hb2 hL]
    by_cases hp : Panics0 a.toNat b.toNat L.toNat
    · rw [if_pos hp]; exact Or.inl ⟨rfl, hp, rfl⟩
    · rw [if_neg hp]
      exact Or.inr ⟨_, rfl, toNat_ofNat_of_lt hlt2⟩

theorem goOut_eq (z : Bool) {a b L : U256} (ha : PriceOk a) (hb : PriceOk b) (hL : L.toNat < 2 ^ 128) :
    ∃ r, goOut z a b L = .ok r ∧ r.toNat = Spec.outAmount z a.toNat b.toNat L.toNat := by
  have ha1 := ha.lo; have ha2 := ha.hi; have hb1 := hb.lo; have hb2 := hb.hi
  have hlt := outAmount_lt z (show 0 < a.toNat by omega) (show 0 < b.toNat by omega) ha2 hb2 hL
  have hlt2 := lt_trans hlt (show 2 ^ 224 < 2 ^ 256 by norm_num)
  unfold goOut
  cases z
  · rw [outAmount_f] at *
    rw [if_neg (by decide), getAmount0Delta_down a b L (by omega) (by omega) ha2 hb2 hL]
    exact ⟨_, rfl, toNat_ofNat_of_lt hlt2⟩
  · rw [outAmount_t] at *
    rw [if_pos rfl, getAmount1Delta_down a b L ha2 hb2 hL]
    exact ⟨_, rfl, toNat_ofNat_of_lt hlt2⟩

theorem stepIn_eq (z : Bool) (c t L : U256) : stepIn z c t L = goIn z c t L := by
  unfold stepIn goIn; rw [getAmount0Delta_comm]

theorem stepOut_eq (z : Bool) (c t L : U256) : stepOut z c t L = goOut z c t L := by
  unfold stepOut goOut; rw [getAmount1Delta_comm]

theorem stepAmounts_eq (c L n i o : U256) (z e m : Bool) :
    stepAmounts c L n i o z e m = (do
      let i ← reassign (!(m && e)) (goIn z c n L) i
      let o ← reassign (!(m && !e)) (goOut z c n L) o
      return (i, o)) := by
  unfold stepAmounts goIn goOut
  rw [getAmount0Delta_comm n c, getAmount1Delta_comm n c]
  cases z <;> rfl

theorem amount0Up_comm (p q L : Nat) : Spec.amount0Up p q L = Spec.amount0Up q p L := by
  unfold Spec.amount0Up; rw [dist_comm, Nat.mul_comm p q]
theorem amount0Down_comm (p q L : Nat) : Spec.amount0Down p q L = Spec.amount0Down q p L := by
  unfold Spec.amount0Down; rw [dist_comm, Nat.mul_comm p q]
theorem amount1Up_comm (p q L : Nat) : Spec.amount1Up p q L = Spec.amount1Up q p L := by
  unfold Spec.amount1Up; rw [dist_comm]
theorem amount1Down_comm (p q L : Nat) : Spec.amount1Down p q L = Spec.amount1Down q p L := by
  unfold Spec.amount1Down; rw [dist_comm]

theorem sign_pos_of {p : U256} (h0 : 0 < p.toNat) (h : p.toNat < 2 ^ 160) : invariant (decide (sign p = 1)) = .ok () := by
  have : sign p = 1 := by
    rw [sign_spec, if_neg (by omega), if_pos (by omega)]
  rw [this]; rfl

theorem liq_pos_of_lt_in {z : Bool} {c t L a : Nat} (h : a < Spec.inAmount z c t L) : 0 < L := by
  rcases Nat.eq_zero_or_pos L with h0 | h0
  · subst h0
    cases z
    · rw [inAmount_f] at h; unfold Spec.amount1Up at h; rw [Nat.zero_mul, ceilDiv_zero] at h; omega
    · rw [inAmount_t] at h; unfold Spec.amount0Up at h; rw [show 0 * 2 ^ 96 * Spec.dist c t = 0 by ring, ceilDiv_zero] at h; omega
  · exact h0

theorem liq_pos_of_lt_out {z : Bool} {c t L a : Nat} (h : a < Spec.outAmount z c t L) : 0 < L := by
  rcases Nat.eq_zero_or_pos L with h0 | h0
  · subst h0
    cases z
    · rw [outAmount_f] at h; unfold Spec.amount0Down at h; rw [show 0 * 2 ^ 96 * Spec.dist c t = 0 by ring, Nat.zero_div] at h; omega
    · rw [outAmount_t] at h; unfold Spec.amount1Down at h; rw [Nat.zero_mul, Nat.zero_div] at h; omega
  · exact h0

/-- Every price between `n` and the target needs at least, and normally more than, the input `a`. -/
def FarIn (c t L a n : Nat) : Prop := ∀ q, (t ≤ q ∧ q < n) ∨ (n < q ∧ q ≤ t) →
  a ≤ Spec.inAmount (decide (t ≤ c)) c q L ∧
  ((t ≤ c → L * 2 ^ 96 + a * c < 2 ^ 256) → a < Spec.inAmount (decide (t ≤ c)) c q L)

/-- Every price between the current one and `n` frees less than `a`. -/
def FarOut (c t L a n : Nat) : Prop := ∀ q, (n < q ∧ q ≤ c) ∨ (c ≤ q ∧ q < n) →
  Spec.outAmount (decide (t ≤ c)) c q L < a

theorem nextFromInput_spec {c t L a : U256} (hc : PriceOk c) (ht : PriceOk t) (hL : L.toNat < 2 ^ 128)
    (ha : a.toNat < 2 ^ 160) (hlt : a.toNat < Spec.inAmount (decide (t.toNat ≤ c.toNat)) c.toNat t.toNat L.toNat) :
    ∃ n, getNextSqrtPriceFromInput c L a (decide (t.toNat ≤ c.toNat)) = .ok n ∧
      min c.toNat t.toNat ≤ n.toNat ∧ n.toNat ≤ max c.toNat t.toNat ∧ n.toNat ≠ t.toNat ∧
      Spec.inAmount (decide (t.toNat ≤ c.toNat)) c.toNat n.toNat L.toNat ≤ a.toNat ∧
      FarIn c.toNat t.toNat L.toNat a.toNat n.toNat := by
  have hL0 := liq_pos_of_lt_in hlt
  have hc1 := hc.lo; have hc2 := hc.hi; have ht1 := ht.lo; have ht2 := ht.hi
  have s1 := sign_pos_of (p := c) (by omega) hc2
  have s2 := sign_pos_of (p := L) hL0 (by omega)
  unfold getNextSqrtPriceFromInput
  rw [s1, Except_bind_ok, s2, Except_bind_ok]
  by_cases hz : t.toNat ≤ c.toNat
  · rw [decide_eq_true hz] at hlt ⊢
    rw [if_pos rfl, next0In_ok c L a hL0 hL hc1 hc2 ha]
    rw [inAmount_t, amount0Up_comm] at hlt
    obtain ⟨h1, h2⟩ := next0In_bounds (a := a.toNat) hL0 hL (show 0 < c.toNat by omega)
    have h3 := lt_next_of_lt hL0 (show 0 < c.toNat by omega) (show 0 < t.toNat by omega) hz h1 hlt
    have h4 := amount0Up_le_of hL0 (show 0 < c.toNat by omega) h1 h2
    refine ⟨_, rfl, ?_⟩
    rw [inAmount_t, toNat_ofNat_of_lt (by omega), amount0Up_comm]
    refine ⟨by omega, by omega, by omega, h4, ?_⟩
    intro q hq
    rw [decide_eq_true hz, inAmount_t, amount0Up_comm]
    obtain ⟨f1, f2⟩ := next0In_far (a := a.toNat) hL0 (show 0 < c.toNat by omega) (show 0 < q by omega) (by omega) (by omega)
    exact ⟨f1, fun h => f2 (h hz)⟩
  · rw [decide_eq_false hz] at hlt ⊢
    rw [inAmount_f] at hlt
    have h1 := next1In_lt hL0 (show c.toNat ≤ t.toNat by omega) hlt
    have h2 : c.toNat ≤ next1In L.toNat c.toNat a.toNat := Nat.le_add_right _ _
    rw [if_neg (by decide), next1In_ok c L a ha (by omega)]
    refine ⟨_, rfl, ?_⟩
    rw [inAmount_f, toNat_ofNat_of_lt (by omega)]
    refine ⟨by omega, by omega, by omega, next1In_amount, ?_⟩
    intro q hq
    rw [decide_eq_false hz, inAmount_f]
    have f1 := next1In_far (a := a.toNat) (P := c.toNat) (q := q) hL0 (by omega)
    exact ⟨le_of_lt f1, fun _ => f1⟩

theorem nextFromOutput_spec {c t L a : U256} (hc : PriceOk c) (ht : PriceOk t) (hL : L.toNat < 2 ^ 128)
    (ha0 : 0 < a.toNat) (hlt : a.toNat < Spec.outAmount (decide (t.toNat ≤ c.toNat)) c.toNat t.toNat L.toNat) :
    ∃ n, getNextSqrtPriceFromOutput c L a (decide (t.toNat ≤ c.toNat)) = .ok n ∧
      min c.toNat t.toNat ≤ n.toNat ∧ n.toNat ≤ max c.toNat t.toNat ∧
      a.toNat ≤ Spec.outAmount (decide (t.toNat ≤ c.toNat)) c.toNat n.toNat L.toNat ∧
      FarOut c.toNat t.toNat L.toNat a.toNat n.toNat := by
  have hL0 := liq_pos_of_lt_out hlt
  have hc1 := hc.lo; have hc2 := hc.hi; have ht1 := ht.lo; have ht2 := ht.hi
  have s1 := sign_pos_of (p := c) (by omega) hc2
  have s2 := sign_pos_of (p := L) hL0 (by omega)
  unfold getNextSqrtPriceFromOutput
  rw [s1, Except_bind_ok, s2, Except_bind_ok]
  by_cases hz : t.toNat ≤ c.toNat
  · rw [decide_eq_true hz] at hlt ⊢
    rw [outAmount_t, amount1Down_comm] at hlt
    obtain ⟨h1, h2, h3, h4⟩ := next1Out_spec hL0 hz hlt
    rw [if_pos rfl, next1Out_ok c L a hL0 hL ha0 hc2 (by omega)]
    refine ⟨_, rfl, ?_⟩
    rw [outAmount_t, toNat_ofNat_of_lt (by omega), amount1Down_comm]
    refine ⟨by omega, by omega, h4, ?_⟩
    intro q hq
    rw [decide_eq_true hz, outAmount_t, amount1Down_comm]
    exact next1Out_far hL0 (by omega) (by omega)
  · rw [decide_eq_false hz] at hlt ⊢
    rw [outAmount_f] at hlt
    obtain ⟨h1, h2, h3, h4⟩ := next0Out_spec hL0 (show 0 < c.toNat by omega) (show c.toNat ≤ t.toNat by omega) hlt
    rw [if_neg (by decide), next0Out_ok c L a hL0 hL hc1 hc2 ha0 h1 (by omega)]
    refine ⟨_, rfl, ?_⟩
    rw [outAmount_f, toNat_ofNat_of_lt (by omega)]
    refine ⟨by omega, by omega, h4, ?_⟩
    intro q hq
    rw [decide_eq_false hz, outAmount_f]
    exact next0Out_far (by omega) ha0 h1 (by omega) (by omega)

theorem lessFee_spec {rem : U256} {fee : Int} (h : rem.toNat < 2 ^ 160) (h0 : 0 ≤ fee) (h1 : fee < 1000000) :
    div (mul rem (sub maxFee (ofGoInt fee))) maxFee = .ok (ofNat (rem.toNat * (1000000 - fee.toNat) / 1000000)) := by
  rw [div_eq, toNat_maxFee, toNat_mul_of_lt, toNat_feeComp h0 h1]
  rw [toNat_feeComp h0 h1]
  have := Nat.mul_le_mul (le_of_lt h) (show 1000000 - fee.toNat ≤ 1000000 by omega)
  generalize rem.toNat * (1000000 - fee.toNat) = x at *
  omega

theorem lessFee_le {r f : Nat} : r * (1000000 - f) / 1000000 ≤ r := by
  apply Nat.div_le_of_le_mul
  rw [Nat.mul_comm 1000000]
  exact Nat.mul_le_mul_left _ (by omega)

theorem stepPrice_in {c t L rem : U256} {fee : Int} (hc : PriceOk c) (ht : PriceOk t) (hL : L.toNat < 2 ^ 128)
    (hr : rem.toNat < 2 ^ 160) (h0 : 0 ≤ fee) (h1 : fee < 1000000) :
    (t.toNat ≤ c.toNat ∧ Panics0 c.toNat t.toNat L.toNat ∧
      stepPrice c t L rem fee (decide (t.toNat ≤ c.toNat)) true = .error .panic) ∨
    (∃ i, stepPrice c t L rem fee (decide (t.toNat ≤ c.toNat)) true = .ok (t, i, zero) ∧
      i.toNat = Spec.inAmount (decide (t.toNat ≤ c.toNat)) c.toNat t.toNat L.toNat ∧
      i.toNat ≤ rem.toNat * (1000000 - fee.toNat) / 1000000) ∨
    (∃ n i, stepPrice c t L rem fee (decide (t.toNat ≤ c.toNat)) true = .ok (n, i, zero) ∧
      min c.toNat t.toNat ≤ n.toNat ∧ n.toNat ≤ max c.toNat t.toNat ∧ n.toNat ≠ t.toNat ∧ 0 < L.toNat ∧
      rem.toNat * (1000000 - fee.toNat) / 1000000 < Spec.inAmount (decide (t.toNat ≤ c.toNat)) c.toNat t.toNat L.toNat ∧
      Spec.inAmount (decide (t.toNat ≤ c.toNat)) c.toNat n.toNat L.toNat ≤
        rem.toNat * (1000000 - fee.toNat) / 1000000 ∧
      FarIn c.toNat t.toNat L.toNat (rem.toNat * (1000000 - fee.toNat) / 1000000) n.toNat) := by
  have hle : rem.toNat * (1000000 - fee.toNat) / 1000000 ≤ rem.toNat := lessFee_le
  have hv : (ofNat (rem.toNat * (1000000 - fee.toNat) / 1000000)).toNat =
      rem.toNat * (1000000 - fee.toNat) / 1000000 := toNat_ofNat_of_lt (lt_of_le_of_lt hle (by omega))
  unfold stepPrice
  rw [if_pos rfl, lessFee_spec hr h0 h1, Except_bind_ok, stepIn_eq]
  rcases goIn_eq (decide (t.toNat ≤ c.toNat)) hc ht hL with ⟨hz, hp, he⟩ | ⟨i, hi, hiv⟩
  · rw [he]
    exact Or.inl ⟨of_decide_eq_true hz, hp, rfl⟩
  · right
    rw [hi, Except_bind_ok]
    by_cases hcmp : cmp (ofNat (rem.toNat * (1000000 - fee.toNat) / 1000000)) i ≥ 0
    · rw [if_pos hcmp]
      left
      rw [cmp_ge0, hv] at hcmp
      exact ⟨i, rfl, hiv, hcmp⟩
    · rw [if_neg hcmp]
      right
      rw [cmp_ge0, hv, not_le, hiv] at hcmp
      obtain ⟨n, hn, hb1, hb2, hne, hle2, hfar⟩ := nextFromInput_spec hc ht hL (a := ofNat (rem.toNat * (1000000 - fee.toNat) / 1000000))
        (by rw [hv]; exact lt_of_le_of_lt hle hr) (by rw [hv]; exact hcmp)
      rw [hv] at hle2 hfar
      rw [hn]
      exact ⟨n, i, rfl, hb1, hb2, hne, liq_pos_of_lt_in hcmp, hcmp, hle2, hfar⟩

theorem stepPrice_out {c t L rem : U256} {fee : Int} (hc : PriceOk c) (ht : PriceOk t) (hL : L.toNat < 2 ^ 128)
    (hr : 0 < (neg rem).toNat) :
    (∃ o, stepPrice c t L rem fee (decide (t.toNat ≤ c.toNat)) false = .ok (t, zero, o) ∧
      o.toNat = Spec.outAmount (decide (t.toNat ≤ c.toNat)) c.toNat t.toNat L.toNat ∧ o.toNat ≤ (neg rem).toNat) ∨
    (∃ n o, stepPrice c t L rem fee (decide (t.toNat ≤ c.toNat)) false = .ok (n, zero, o) ∧
      o.toNat = Spec.outAmount (decide (t.toNat ≤ c.toNat)) c.toNat t.toNat L.toNat ∧
      min c.toNat t.toNat ≤ n.toNat ∧ n.toNat ≤ max c.toNat t.toNat ∧ 0 < L.toNat ∧
      (neg rem).toNat < Spec.outAmount (decide (t.toNat ≤ c.toNat)) c.toNat t.toNat L.toNat ∧
      (neg rem).toNat ≤ Spec.outAmount (decide (t.toNat ≤ c.toNat)) c.toNat n.toNat L.toNat ∧
      FarOut c.toNat t.toNat L.toNat (neg rem).toNat n.toNat) := by
  unfold stepPrice
  rw [if_neg (by decide), stepOut_eq]
  obtain ⟨o, ho, hov⟩ := goOut_eq (decide (t.toNat ≤ c.toNat)) hc ht hL
  rw [ho, Except_bind_ok]
  by_cases hcmp : cmp (neg rem) o ≥ 0
  · rw [if_pos hcmp]
    rw [cmp_ge0] at hcmp
    exact Or.inl ⟨o, rfl, hov, hcmp⟩
  · rw [if_neg hcmp]
    rw [cmp_ge0, not_le, hov] at hcmp
    obtain ⟨n, hn, hb1, hb2, hle, hfar⟩ := nextFromOutput_spec hc ht hL hr hcmp
    rw [hn]
    exact Or.inr ⟨n, o, rfl, hov, hb1, hb2, liq_pos_of_lt_out hcmp, hcmp, hle, hfar⟩

theorem feeCalc {i : U256} {fee : Int} (hi : i.toNat < 2 ^ 224) (h0 : 0 ≤ fee) (h1 : fee < 1000000) :
    ∃ f, mulDivRoundingUp i (ofGoInt fee) (sub maxFee (ofGoInt fee)) = .ok f ∧
      f.toNat = Spec.ceilDiv (i.toNat * fee.toNat) (1000000 - fee.toNat) := by
  have hb : i.toNat * fee.toNat < 2 ^ 224 * 2 ^ 20 := Nat.mul_lt_mul'' hi (by omega)
  have hd : 0 < 1000000 - fee.toNat := by omega
  refine ⟨ofNat (Spec.ceilDiv (i.toNat * fee.toNat) (1000000 - fee.toNat)), ?_, ?_⟩
  · rw [mulDivRoundingUp_ok_iff, toNat_feeComp h0 h1, toNat_ofGoInt h0 (by omega)]
    refine ⟨?_, rfl⟩
    by_cases hp : i.toNat * fee.toNat = 0
    · exact Or.inl hp
    · right
      have w1 := words_pos hp
      have w2 : Spec.words (1000000 - fee.toNat) ≤ 1 := words_le (by omega)
      have w3 := words_pos (n := 1000000 - fee.toNat) (by omega)
      have w4 : Spec.words (i.toNat * fee.toNat) ≤ 4 := words_le (lt_of_lt_of_le hb (by norm_num))
      unfold Panics
      omega
  · apply toNat_ofNat_of_lt
    have h2 : Spec.ceilDiv (i.toNat * fee.toNat) (1000000 - fee.toNat) ≤ i.toNat * fee.toNat := by
      rw [ceilDiv_le_iff hd]
      exact Nat.le_mul_of_pos_right _ hd
    exact lt_of_le_of_lt h2 (lt_trans hb (by norm_num))

theorem fee_budget {r i f : Nat} (hf : f < 1000000) (h : i ≤ r * (1000000 - f) / 1000000) :
    i + Spec.ceilDiv (i * f) (1000000 - f) ≤ r := by
  have h1 : i ≤ r := le_trans h lessFee_le
  have h2 : Spec.ceilDiv (i * f) (1000000 - f) ≤ r - i := by
    rw [ceilDiv_le_iff (by omega)]
    rw [Nat.le_div_iff_mul_le (by norm_num)] at h
    rw [Nat.sub_mul]
    have : i * f + i * (1000000 - f) = i * 1000000 := by rw [← Nat.mul_add]; congr 1; omega
    omega
  omega

theorem fee_rate_rest {r i f : Nat} (hf : f < 1000000) (h : i ≤ r * (1000000 - f) / 1000000) :
    i * f ≤ (r - i) * (1000000 - f) := by
  rw [Nat.le_div_iff_mul_le (by norm_num)] at h
  rw [Nat.sub_mul]
  have : i * f + i * (1000000 - f) = i * 1000000 := by rw [← Nat.mul_add]; congr 1; omega
  omega

theorem fee_rate_ceil {i f : Nat} (hf : f < 1000000) : i * f ≤ Spec.ceilDiv (i * f) (1000000 - f) * (1000000 - f) :=
  le_ceilDiv_mul (by omega)

theorem between_ok {c t n : U256} (hc : PriceOk c) (ht : PriceOk t) (h1 : min c.toNat t.toNat ≤ n.toNat)
    (h2 : n.toNat ≤ max c.toNat t.toNat) : PriceOk n := by
  have := hc.lo; have := hc.hi; have := ht.lo; have := ht.hi
  exact ⟨by omega, by omega⟩

theorem sign_decide (rem : U256) : decide (sign rem ≥ 0) = decide (0 ≤ rem.toInt) := by
  rw [sign_eq_toInt]
  congr 1
  apply propext
  rw [ge_iff_le, ← not_lt, ← not_lt, sgn_neg]

/-- The step panics: only for a sale of token0 at a price of at least 2^128. -/
def StepPanic (c t L : Nat) : Prop := t ≤ c ∧ ∃ q, t ≤ q ∧ q ≤ c ∧ Panics0 c q L

theorem computeSwapStep_in {c t L rem : U256} {fee : Int} (hc : PriceOk c) (ht : PriceOk t) (hL : L.toNat < 2 ^ 128)
    (hr0 : 0 ≤ rem.toInt) (hr : rem.toInt < 2 ^ 160) (h0 : 0 ≤ fee) (h1 : fee < 1000000) :
    (StepPanic c.toNat t.toNat L.toNat ∧ computeSwapStep c t L rem fee = .error .panic) ∨
    ∃ s, computeSwapStep c t L rem fee = .ok s ∧
      Spec.SwapStep c.toNat t.toNat L.toNat rem.toInt fee.toNat s.next.toNat s.amountIn.toNat s.amountOut.toNat s.fee.toNat := by
  have hrn : (rem.toNat : Int) = rem.toInt := toNat_of_nonneg hr0
  have hr' : rem.toNat < 2 ^ 160 := by omega
  have hff : fee.toNat < 1000000 := by omega
  have hc1 := hc.lo; have hc2 := hc.hi; have ht1 := ht.lo; have ht2 := ht.hi
  unfold computeSwapStep
  dsimp only
  have hz : decide (cmp c t ≥ 0) = decide (t.toNat ≤ c.toNat) := by
    congr 1; apply propext; exact cmp_ge0 c t
  rw [hz, sign_decide, decide_eq_true hr0]
  rw [← hrn]
  rcases stepPrice_in (fee := fee) hc ht hL hr' h0 h1 with ⟨hzz, hp, he⟩ | ⟨i, he, hiv, hile⟩ | ⟨n, i, he, hb1, hb2, hne, hLp, hlt, hile, hfar⟩
  · left
    rw [he]
    exact ⟨⟨hzz, t.toNat, le_refl _, hzz, hp⟩, rfl⟩
  · right
    rw [he, Except_bind_ok]
    have hm : decide (cmp t t = 0) = true := decide_eq_true ((cmp_eq0 t t).2 rfl)
    have hm2 : decide (cmp t t ≠ 0) = false := decide_eq_false (fun h => h ((cmp_eq0 t t).2 rfl))
    obtain ⟨o, ho, hov⟩ := goOut_eq (decide (t.toNat ≤ c.toNat)) hc ht hL
    dsimp only
    rw [hm, hm2, stepAmounts_eq]
    have hra : reassign (!(true && true)) (goIn (decide (t.toNat ≤ c.toNat)) c t L) i = .ok i := rfl
    have hro : reassign (!(true && !true)) (goOut (decide (t.toNat ≤ c.toNat)) c t L) zero = .ok o := by
      rw [← ho]; rfl
    rw [hra, Except_bind_ok, hro, Except_bind_ok]
    have hilt : i.toNat < 2 ^ 224 := by
      rw [hiv]; exact inAmount_lt _ (by omega) (by omega) hc2 ht2 hL
    obtain ⟨f, hf, hfv⟩ := feeCalc hilt h0 h1
    refine ⟨⟨t, i, o, f⟩, ?_, ?_⟩
    · change (mulDivRoundingUp i (ofGoInt fee) (sub maxFee (ofGoInt fee)) >>= fun f => (.ok (⟨t, i, o, f⟩ : Step) : Go Step)) = _
      rw [hf, Except_bind_ok]
    · dsimp only
      constructor
      · exact ⟨by omega, by omega⟩
      · exact hiv
      · intro _; exact hov
      · intro h; omega
      · intro _ h; exact absurd rfl h
      · intro _; rw [hfv]; exact_mod_cast fee_budget hff hile
      · intro _ h; exact absurd rfl h
      · intro _; exact hfv
      · rw [hfv]; exact fee_rate_ceil hff
      · intro _; rfl
      · intro _ _; rfl
      · intro _ _; rfl
      · intro _ h; exact absurd rfl h
      · intro _ h; exact absurd rfl h
      · intro h; omega
  · have hn := between_ok hc ht hb1 hb2
    have hn1 := hn.lo; have hn2 := hn.hi
    rw [he, Except_bind_ok]
    have hm : decide (cmp t n = 0) = false := decide_eq_false (fun h => hne ((cmp_eq0 t n).1 h).symm)
    have hm2 : decide (cmp n t ≠ 0) = true := decide_eq_true (fun h => hne ((cmp_eq0 n t).1 h))
    dsimp only
    rw [hm, hm2, stepAmounts_eq]
    have hra : reassign (!(false && true)) (goIn (decide (t.toNat ≤ c.toNat)) c n L) i =
      goIn (decide (t.toNat ≤ c.toNat)) c n L := rfl
    rw [hra]
    rcases goIn_eq (decide (t.toNat ≤ c.toNat)) hc hn hL with ⟨hz, hp, hei⟩ | ⟨j, hj, hjv⟩
    · left
      have hz' := of_decide_eq_true hz
      rw [hei]
      exact ⟨⟨hz', n.toNat, by omega, by omega, hp⟩, rfl⟩
    · right
      obtain ⟨o, ho, hov⟩ := goOut_eq (decide (t.toNat ≤ c.toNat)) hc hn hL
      have hro : reassign (!(false && !true)) (goOut (decide (t.toNat ≤ c.toNat)) c n L) zero = .ok o := by
        rw [← ho]; rfl
      rw [hj, Except_bind_ok, hro, Except_bind_ok]
      rw [← hjv] at hile
      have hjr : j.toNat ≤ rem.toNat := le_trans hile lessFee_le
      have hsub : (sub rem j).toNat = rem.toNat - j.toNat := toNat_sub_of_le hjr
      refine ⟨⟨n, j, o, sub rem j⟩, rfl, ?_⟩
      dsimp only
      rw [hsub]
      constructor
      · exact ⟨hb1, hb2⟩
      · exact hjv
      · intro _; exact hov
      · intro h; omega
      · intro h; omega
      · intro _; omega
      · intro _ _; omega
      · intro h; rcases h with h | h
        · omega
        · exact absurd h hne
      · exact fee_rate_rest hff hile
      · intro h; omega
      · intro _ h
        exfalso
        have h' : Spec.inAmount (decide (t.toNat ≤ c.toNat)) c.toNat t.toNat L.toNat ≤ rem.toNat * (1000000 - fee.toNat) / 1000000 := by
          exact_mod_cast h
        exact absurd hlt (not_lt.2 h')
      · intro h; omega
      · intro _ _ q hq
        have := (hfar q hq).1
        exact_mod_cast this
      · intro _ _ hfit q hq
        have := (hfar q hq).2 (fun h => by exact_mod_cast hfit h)
        exact_mod_cast this
      · intro h; omega

theorem computeSwapStep_out {c t L rem : U256} {fee : Int} (hc : PriceOk c) (ht : PriceOk t) (hL : L.toNat < 2 ^ 128)
    (hr0 : rem.toInt < 0) (h0 : 0 ≤ fee) (h1 : fee < 1000000) :
    (StepPanic c.toNat t.toNat L.toNat ∧ computeSwapStep c t L rem fee = .error .panic) ∨
    ∃ s, computeSwapStep c t L rem fee = .ok s ∧
      Spec.SwapStep c.toNat t.toNat L.toNat rem.toInt fee.toNat s.next.toNat s.amountIn.toNat s.amountOut.toNat s.fee.toNat := by
  have hrn : ((neg rem).toNat : Int) = -rem.toInt := toNat_neg_of_neg (by omega)
  have hr' : 0 < (neg rem).toNat := by omega
  have hff : fee.toNat < 1000000 := by omega
  have hc1 := hc.lo; have hc2 := hc.hi; have ht1 := ht.lo; have ht2 := ht.hi
  unfold computeSwapStep
  dsimp only
  have hz : decide (cmp c t ≥ 0) = decide (t.toNat ≤ c.toNat) := by
    congr 1; apply propext; exact cmp_ge0 c t
  rw [hz, sign_decide, decide_eq_false (not_le.2 hr0)]
  -- common end of the two cases
  have fin : ∀ (n o : U256), min c.toNat t.toNat ≤ n.toNat → n.toNat ≤ max c.toNat t.toNat →
      (n.toNat = t.toNat → o.toNat = Spec.outAmount (decide (t.toNat ≤ c.toNat)) c.toNat t.toNat L.toNat) →
      (n.toNat ≠ t.toNat → (neg rem).toNat ≤ Spec.outAmount (decide (t.toNat ≤ c.toNat)) c.toNat n.toNat L.toNat) →
      (L.toNat = 0 → n.toNat = t.toNat) →
      (Spec.outAmount (decide (t.toNat ≤ c.toNat)) c.toNat t.toNat L.toNat ≤ (neg rem).toNat → n.toNat = t.toNat) →
      ((neg rem).toNat < Spec.outAmount (decide (t.toNat ≤ c.toNat)) c.toNat t.toNat L.toNat → FarOut c.toNat t.toNat L.toNat (neg rem).toNat n.toNat) →
      (StepPanic c.toNat t.toNat L.toNat ∧ (do
        let io ← stepAmounts c L n zero o (decide (t.toNat ≤ c.toNat)) false (decide (cmp t n = 0))
        if (false && decide (cmp n t ≠ 0)) = true then
          return ⟨n, io.1, if (!false && decide (cmp io.2 (neg rem) > 0)) = true then neg rem else io.2, sub rem io.1⟩
        else do
          let fee ← mulDivRoundingUp io.1 (ofGoInt fee) (sub maxFee (ofGoInt fee))
          return (⟨n, io.1, if (!false && decide (cmp io.2 (neg rem) > 0)) = true then neg rem else io.2, fee⟩ : Step) : Go Step) = .error .panic) ∨
      ∃ s, (do
        let io ← stepAmounts c L n zero o (decide (t.toNat ≤ c.toNat)) false (decide (cmp t n = 0))
        if (false && decide (cmp n t ≠ 0)) = true then
          return ⟨n, io.1, if (!false && decide (cmp io.2 (neg rem) > 0)) = true then neg rem else io.2, sub rem io.1⟩
        else do
          let fee ← mulDivRoundingUp io.1 (ofGoInt fee) (sub maxFee (ofGoInt fee))
          return (⟨n, io.1, if (!false && decide (cmp io.2 (neg rem) > 0)) = true then neg rem else io.2, fee⟩ : Step) : Go Step) = .ok s ∧
        Spec.SwapStep c.toNat t.toNat L.toNat rem.toInt fee.toNat s.next.toNat s.amountIn.toNat s.amountOut.toNat s.fee.toNat := by
    intro n o hb1 hb2 hot hon hL0 hreach hfar
    have hn := between_ok hc ht hb1 hb2
    have hn1 := hn.lo; have hn2 := hn.hi
    rw [stepAmounts_eq]
    have hra : reassign (!(decide (cmp t n = 0) && false)) (goIn (decide (t.toNat ≤ c.toNat)) c n L) zero =
      goIn (decide (t.toNat ≤ c.toNat)) c n L := by rw [Bool.and_false]; rfl
    rw [hra]
    rcases goIn_eq (decide (t.toNat ≤ c.toNat)) hc hn hL with ⟨hz, hp, hei⟩ | ⟨j, hj, hjv⟩
    · left
      have hz' := of_decide_eq_true hz
      rw [hei]
      exact ⟨⟨hz', n.toNat, by omega, by omega, hp⟩, rfl⟩
    · right
      have hro : ∃ o', reassign (!(decide (cmp t n = 0) && !false)) (goOut (decide (t.toNat ≤ c.toNat)) c n L) o = .ok o' ∧
          o'.toNat = Spec.outAmount (decide (t.toNat ≤ c.toNat)) c.toNat n.toNat L.toNat := by
        by_cases hnt : n.toNat = t.toNat
        · rw [decide_eq_true ((cmp_eq0 t n).2 hnt.symm)]
          exact ⟨o, rfl, by rw [hot hnt, hnt]⟩
        · rw [decide_eq_false (fun h => hnt ((cmp_eq0 t n).1 h).symm)]
          obtain ⟨o', ho', hov'⟩ := goOut_eq (decide (t.toNat ≤ c.toNat)) hc hn hL
          exact ⟨o', ho', hov'⟩
      obtain ⟨o', ho', hov'⟩ := hro
      rw [hj, Except_bind_ok, ho', Except_bind_ok]
      have hilt : j.toNat < 2 ^ 224 := by
        rw [hjv]; exact inAmount_lt _ (by omega) (by omega) hc2 hn2 hL
      obtain ⟨f, hf, hfv⟩ := feeCalc hilt h0 h1
      have hcap : (if (!false && decide (cmp o' (neg rem) > 0)) = true then neg rem else o').toNat =
          min (Spec.outAmount (decide (t.toNat ≤ c.toNat)) c.toNat n.toNat L.toNat) (neg rem).toNat := by
        rw [Bool.not_false, Bool.true_and]
        by_cases hgt : cmp o' (neg rem) > 0
        · rw [if_pos (decide_eq_true hgt)]; rw [cmp_gt0, hov'] at hgt; exact (Nat.min_eq_right (le_of_lt hgt)).symm
        · rw [if_neg (fun h => hgt (of_decide_eq_true h))]; rw [cmp_gt0, hov', not_lt] at hgt; rw [Nat.min_eq_left hgt]; exact hov'
      refine ⟨⟨n, j, if (!false && decide (cmp o' (neg rem) > 0)) = true then neg rem else o', f⟩, ?_, ?_⟩
      · change (mulDivRoundingUp j (ofGoInt fee) (sub maxFee (ofGoInt fee)) >>= fun f => (.ok
          (⟨n, j, if (!false && decide (cmp o' (neg rem) > 0)) = true then neg rem else o', f⟩ : Step) : Go Step)) = _
        rw [hf, Except_bind_ok]
      · dsimp only
        rw [hcap]
        constructor
        · exact ⟨hb1, hb2⟩
        · exact hjv
        · intro h; omega
        · intro _; rw [Nat.cast_min, hrn]
        · intro _ h; rw [Nat.min_eq_right (hon h), hrn]
        · intro h; omega
        · intro h; omega
        · intro _; exact hfv
        · rw [hfv]; exact fee_rate_ceil hff
        · exact hL0
        · intro h; omega
        · intro _ h
          rw [← hrn] at h
          exact hreach (by exact_mod_cast h)
        · intro h; omega
        · intro h; omega
        · intro _ hlt q hq
          rw [← hrn] at hlt ⊢
          exact_mod_cast hfar (by exact_mod_cast hlt) q hq
  rcases stepPrice_out (fee := fee) hc ht hL hr' with ⟨o, he, hov, hle⟩ | ⟨n, o, he, hov, hb1, hb2, hLp, hlt, hle, hfar⟩
  · rw [he, Except_bind_ok]
    exact fin t o (by omega) (by omega) (fun _ => hov) (fun h => absurd rfl h) (fun _ => rfl) (fun _ => rfl) (fun h => absurd hle (not_le.2 (by rw [hov]; exact h)))
  · rw [he, Except_bind_ok]
    exact fin n o hb1 hb2 (fun _ => hov) (fun _ => hle) (fun h => by omega) (fun h => absurd hlt (not_lt.2 h)) (fun _ => hfar)

theorem computeSwapStep_spec {c t L rem : U256} {fee : Int} (hc : PriceOk c) (ht : PriceOk t) (hL : L.toNat < 2 ^ 128)
    (hr : rem.toInt < 2 ^ 160) (h0 : 0 ≤ fee) (h1 : fee < 1000000) :
    (StepPanic c.toNat t.toNat L.toNat ∧ computeSwapStep c t L rem fee = .error .panic) ∨
    ∃ s, computeSwapStep c t L rem fee = .ok s ∧
      Spec.SwapStep c.toNat t.toNat L.toNat rem.toInt fee.toNat s.next.toNat s.amountIn.toNat s.amountOut.toNat s.fee.toNat := by
  by_cases h : 0 ≤ rem.toInt
  · exact computeSwapStep_in hc ht hL h hr h0 h1
  · exact computeSwapStep_out hc ht hL (not_le.1 h) h0 h1

theorem not_stepPanic {c t L : Nat} (h : c < 2 ^ 128 ∨ c < t) : ¬ StepPanic c t L := by
  rintro ⟨h1, q, h2, h3, h4, _⟩
  omega

end SwapMath
end Uni
