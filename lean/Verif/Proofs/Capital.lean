import Verif.Spec.Capital
import Verif.Proofs.Start
/-! # What more money buys -/
namespace Uni
open U256 Spec TickData TickMath SwapMath FullMath SqrtPriceMath LiquidityAmounts Pool
namespace Capital

/-- The liquidity `x` of token0 buy between two prices, and `x` of token1. -/
def from0 (a b x : Nat) : Nat := x * (a * b / 2 ^ 96) / (b - a)
def from1 (a b x : Nat) : Nat := x * 2 ^ 96 / (b - a)

def bought (p a b x0 x1 : Nat) : Nat :=
  if p ≤ a then from0 a b x0 else if p < b then min (from0 p b x0) (from1 a p x1) else from1 a b x1

theorem forAmount0_eq {a b x L : U256} (hab : a.toNat ≤ b.toNat) (h : getLiquidityForAmount0 a b x = .ok L)
    (h1 : a.toNat * b.toNat / 2 ^ 96 < 2 ^ 256) (h2 : from0 a.toNat b.toNat x.toNat < 2 ^ 256) :
    L.toNat = from0 a.toNat b.toNat x.toNat := by
  unfold getLiquidityForAmount0 at h
  dsimp only at h
  rw [order_of_le hab] at h
  rcases hi : mulDiv a b Cons.q96 with e | i
  · rw [hi] at h; cases h
  · rw [hi, Except_bind_ok] at h
    obtain ⟨_, hiv⟩ := (mulDiv_ok_iff _ _ _ _).1 hi
    obtain ⟨_, hr⟩ := (mulDiv_ok_iff _ _ _ _).1 h
    rw [toNat_q96] at hiv
    have hi2 : i.toNat = a.toNat * b.toNat / 2 ^ 96 := by rw [hiv]; exact toNat_ofNat_of_lt h1
    rw [toNat_sub_of_le hab, hi2] at hr
    rw [hr]
    exact toNat_ofNat_of_lt h2

theorem forAmount1_eq {a b x L : U256} (hab : a.toNat ≤ b.toNat) (h : getLiquidityForAmount1 a b x = .ok L)
    (h2 : from1 a.toNat b.toNat x.toNat < 2 ^ 256) : L.toNat = from1 a.toNat b.toNat x.toNat := by
  unfold getLiquidityForAmount1 at h
  dsimp only at h
  rw [order_of_le hab] at h
  obtain ⟨_, hr⟩ := (mulDiv_ok_iff _ _ _ _).1 h
  rw [toNat_sub_of_le hab, toNat_q96] at hr
  rw [hr]
  exact toNat_ofNat_of_lt h2

theorem forAmount_eq {p a b x0 x1 L : U256} (hab : a.toNat ≤ b.toNat) (h : getLiquidityForAmount p a b x0 x1 = .ok L)
    (hr : Room p.toNat a.toNat b.toNat x0.toNat x1.toNat) : L.toNat = bought p.toNat a.toNat b.toNat x0.toNat x1.toNat := by
  obtain ⟨r1, r2, r3⟩ := hr
  rw [min_eq_left hab, max_eq_right hab] at r1 r2 r3
  unfold getLiquidityForAmount at h
  dsimp only at h
  rw [order_of_le hab] at h
  dsimp only at h
  unfold bought
  by_cases h1 : p.toNat ≤ a.toNat
  · rw [if_pos (by rw [cmp_le0]; exact h1)] at h
    rw [if_pos h1]
    rw [clamp_lo h1] at r1 r2
    exact forAmount0_eq hab h r1 r2
  · rw [if_neg (by rw [cmp_le0]; exact h1)] at h
    rw [if_neg h1]
    by_cases h2 : p.toNat < b.toNat
    · rw [if_pos (by rw [cmp_lt0]; exact h2)] at h
      rw [if_pos h2]
      rw [clamp_mid (by omega) h2.le] at r1 r2 r3
      rcases hl0 : getLiquidityForAmount0 p b x0 with e | l0
      · rw [hl0] at h; cases h
      rcases hl1 : getLiquidityForAmount1 a p x1 with e | l1
      · rw [hl0, hl1] at h; cases h
      rw [hl0, hl1, Except_bind_ok, Except_bind_ok] at h
      have e0 := forAmount0_eq h2.le hl0 r1 r2
      have e1 := forAmount1_eq (by omega) hl1 r3
      rw [← e0, ← e1]
      cases h
      by_cases hc : cmp l0 l1 < 0
      · rw [if_pos hc]
        rw [cmp_lt0] at hc
        omega
      · rw [if_neg hc]
        rw [cmp_lt0] at hc
        omega
    · rw [if_neg (by rw [cmp_lt0]; exact h2)] at h
      rw [if_neg h2]
      rw [clamp_hi (by omega) hab] at r3
      exact forAmount1_eq hab h r3

theorem room_swap {p a b x0 x1 : Nat} (h : Room p a b x0 x1) : Room p b a x0 x1 := by
  obtain ⟨h1, h2, h3⟩ := h
  rw [min_comm, max_comm] at h1 h2 h3
  exact ⟨h1, h2, h3⟩

theorem room_less {p a b x0 x1 y0 y1 : Nat} (h : Room p a b x0 x1) (h0 : y0 ≤ x0) (h1 : y1 ≤ x1) : Room p a b y0 y1 :=
  ⟨h.price, lt_of_le_of_lt (Nat.div_le_div_right (Nat.mul_le_mul_right _ h0)) h.token0,
    lt_of_le_of_lt (Nat.div_le_div_right (Nat.mul_le_mul_right _ h1)) h.token1⟩

/-- The two ends in order. -/
theorem forAmount_bought {p a b x0 x1 L : U256} (h : getLiquidityForAmount p a b x0 x1 = .ok L)
    (hr : Room p.toNat a.toNat b.toNat x0.toNat x1.toNat) :
    L.toNat = bought p.toNat (min a.toNat b.toNat) (max a.toNat b.toNat) x0.toNat x1.toNat := by
  rcases le_total a.toNat b.toNat with c | c
  · rw [min_eq_left c, max_eq_right c]
    exact forAmount_eq c h hr
  · rw [min_eq_right c, max_eq_left c]
    have e : getLiquidityForAmount p a b x0 x1 = getLiquidityForAmount p b a x0 x1 := by
      unfold getLiquidityForAmount
      rw [order_comm]
    rw [e] at h
    exact forAmount_eq c h (room_swap hr)

theorem from0_mono {a b x y : Nat} (h : x ≤ y) : from0 a b x ≤ from0 a b y := Nat.div_le_div_right (Nat.mul_le_mul_right _ h)
theorem from1_mono {a b x y : Nat} (h : x ≤ y) : from1 a b x ≤ from1 a b y := Nat.div_le_div_right (Nat.mul_le_mul_right _ h)
theorem add_div_le {m n d : Nat} : m / d + n / d ≤ (m + n) / d := by
  rcases Nat.eq_zero_or_pos d with rfl | hd
  · simp
  rw [Nat.add_div hd]
  omega
theorem from0_add {a b x y : Nat} : from0 a b x + from0 a b y ≤ from0 a b (x + y) := by
  unfold from0
  rw [Nat.add_mul]
  exact add_div_le
theorem from1_add {a b x y : Nat} : from1 a b x + from1 a b y ≤ from1 a b (x + y) := by
  unfold from1
  rw [Nat.add_mul]
  exact add_div_le

theorem div_add_le {m n d : Nat} : (m + n) / d ≤ m / d + n / d + 1 := by
  rcases Nat.eq_zero_or_pos d with rfl | hd
  · simp
  rw [Nat.add_div hd]
  split_ifs <;> omega
theorem from0_add_le {a b x y : Nat} : from0 a b (x + y) ≤ from0 a b x + from0 a b y + 1 := by
  unfold from0
  rw [Nat.add_mul]
  exact div_add_le
theorem from1_add_le {a b x y : Nat} : from1 a b (x + y) ≤ from1 a b x + from1 a b y + 1 := by
  unfold from1
  rw [Nat.add_mul]
  exact div_add_le

theorem div_times {n k d : Nat} (hk : 0 < k) : k * (n / d) ≤ k * n / d ∧ k * n / d < k * (n / d + 1) := by
  rcases Nat.eq_zero_or_pos d with rfl | hd
  · simp [hk]
  refine ⟨Nat.mul_div_le_mul_div_assoc _ _ _, ?_⟩
  rw [Nat.div_lt_iff_lt_mul hd, mul_assoc]
  exact Nat.mul_lt_mul_of_pos_left (Nat.lt_mul_of_div_lt (Nat.lt_succ_self _) hd) hk

theorem from0_times {a b x k : Nat} (hk : 0 < k) : k * from0 a b x ≤ from0 a b (k * x) ∧ from0 a b (k * x) < k * (from0 a b x + 1) := by
  unfold from0
  rw [mul_assoc]
  exact div_times hk
theorem from1_times {a b x k : Nat} (hk : 0 < k) : k * from1 a b x ≤ from1 a b (k * x) ∧ from1 a b (k * x) < k * (from1 a b x + 1) := by
  unfold from1
  rw [mul_assoc]
  exact div_times hk

theorem bought_mono {p a b x0 x1 y0 y1 : Nat} (h0 : x0 ≤ y0) (h1 : x1 ≤ y1) : bought p a b x0 x1 ≤ bought p a b y0 y1 := by
  unfold bought
  by_cases c : p ≤ a
  · rw [if_pos c, if_pos c]; exact from0_mono h0
  rw [if_neg c, if_neg c]
  by_cases c2 : p < b
  · rw [if_pos c2, if_pos c2]; exact min_le_min (from0_mono h0) (from1_mono h1)
  rw [if_neg c2, if_neg c2]; exact from1_mono h1

theorem bought_add {p a b x0 x1 y0 y1 : Nat} : bought p a b x0 x1 + bought p a b y0 y1 ≤ bought p a b (x0 + y0) (x1 + y1) := by
  unfold bought
  by_cases c : p ≤ a
  · rw [if_pos c, if_pos c, if_pos c]; exact from0_add
  rw [if_neg c, if_neg c, if_neg c]
  by_cases c2 : p < b
  · rw [if_pos c2, if_pos c2, if_pos c2]
    have e0 := from0_add (a := p) (b := b) (x := x0) (y := y0)
    have e1 := from1_add (a := a) (b := p) (x := x1) (y := y1)
    omega
  rw [if_neg c2, if_neg c2, if_neg c2]; exact from1_add

theorem bought_add_le {p a b x0 x1 y0 y1 : Nat} (hp : p ≤ a ∨ b ≤ p) :
    bought p a b (x0 + y0) (x1 + y1) ≤ bought p a b x0 x1 + bought p a b y0 y1 + 1 := by
  unfold bought
  by_cases c : p ≤ a
  · rw [if_pos c, if_pos c, if_pos c]; exact from0_add_le
  rw [if_neg c, if_neg c, if_neg c]
  by_cases c2 : p < b
  · omega
  rw [if_neg c2, if_neg c2, if_neg c2]; exact from1_add_le

theorem bought_times {p a b x0 x1 k : Nat} (hk : 0 < k) : k * bought p a b x0 x1 ≤ bought p a b (k * x0) (k * x1) ∧
    bought p a b (k * x0) (k * x1) < k * (bought p a b x0 x1 + 1) := by
  unfold bought
  by_cases c : p ≤ a
  · rw [if_pos c, if_pos c]; exact from0_times hk
  rw [if_neg c, if_neg c]
  by_cases c2 : p < b
  · rw [if_pos c2, if_pos c2]
    obtain ⟨e1, e2⟩ := from0_times (a := p) (b := b) (x := x0) hk
    obtain ⟨f1, f2⟩ := from1_times (a := a) (b := p) (x := x1) hk
    rcases le_total (from0 p b x0) (from1 a p x1) with c | c
    · rw [min_eq_left c]
      exact ⟨le_min e1 (le_trans (Nat.mul_le_mul_left _ c) f1), lt_of_le_of_lt (min_le_left _ _) e2⟩
    · rw [min_eq_right c]
      exact ⟨le_min (le_trans (Nat.mul_le_mul_left _ c) e1) f1, lt_of_le_of_lt (min_le_right _ _) f2⟩
  rw [if_neg c2, if_neg c2]; exact from1_times hk

/-! ### The first range is determined -/

theorem bandOf_unique {C W : Nat} {r r' : Int × Int} (h : BandOf C W r) (h' : BandOf C W r') : r = r' := by
  obtain ⟨h1, h2⟩ := h
  obtain ⟨k1, k2⟩ := h'
  refine Prod.ext ?_ ?_
  · by_cases c : C < minPrice + W
    · rw [if_pos c] at h1 k1
      rw [h1, k1]
    · rw [if_neg c] at h1 k1
      exact Strat.tickOf_unique h1 k1
  · by_cases c : maxPrice < C + W
    · rw [if_pos c] at h2 k2
      rw [h2, k2]
    · rw [if_neg c] at h2 k2
      exact Strat.tickOf_unique h2 k2

theorem averageBand_unique {s : Strat} {k : Int} {r r' : Int × Int} (h : AverageBand s k r) (h' : AverageBand s k r') : r = r' := by
  obtain ⟨avg, vol, a1, a2, a3⟩ := h
  obtain ⟨avg', vol', b1, b2, b3⟩ := h'
  rw [a1] at b1
  rw [a2] at b2
  cases b1
  cases b2
  exact bandOf_unique a3 b3

theorem filled_head {unit tick : Int} {r q : Int × Int} {rs : List (Int × Int)} (h : Filled unit tick r (q :: rs)) : q = r := by
  rcases h with h | ⟨c, _, _, h⟩ | ⟨c, _, _, h⟩ <;> (injection h)

theorem first_unique {s : Strat} (hu : 0 < s.pool.spacing) {q q' : Int × Int} {rs rs' : List (Int × Int)} (h : InitRanges s (q :: rs))
    (h' : InitRanges s (q' :: rs')) : q = q' := by
  unfold InitRanges at h h'
  generalize s.kind = kind at *
  cases kind with
  | constantInterval w =>
    obtain ⟨r, a, e⟩ := h; obtain ⟨r', a', e'⟩ := h'
    cases e; cases e'; exact Strat.centred_unique hu a a'
  | aroundPrice w =>
    obtain ⟨r, a, e⟩ := h; obtain ⟨r', a', e'⟩ := h'
    cases e; cases e'; exact Strat.centred_unique hu a a'
  | twoInterval a b =>
    obtain ⟨r, _, _, a, _, _, e⟩ := h; obtain ⟨r', _, _, a', _, _, e'⟩ := h'
    cases e; cases e'; exact Strat.centred_unique hu a a'
  | aroundAverage w n =>
    obtain ⟨avg, t, r, a1, a2, a3, e⟩ := h; obtain ⟨avg', t', r', b1, b2, b3, e'⟩ := h'
    cases e; cases e'
    rw [a1] at b1
    cases b1
    obtain rfl := Strat.tickOf_unique a2 b2
    exact Strat.centred_unique hu a3 b3
  | bollinger n k =>
    obtain ⟨r, a, e⟩ := h; obtain ⟨r', a', e'⟩ := h'
    cases e; cases e'; exact averageBand_unique a a'
  | bollingerFillUp n k =>
    obtain ⟨r, a, e⟩ := h; obtain ⟨r', a', e'⟩ := h'
    cases e; cases e'; exact averageBand_unique a a'
  | volatilitySized n k =>
    obtain ⟨v, r, a1, a2, e⟩ := h; obtain ⟨v', r', b1, b2, e'⟩ := h'
    cases e; cases e'
    rw [a1] at b1
    cases b1
    exact bandOf_unique a2 b2
  | fillUp w =>
    obtain ⟨r, a, e⟩ := h; obtain ⟨r', a', e'⟩ := h'
    rw [filled_head e, filled_head e']; exact Strat.centred_unique hu a a'
  | limitOrder w =>
    obtain ⟨r, _, _, a, _, _, e⟩ := h; obtain ⟨r', _, _, a', _, _, e'⟩ := h'
    cases e; cases e'; exact Strat.centred_unique hu a a'
  | swapHalf w =>
    obtain ⟨r, a, e⟩ := h; obtain ⟨r', a', e'⟩ := h'
    cases e; cases e'; exact Strat.centred_unique hu a a'
  | v2 => cases h; cases h'; rfl
  | noProvision => cases h

theorem ranges_alike {s t : Strat} (ha : Alike s t) (hs : s.pool.spacing = t.pool.spacing) {rs : List (Int × Int)} (h : InitRanges t rs) :
    InitRanges s rs := by
  unfold InitRanges AverageBand at *
  rw [ha.kind, hs, ha.tick, ha.history, ha.price]
  exact h

/-- What `Init` does first. -/
theorem init_first {m : List Entry} {s s' : Strat} {fuel : Nat} {c : U256 × U256} (hr : Runs m s) (hx : s.init fuel = .ok (c, s'))
    (hs : Kind.Sane s.kind) (hns : ∀ w, s.kind ≠ .swapHalf w) (hnp : s.kind ≠ .noProvision) :
    ∃ r rs a b L, InitRanges s (r :: rs) ∧ a.toNat = tickPrice r.1 ∧ b.toNat = tickPrice r.2 ∧
      getLiquidityForAmount s.pool.price a b s.amount0 s.amount1 = .ok L ∧ OpensFirst s s' r L := by
  obtain ⟨h1, _⟩ := Strat.init_eq hx
  obtain ⟨r, rs, h2, L, h3, h4⟩ := Strat.openFirst_leads hns hnp h1
  obtain ⟨a, b, h5, h6, h7⟩ := Strat.affordable_eq h3
  refine ⟨r, rs, a, b, L, h2 (Strat.runs_owns hr).ready hs, h5, h6, h7, ?_⟩
  unfold OpensFirst
  by_cases c : L.toNat = 0
  · rw [if_pos c]; trivial
  · rw [if_neg c]; exact h4 c

theorem alike_spacing {m n : List Entry} {s t : Strat} (hr : Runs m s) (hr' : Runs n t) (ha : Alike s t) : s.pool.spacing = t.pool.spacing := by
  rw [← (Strat.runs_owns hr).ready.unit, ← (Strat.runs_owns hr').ready.unit, ha.unit]

end Capital
end Uni
