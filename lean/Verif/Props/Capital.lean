import Verif.Proofs.Capital
import Verif.Props.Invest
/-! # C112: what more money buys -/
namespace Uni
namespace Props
open U256 Spec TickData TickMath SwapMath FullMath SqrtPriceMath LiquidityAmounts Pool

/-- C112: at the same price and in the same range, larger amounts buy at least as much liquidity. -/
theorem C112_more {p a b x0 x1 y0 y1 L M : U256} (h0 : x0.toNat ≤ y0.toNat) (h1 : x1.toNat ≤ y1.toNat)
    (hx : getLiquidityForAmount p a b x0 x1 = .ok L) (hy : getLiquidityForAmount p a b y0 y1 = .ok M)
    (hr : Room p.toNat a.toNat b.toNat y0.toNat y1.toNat) : L.toNat ≤ M.toNat := by
  rw [Capital.forAmount_bought hx (Capital.room_less hr h0 h1), Capital.forAmount_bought hy hr]
  exact Capital.bought_mono h0 h1

/-- C112: the sum of two pairs of amounts buys at least the sum of what they buy, and at most one unit of liquidity more
if only one token is needed. -/
theorem C112_pool {p a b x0 x1 y0 y1 z0 z1 L M N : U256} (h0 : z0.toNat = x0.toNat + y0.toNat) (h1 : z1.toNat = x1.toNat + y1.toNat)
    (hx : getLiquidityForAmount p a b x0 x1 = .ok L) (hy : getLiquidityForAmount p a b y0 y1 = .ok M)
    (hz : getLiquidityForAmount p a b z0 z1 = .ok N) (hr : Room p.toNat a.toNat b.toNat z0.toNat z1.toNat) :
    L.toNat + M.toNat ≤ N.toNat ∧
      (p.toNat ≤ min a.toNat b.toNat ∨ max a.toNat b.toNat ≤ p.toNat → N.toNat ≤ L.toNat + M.toNat + 1) := by
  rw [Capital.forAmount_bought hx (Capital.room_less hr (by omega) (by omega)),
    Capital.forAmount_bought hy (Capital.room_less hr (by omega) (by omega)), Capital.forAmount_bought hz hr, h0, h1]
  exact ⟨Capital.bought_add, Capital.bought_add_le⟩

/-- C112: `k` times the amounts buy `k` times the liquidity, or up to `k - 1` units more. -/
theorem C112_scale {p a b x0 x1 z0 z1 L N : U256} {k : Nat} (hk : 0 < k) (h0 : z0.toNat = k * x0.toNat) (h1 : z1.toNat = k * x1.toNat)
    (hx : getLiquidityForAmount p a b x0 x1 = .ok L) (hz : getLiquidityForAmount p a b z0 z1 = .ok N)
    (hr : Room p.toNat a.toNat b.toNat z0.toNat z1.toNat) :
    k * L.toNat ≤ N.toNat ∧ N.toNat ≤ k * L.toNat + (k - 1) := by
  have g0 : x0.toNat ≤ z0.toNat := by rw [h0]; exact Nat.le_mul_of_pos_left _ hk
  have g1 : x1.toNat ≤ z1.toNat := by rw [h1]; exact Nat.le_mul_of_pos_left _ hk
  rw [Capital.forAmount_bought hx (Capital.room_less hr g0 g1), Capital.forAmount_bought hz hr, h0, h1]
  obtain ⟨e1, e2⟩ := Capital.bought_times (p := p.toNat) (a := min a.toNat b.toNat) (b := max a.toNat b.toNat) (x0 := x0.toNat)
    (x1 := x1.toNat) hk
  rw [Nat.mul_add, Nat.mul_one] at e2
  exact ⟨e1, by omega⟩

/-- C112, `Init`: of two strategies of the same kind that do not swap, at the same price, the one that owns at least as much
of both tokens opens the same first range with at least as much liquidity. -/
theorem C112_init_more {m n : List Entry} {s s' t t' : Strat} {fuel fuel' : Nat} {c c' : U256 × U256} (hr : Runs m s)
    (hr' : Runs n t) (ha : Alike s t) (hk : Kind.Sane s.kind) (hns : ∀ w, s.kind ≠ .swapHalf w) (hnp : s.kind ≠ .noProvision)
    (hs : s.init fuel = .ok (c, s')) (ht : t.init fuel' = .ok (c', t')) (h0 : s.amount0.toNat ≤ t.amount0.toNat)
    (h1 : s.amount1.toNat ≤ t.amount1.toNat) :
    ∃ r rs L M, InitRanges s (r :: rs) ∧ OpensFirst s s' r L ∧ OpensFirst t t' r M ∧
      (Room s.pool.price.toNat (tickPrice r.1) (tickPrice r.2) t.amount0.toNat t.amount1.toNat → L.toNat ≤ M.toNat) := by
  obtain ⟨r, rs, a, b, L, e1, e2, e3, e4, e5⟩ := Capital.init_first hr hs hk hns hnp
  obtain ⟨q, qs, a', b', M, f1, f2, f3, f4, f5⟩ := Capital.init_first hr' ht (ha.kind ▸ hk) (ha.kind ▸ hns) (ha.kind ▸ hnp)
  obtain rfl := Capital.first_unique (Strat.runs_owns hr).ready.pos e1 (Capital.ranges_alike ha (Capital.alike_spacing hr hr' ha) f1)
  obtain rfl : a' = a := ext_toNat (by rw [e2, f2])
  obtain rfl : b' = b := ext_toNat (by rw [e3, f3])
  refine ⟨r, rs, L, M, e1, e5, f5, fun hR => ?_⟩
  rw [← ha.price] at f4
  rw [← e2, ← e3] at hR
  exact C112_more h0 h1 e4 f4 hR

/-- C112, `Init`: a strategy that owns what two others of its kind own together opens their first range with at least the
liquidity of both. -/
theorem C112_init_pool {m n k : List Entry} {s s' t t' u u' : Strat} {fs ft fu : Nat} {cs ct cu : U256 × U256} (hr : Runs m s)
    (hr' : Runs n t) (hr'' : Runs k u) (ha : Alike u s) (hb : Alike u t) (hk : Kind.Sane u.kind)
    (hns : ∀ w, u.kind ≠ .swapHalf w) (hnp : u.kind ≠ .noProvision)
    (hs : s.init fs = .ok (cs, s')) (ht : t.init ft = .ok (ct, t')) (hu : u.init fu = .ok (cu, u'))
    (h0 : u.amount0.toNat = s.amount0.toNat + t.amount0.toNat) (h1 : u.amount1.toNat = s.amount1.toNat + t.amount1.toNat) :
    ∃ r rs L M N, InitRanges u (r :: rs) ∧ OpensFirst s s' r L ∧ OpensFirst t t' r M ∧ OpensFirst u u' r N ∧
      (Room u.pool.price.toNat (tickPrice r.1) (tickPrice r.2) u.amount0.toNat u.amount1.toNat → L.toNat + M.toNat ≤ N.toNat) := by
  obtain ⟨r, rs, a, b, N, e1, e2, e3, e4, e5⟩ := Capital.init_first hr'' hu hk hns hnp
  obtain ⟨q, qs, a', b', L, f1, f2, f3, f4, f5⟩ := Capital.init_first hr hs (ha.kind ▸ hk) (ha.kind ▸ hns) (ha.kind ▸ hnp)
  obtain ⟨q', qs', a'', b'', M, g1, g2, g3, g4, g5⟩ := Capital.init_first hr' ht (hb.kind ▸ hk) (hb.kind ▸ hns) (hb.kind ▸ hnp)
  have hp := (Strat.runs_owns hr'').ready.pos
  obtain rfl := Capital.first_unique hp e1 (Capital.ranges_alike ha (Capital.alike_spacing hr'' hr ha) f1)
  obtain rfl := Capital.first_unique hp e1 (Capital.ranges_alike hb (Capital.alike_spacing hr'' hr' hb) g1)
  obtain rfl : a' = a := ext_toNat (by rw [e2, f2])
  obtain rfl : b' = b := ext_toNat (by rw [e3, f3])
  obtain rfl : a'' = a' := ext_toNat (by rw [e2, g2])
  obtain rfl : b'' = b' := ext_toNat (by rw [e3, g3])
  refine ⟨r, rs, L, M, N, e1, f5, g5, e5, fun hR => ?_⟩
  rw [← ha.price] at f4
  rw [← hb.price] at g4
  rw [← e2, ← e3] at hR
  exact (C112_pool h0 h1 f4 g4 e4 hR).1

/-! ### Concrete purchases -/

namespace CapitalDemo
open StratDemo

/-- The range from tick -120 to tick 120, the price of tick 0 and a price below the range. -/
def lo : U256 := ofNat (tickPrice (-120))
def hi : U256 := ofNat (tickPrice 120)
def mid : U256 := ofNat (tickPrice 0)
def low : U256 := ofNat (tickPrice (-180))

def buy (p : U256) (x y : Nat) : Go U256 := getLiquidityForAmount p lo hi (ofNat x) (ofNat y)

theorem room : Room mid.toNat lo.toNat hi.toNat (ofNat 1000000).toNat (ofNat 2000000).toNat ∧
    Room low.toNat lo.toNat hi.toNat (ofNat 1999999).toNat (ofNat 2000000).toNat :=
  ⟨⟨by decide +kernel, by decide +kernel, by decide +kernel⟩, ⟨by decide +kernel, by decide +kernel, by decide +kernel⟩⟩

/-- The fill-up strategy of `StratDemo` with token0 only, with token1 only, and with less of both. -/
def only0 : Strat := getOk (Strat.new (.fillUp 120) (ofNat 1000000) (ofNat 0) Demo.p0) (by decide +kernel)
def only1 : Strat := getOk (Strat.new (.fillUp 120) (ofNat 0) (ofNat 2000000) Demo.p0) (by decide +kernel)
def w0 : Strat := getOk (Strat.new (.fillUp 120) (ofNat 500000) (ofNat 900000) Demo.p0) (by decide +kernel)
theorem runs0 : Runs [] only0 := .start (Or.inr (Or.inl rfl)) Demo.n0 (eq_getOk _ (by decide +kernel))
theorem runs1 : Runs [] only1 := .start (Or.inr (Or.inl rfl)) Demo.n0 (eq_getOk _ (by decide +kernel))
theorem rw0 : Runs [] w0 := .start (Or.inr (Or.inl rfl)) Demo.n0 (eq_getOk _ (by decide +kernel))
def got0 : (U256 × U256) × Strat := getOk (only0.init 10) (by decide +kernel)
def got1 : (U256 × U256) × Strat := getOk (only1.init 10) (by decide +kernel)
def w1 : (U256 × U256) × Strat := getOk (w0.init 10) (by decide +kernel)

theorem alike : Alike f1 only0 ∧ Alike f1 only1 ∧ Alike w0 f1 :=
  ⟨⟨rfl, rfl, rfl, rfl, by decide +kernel, by decide +kernel, by decide +kernel⟩,
    ⟨rfl, rfl, rfl, rfl, by decide +kernel, by decide +kernel, by decide +kernel⟩,
    ⟨rfl, rfl, rfl, rfl, by decide +kernel, by decide +kernel, by decide +kernel⟩⟩

theorem room1 : Room f1.pool.price.toNat (tickPrice (-120)) (tickPrice 120) f1.amount0.toNat f1.amount1.toNat :=
  ⟨by decide +kernel, by decide +kernel, by decide +kernel⟩
theorem kind : w0.kind = .fillUp 120 := by decide +kernel

end CapitalDemo

open CapitalDemo in
/-- C112: half of each amount buys less than half of it all; below the range the sum buys exactly one unit more than the
parts; three times the amounts buy exactly two units more than three times the liquidity. -/
example : buy mid 500000 900000 = .ok (ofNat 83587749) ∧
    buy mid 1000000 2000000 = .ok (ofNat 167175499) ∧
    Room mid.toNat lo.toNat hi.toNat (ofNat 1000000).toNat (ofNat 2000000).toNat ∧
    buy low 999999 0 = .ok (ofNat 83336916) ∧ buy low 1000000 2000000 = .ok (ofNat 83336999) ∧
    buy low 1999999 2000000 = .ok (ofNat 166673916) ∧ 83336916 + 83336999 + 1 = 166673916 ∧ low.toNat ≤ min lo.toNat hi.toNat ∧
    Room low.toNat lo.toNat hi.toNat (ofNat 1999999).toNat (ofNat 2000000).toNat ∧
    buy mid 1500000 2700000 = .ok (ofNat 250763249) ∧ 3 * 83587749 + (3 - 1) = 250763249 ∧
    Room mid.toNat lo.toNat hi.toNat (ofNat 1500000).toNat (ofNat 2700000).toNat :=
  ⟨rfl, rfl, room.1, rfl, rfl, rfl, rfl, by decide +kernel, room.2, rfl, rfl,
    ⟨by decide +kernel, by decide +kernel, by decide +kernel⟩⟩

theorem CapitalDemo.wraps :
    isOk (getLiquidityForAmount (ofNat (tickPrice 887270 - 1)) (ofNat (tickPrice (-887270))) (ofNat (tickPrice 887270)) (ofNat 1) (ofNat (2 ^ 250))) ∧
    isOk (getLiquidityForAmount (ofNat (tickPrice 887270 - 1)) (ofNat (tickPrice (-887270))) (ofNat (tickPrice 887270)) (ofNat 236545699938243768481545) (ofNat (2 ^ 250))) := by
  decide +kernel

open CapitalDemo in
/-- C112: the room is needed: next to the upper end of the widest range, the liquidity for
236545699938243768481545 of token0 exceeds `2^256` and is computed modulo `2^256`, and one unit of token0 buys more. -/
theorem C112_wraps : ∃ p a b x0 y0 x1 L M : U256, a.toNat = tickPrice (-887270) ∧ b.toNat = tickPrice 887270 ∧
    a.toNat < p.toNat ∧ p.toNat < b.toNat ∧ x0.toNat ≤ y0.toNat ∧ getLiquidityForAmount p a b x0 x1 = .ok L ∧
    getLiquidityForAmount p a b y0 x1 = .ok M ∧ M.toNat < L.toNat :=
  ⟨ofNat (tickPrice 887270 - 1), ofNat (tickPrice (-887270)), ofNat (tickPrice 887270), ofNat 1, ofNat 236545699938243768481545, ofNat (2 ^ 250),
    getOk _ wraps.1, getOk _ wraps.2, by decide +kernel, by decide +kernel, by decide +kernel, by decide +kernel, by decide +kernel,
    eq_getOk _ _, eq_getOk _ _, by decide +kernel⟩

open StratDemo CapitalDemo in
/-- C112: the fill-up strategy with less money, in a pool without other liquidity, opens the same first range. -/
example : Runs [] w0 ∧ Runs m1 f1 ∧ Alike w0 f1 ∧ Kind.Sane w0.kind ∧ (∀ w, w0.kind ≠ .swapHalf w) ∧ w0.kind ≠ .noProvision ∧
    w0.init 10 = .ok (w1.1, w1.2) ∧ f1.init 10 = .ok (i2.1, f2) ∧ w0.amount0.toNat ≤ f1.amount0.toNat ∧
    w0.amount1.toNat ≤ f1.amount1.toNat ∧ w0.pool.price = f1.pool.price ∧
    Room f1.pool.price.toNat (tickPrice (-120)) (tickPrice 120) f1.amount0.toNat f1.amount1.toNat ∧
    w1.2.positions = [⟨ofNat 83587749, -120, 120⟩, ⟨ofNat 66870199, -120, 0⟩] ∧
    f2.positions = [⟨ofNat 167175499, -120, 120⟩, ⟨ofNat 167175499, -120, 0⟩] :=
  ⟨rw0, r1, alike.2.2, by rw [kind]; exact (by decide : |(120 : Int)| ≤ 2 ^ 30), by rw [kind]; (intro w h; cases h),
    by rw [kind]; (intro h; cases h), eq_getOk _ _, e2, by decide +kernel, by decide +kernel, alike.2.2.price, room1, by decide +kernel, values.1⟩

open StratDemo CapitalDemo in
/-- C112: one strategy owns token0 only, one token1 only: neither can open the range around the price (what they open are
the parts on one side), but with the money of both it is opened. -/
example : Runs [] only0 ∧ Runs [] only1 ∧ Runs m1 f1 ∧ Alike f1 only0 ∧ Alike f1 only1 ∧ Kind.Sane f1.kind ∧ (∀ w, f1.kind ≠ .swapHalf w) ∧
    only0.init 10 = .ok (got0.1, got0.2) ∧ only1.init 10 = .ok (got1.1, got1.2) ∧ f1.init 10 = .ok (i2.1, f2) ∧
    f1.amount0.toNat = only0.amount0.toNat + only1.amount0.toNat ∧ f1.amount1.toNat = only0.amount1.toNat + only1.amount1.toNat ∧
    got0.2.positions = [⟨ofNat 167175499, 0, 120⟩] ∧ got1.2.positions = [⟨ofNat 334350999, -120, 0⟩] :=
  ⟨runs0, runs1, r1, alike.1, alike.2.1, sane.1, InvestDemo.kinds.2.1, eq_getOk _ _, eq_getOk _ _, e2, by decide +kernel, by decide +kernel,
    by decide +kernel, by decide +kernel⟩

end Props
end Uni
