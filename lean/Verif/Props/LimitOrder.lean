import Verif.Proofs.LimitOrder
import Verif.Props.Invest
/-! # C106: what the limit order strategy reports -/
namespace Uni
namespace Props
open U256 Spec TickData TickMath SwapMath FullMath SqrtPriceMath LiquidityAmounts Pool

/-- C106, `Init`: the orders placed, and the limit tick and direction reported afterwards. -/
theorem C106_init {m : List Entry} {s s' : Strat} {fuel : Nat} {c : U256 × U256} {w : Int} (hr : Runs m s)
    (hx : s.init fuel = .ok (c, s')) (hf : Fits m s') (hk : s.kind = .limitOrder w) (hs : |w| ≤ 2 ^ 30) :
    ∃ new, s'.positions = s.positions ++ new ∧
      LimitReport s w c new (s'.amount0, s'.amount1) s.limitTick s'.limitTick s.direction s'.direction := by
  obtain ⟨h1, rfl⟩ := Strat.init_eq hx
  unfold Strat.openFirst at h1
  rw [hk] at h1
  exact Strat.setLimit_reports (Strat.runs_owns hr) hf hs h1

/-- C106, `Rebalance`: the same with the balances after closing all positions. -/
theorem C106_rebalance {m : List Entry} {s s' : Strat} {fuel : Nat} {c : U256 × U256} {w : Int} (hr : Runs m s)
    (hx : s.rebalance fuel = .ok (some c, s')) (hf : Fits m s') (hk : s.kind = .limitOrder w) (hs : |w| ≤ 2 ^ 30) :
    LimitReport s w c s'.positions (s'.amount0, s'.amount1) s.limitTick s'.limitTick s.direction s'.direction := by
  rcases Strat.rebalance_eq hx with ⟨_, h, _⟩ | ⟨hnp, c0, s1, h1, h2, he⟩
  · cases h
  · cases he
    obtain ⟨o, e, hb, hk1, hh, hl, hu, hst, rfl⟩ := Strat.closed_owns (Strat.runs_owns hr) h1
    obtain ⟨_, _, _, h4, _⟩ := Strat.closeAll_spec (Strat.runs_owns hr) h1
    have a1 : s1.limitTick = s.limitTick := by rw [h4]
    have a2 : s1.direction = s.direction := by rw [h4]
    unfold Strat.openAgain at h2
    rw [hk1.trans hk] at h2
    obtain ⟨new, k1, k2⟩ := Strat.setLimit_reports o hf hs h2
    have hp : s'.positions = new := by rw [k1, e]; rfl
    rw [hp]
    unfold LimitReport at k2 ⊢
    rw [hst.same.1, hst.tick, hst.price, a1, a2] at k2
    exact k2

/-- C106, `BurnAll`: the report stays as it is. -/
theorem C106_burnAll {m : List Entry} {s s' : Strat} {c : U256 × U256} {w : Int} (hr : Runs m s) (hx : s.burnAll = .ok (c, s'))
    (hk : s.kind = .limitOrder w) : s'.limitTick = s.limitTick ∧ s'.direction = s.direction := by
  unfold Strat.burnAll at hx
  rw [hk] at hx
  obtain ⟨_, _, _, h4, _⟩ := Strat.closeAll_spec (Strat.runs_owns hr) hx
  rw [h4]
  exact ⟨rfl, rfl⟩

/-- C106: a report made by the call says the truth about its side: the limit tick is strictly above the tick if the direction
is true and strictly below if it is false, by 10 ticks and less than one spacing more. -/
theorem C106_side {s : Strat} {w t t' : Int} {x y : U256 × U256} {ps : List StratPos} {d d' : Bool}
    (h : LimitReport s w x ps y t t' d d') (hn : t' ≠ t ∨ d' ≠ d) :
    if d' then s.pool.tick + 10 ≤ t' ∧ t' < s.pool.tick + 10 + s.pool.spacing
    else t' ≤ s.pool.tick - 10 ∧ s.pool.tick - 10 - s.pool.spacing < t' := by
  obtain ⟨r, c, f, _, _, _, z1, z2, _, ⟨_, c1, c2⟩, ⟨_, f1, f2⟩, _, _, _, _, h1, h2, h3⟩ := h
  by_cases a : z2.2.toNat = 0
  · by_cases b : z1.1.toNat = 0
    · obtain ⟨e1, e2⟩ := h3 a b
      rcases hn with k | k
      · exact absurd e1 k
      · exact absurd e2 k
    · obtain ⟨e1, e2⟩ := h2 a b
      rw [e2, if_pos rfl, e1]
      omega
  · obtain ⟨e1, e2⟩ := h1 a
    rw [e2, if_neg Bool.false_ne_true, e1]
    omega

/-- C106: the specification refines the one of C86. -/
theorem C106_plan {s : Strat} {w t t' : Int} {x y : U256 × U256} {ps : List StratPos} {d d' : Bool} (hk : s.kind = .limitOrder w)
    (h : LimitReport s w x ps y t t' d d') : InitBuys s x ps y := by
  obtain ⟨r, c, f, _, _, _, z1, z2, hr, hc, hf, e, b1, b2, b3, _⟩ := h
  unfold InitBuys
  rw [hk]
  refine ⟨r, c, f, hr, hc, hf, ?_⟩
  rw [e]
  exact (b1.append b2).append b3

/-! ### Concrete runs -/

namespace LimitDemo
open StratDemo (mintOp swapOp m1)

/-- Token1 is left over: an order below.  After a swap, a rebalance. -/
def l0 : Strat := getOk (Strat.new (.limitOrder 120) (ofNat 1000000) (ofNat 2000000) Demo.p0) (by decide +kernel)
def l1 : Strat := { l0 with pool := getOk (mintOp.exec 10 l0.pool) (by decide +kernel) }
def i2 : (U256 × U256) × Strat := getOk (l1.init 10) (by decide +kernel)
def l2 : Strat := i2.2
def l3 : Strat := { l2 with pool := getOk (swapOp.exec 10 l2.pool) (by decide +kernel) }
def i4 : Option (U256 × U256) × Strat := getOk (l3.rebalance 10) (by decide +kernel)
def l4 : Strat := i4.2
def i5 : (U256 × U256) × Strat := getOk l4.burnAll (by decide +kernel)
/-- Token0 is left over: an order above. -/
def u0 : Strat := getOk (Strat.new (.limitOrder 120) (ofNat 2000000) (ofNat 1000000) Demo.p0) (by decide +kernel)
def j1 : (U256 × U256) × Strat := getOk (u0.init 10) (by decide +kernel)

theorem r0 : Runs [] l0 := .start (Or.inr (Or.inl rfl)) Demo.n0 (eq_getOk _ (by decide +kernel))
theorem r1 : Runs m1 l1 := .trade 10 mintOp r0
  (show total (book [] l0) + ((ofNat 50000000).toNat : Int) < 2 ^ 128 by decide +kernel) (eq_getOk _ (by decide +kernel))
theorem noSwap {s : Strat} {c : U256 × U256} {h : List Entry} (hk : s.kind = .limitOrder 120) : MaySwap s c h := by
  intro w hw
  rw [hk] at hw
  cases hw
theorem e2 : l1.init 10 = .ok (i2.1, l2) := eq_getOk _ _
theorem fits2 : Fits m1 l2 := by unfold Fits; decide +kernel
theorem r2 : Runs m1 l2 := .init 10 r1 e2 fits2 (noSwap (by decide +kernel))
theorem r3 : Runs m1 l3 := .trade 10 swapOp r2 ⟨by decide +kernel, fun h => absurd h (by decide +kernel)⟩ (eq_getOk _ (by decide +kernel))
theorem e4 : l3.rebalance 10 = .ok (i4.1, l4) := eq_getOk _ _
theorem fits4 : Fits m1 l4 := by unfold Fits; decide +kernel
theorem r4 : Runs m1 l4 := .rebalance 10 r3 e4 fits4 (fun _ _ => noSwap (by decide +kernel))
theorem s0 : Runs [] u0 := .start (Or.inr (Or.inl rfl)) Demo.n0 (eq_getOk _ (by decide +kernel))

end LimitDemo

open StratDemo (m1) in
open LimitDemo in
/-- C106: an order below the tick, and again in a rebalance at the tick 9. -/
example : Runs m1 l1 ∧ l1.init 10 = .ok (i2.1, l2) ∧ Fits m1 l2 ∧ l1.kind = .limitOrder 120 ∧
    l1.limitTick = 0 ∧ l2.positions = [⟨ofNat 167175499, -120, 120⟩, ⟨ofNat 1000300019, -10, 0⟩] ∧ l2.limitTick = -10 ∧
    l2.direction = false ∧
    Runs m1 l3 ∧ l3.rebalance 10 = .ok (some (ofNat 923288, ofNat 2076975), l4) ∧ Fits m1 l4 ∧ l3.kind = .limitOrder 120 ∧
    l3.pool.tick = 9 ∧ l4.positions = [⟨ofNat 167175318, -120, 120⟩, ⟨ofNat 1000529088, -10, 0⟩] ∧ l4.limitTick = -10 ∧
    Runs m1 l4 ∧ l4.burnAll = .ok (i5.1, i5.2) ∧ l4.kind = .limitOrder 120 ∧ i5.2.limitTick = -10 ∧ i5.2.positions = [] :=
  ⟨r1, e2, fits2, by decide +kernel, by decide +kernel, by decide +kernel, by decide +kernel, by decide +kernel,
    r3, by rw [e4, show LimitDemo.i4.1 = some (ofNat 923288, ofNat 2076975) by decide +kernel], fits4, by decide +kernel, by decide +kernel,
    by decide +kernel, by decide +kernel, r4, eq_getOk _ (by decide +kernel), by decide +kernel, by decide +kernel, by decide +kernel⟩

open StratDemo (m1) in
open LimitDemo in
/-- C106: an order above the tick. -/
example : Runs [] u0 ∧ u0.init 10 = .ok (j1.1, j1.2) ∧ Fits [] j1.2 ∧ u0.kind = .limitOrder 120 ∧
    j1.2.positions = [⟨ofNat 167175499, -120, 120⟩, ⟨ofNat 1000300019, 0, 10⟩] ∧ j1.2.limitTick = 10 ∧ j1.2.direction = true :=
  ⟨s0, eq_getOk _ _, by unfold Fits; decide +kernel, by decide +kernel, by decide +kernel, by decide +kernel, by decide +kernel⟩

end Props
end Uni
