import Verif.Proofs.Together
import Verif.Props.Strategy
/-! # What a strategy earns depends on the market, not on its history -/
namespace Uni
namespace Props
open U256 Pool Spec

/-- C107: two strategies of the same kind, with the same balances, start in two pools that offer the same market, however these
pools and strategies got there.  The same calls - swaps, mints, burns and flash loans of others, price snapshots, `Init`,
`Rebalance` and `BurnAll` - are made on both.  Then the two agree after every call: same balances, same positions, same fees
pending, same price history; and the two pools still offer the same market. -/
theorem C107_history {m0 m0' m m' : List Entry} {s0 t0 s t : Strat} (h0 : SameStart m0 m0' s0 t0)
    (h : Together m0 m0' s0 t0 m m' s t) : SameStanding m m' s t := by
  have hp := Strat.together_pair h0 h
  obtain ⟨f0, f1⟩ := Strat.even_fees hp.even
  exact ⟨hp.alike.kind, hp.amount0, hp.amount1, hp.pos, hp.alike.tickLower, hp.alike.tickUpper, hp.alike.history,
    by rw [f0, hp.pos], by rw [f1, hp.pos], hp.market⟩

/-- C107: `Rebalance` reports the same amounts in both. -/
theorem C107_rebalance {m0 m0' m m' : List Entry} {s0 t0 s t s' t' : Strat} {fuel : Nat} {c d : Option (U256 × U256)}
    (h0 : SameStart m0 m0' s0 t0) (h : Together m0 m0' s0 t0 m m' s t) (hx : s.rebalance fuel = .ok (c, s')) (hf : Fits m s')
    (hw : ∀ x, c = some x → MaySwap s x m) (ha : SeparateRecords s'.positions) (hy : t.rebalance fuel = .ok (d, t')) : c = d :=
  (Strat.rebalance_pair (Strat.together_pair h0 h) hf hw ha hx hy).1

/-- C107: `BurnAll` pays the same amounts in both. -/
theorem C107_burnAll {m0 m0' m m' : List Entry} {s0 t0 s t s' t' : Strat} {c d : U256 × U256}
    (h0 : SameStart m0 m0' s0 t0) (h : Together m0 m0' s0 t0 m m' s t) (hx : s.burnAll = .ok (c, s')) (hy : t.burnAll = .ok (d, t')) :
    c = d := Strat.burnAll_pays (Strat.together_pair h0 h) hx hy

/-- C107: the valuation of the two strategies ends the same way, with the same amounts. -/
theorem C107_value {m0 m0' m m' : List Entry} {s0 t0 s t : Strat} (h0 : SameStart m0 m0' s0 t0)
    (h : Together m0 m0' s0 t0 m m' s t) : s.getAmounts = t.getAmounts := by
  have hp := Strat.together_pair h0 h
  unfold Strat.getAmounts
  rw [hp.alike.kind, hp.alike.price, hp.pos, hp.amount0, hp.amount1]

/-! ### A concrete pair -/

namespace ElsewhereDemo
open StratDemo (mintOp swapOp m1 f1 f2 f3 f4 f5)

/-- The other pool: the same deposit in two parts, the larger one first, and a flash loan between them. -/
def partA : PoolOp := .mint (-600) 600 (ofNat 30000000)
def loan : PoolOp := .flash (ofNat 900000) (ofNat 70000)
def partB : PoolOp := .mint (-600) 600 (ofNat 20000000)
def mB : List Entry := [⟨-600, 600, 20000000⟩, ⟨-600, 600, 30000000⟩]
def t0 : Strat := getOk (Strat.new (.fillUp 120) (ofNat 1000000) (ofNat 2000000) Demo.p0) (by decide +kernel)
def ta : Strat := { t0 with pool := getOk (partA.exec 10 t0.pool) (by decide +kernel) }
def tb : Strat := { ta with pool := getOk (loan.exec 10 ta.pool) (by decide +kernel) }
def t1 : Strat := { tb with pool := getOk (partB.exec 10 tb.pool) (by decide +kernel) }
def k2 : (U256 × U256) × Strat := getOk (t1.init 10) (by decide +kernel)
def t2 : Strat := k2.2
def t3 : Strat := { t2 with pool := getOk (swapOp.exec 10 t2.pool) (by decide +kernel) }
def k4 : Option (U256 × U256) × Strat := getOk (t3.rebalance 10) (by decide +kernel)
def t4 : Strat := k4.2
def k5 : (U256 × U256) × Strat := getOk t4.burnAll (by decide +kernel)
def t5 : Strat := k5.2

theorem q0 : Runs [] t0 := .start (Or.inr (Or.inl rfl)) Demo.n0 (eq_getOk _ (by decide +kernel))
theorem qa : Runs [⟨-600, 600, 30000000⟩] ta := .trade 10 partA q0
  (show total (book [] t0) + ((ofNat 30000000).toNat : Int) < 2 ^ 128 by decide +kernel) (eq_getOk _ (by decide +kernel))
theorem qb : Runs [⟨-600, 600, 30000000⟩] tb := .trade 10 loan qa trivial (eq_getOk _ (by decide +kernel))
theorem q1 : Runs mB t1 := .trade 10 partB qb
  (show total (book [⟨-600, 600, 30000000⟩] tb) + ((ofNat 20000000).toNat : Int) < 2 ^ 128 by decide +kernel) (eq_getOk _ (by decide +kernel))

theorem same : SameStart m1 mB f1 t1 := by
  refine ⟨StratDemo.r1, q1, by decide +kernel, by decide +kernel, ⟨by decide +kernel, by decide +kernel, by decide +kernel, ?_,
    by decide +kernel, by decide +kernel, by decide +kernel⟩, by decide +kernel, by decide +kernel, by decide +kernel, by decide +kernel, ?_⟩
  · rfl
  · intro l u
    by_cases a : (-600 : Int) = l ∧ (600 : Int) = u
    · obtain ⟨rfl, rfl⟩ := a; decide +kernel
    · simp [outstanding, wsum, m1, mB, a]

theorem apart2 : SeparateRecords f2.positions := StratDemo.distinct.1
theorem apart4 : SeparateRecords f4.positions := StratDemo.distinct.2

theorem g2 : Together m1 mB f1 t1 m1 mB f2 t2 := .init 10 .start StratDemo.e2 StratDemo.fits2 (StratDemo.noSwap (by decide +kernel)) apart2
  (eq_getOk _ _)
theorem g3 : Together m1 mB f1 t1 m1 mB f3 t3 := .trade 10 swapOp g2 ⟨by decide +kernel, fun h => absurd h (by decide +kernel)⟩
  (eq_getOk _ (by decide +kernel)) (eq_getOk _ (by decide +kernel))
theorem g4 : Together m1 mB f1 t1 m1 mB f4 t4 := .rebalance 10 g3 StratDemo.e4 StratDemo.fits4
  (fun _ _ => StratDemo.noSwap (by decide +kernel)) apart4 (eq_getOk _ _)
theorem g5 : Together m1 mB f1 t1 m1 mB f5 t5 := .burnAll g4 StratDemo.e5 (by decide +kernel) (eq_getOk _ _)

end ElsewhereDemo

open StratDemo (m1 f1 f3 f5) in
open ElsewhereDemo in
/-- C107: the fees that accrued before the start differ; the strategies go on alike through an `Init`, a swap that earns fees,
a rebalance and the liquidation. -/
example : SameStart m1 mB f1 t1 ∧ Together m1 mB f1 t1 m1 mB f3 t3 ∧ Together m1 mB f1 t1 m1 mB f5 t5 ∧
    f3.pool.growth0 ≠ t3.pool.growth0 ∧ fees1 f3.pool f3.positions = 230 ∧ StratDemo.f4.burnAll = .ok (StratDemo.i5.1, f5) ∧
    t4.burnAll = .ok (k5.1, t5) :=
  ⟨same, g3, g5, by decide +kernel, by decide +kernel, StratDemo.e5, eq_getOk _ _⟩

end Props
end Uni
