import Verif.Spec.Market
import Verif.Spec.Invest
/-! # The same strategy in another pool -/
namespace Uni
namespace Spec
open U256

/-- The positions use different records. -/
def SeparateRecords (ps : List StratPos) : Prop :=
  ps.Pairwise (fun x y => Uni.Pool.posKey x.lower x.upper ≠ Uni.Pool.posKey y.lower y.upper)

/-- Two strategies of the same kind, with the same balances and settings, without positions, in two pools that have the same
tokens and offer the same market.  Everything that happened before - in the pools and to the strategies - may differ. -/
structure SameStart (m m' : List Entry) (s t : Strat) : Prop where
  runs : Runs m s
  runs' : Runs m' t
  none : s.positions = []
  none' : t.positions = []
  alike : Alike s t
  amount0 : s.amount0 = t.amount0
  amount1 : s.amount1 = t.amount1
  token0 : s.pool.token0 = t.pool.token0
  token1 : s.pool.token1 = t.pool.token1
  ranges : ∀ l u, outstanding m l u = outstanding m' l u

/-- `Together m0 m0' s0 t0 m m' s t`: the same calls, made on the strategies `s0` and `t0` and on their pools, lead to `s`
and `t`.  The calls respect the limits of `Runs`, and the positions that `s` opens use different records. -/
inductive Together (m0 m0' : List Entry) (s0 t0 : Strat) : List Entry → List Entry → Strat → Strat → Prop
  | start : Together m0 m0' s0 t0 m0 m0' s0 t0
  | trade {m m' : List Entry} {s t : Strat} {p q : Pool} (fuel : Nat) (op : PoolOp) (hr : Together m0 m0' s0 t0 m m' s t)
      (ho : op.ByOthers m s) (hx : op.exec fuel s.pool = .ok p) (hy : op.exec fuel t.pool = .ok q) :
      Together m0 m0' s0 t0 (op.ledger m) (op.ledger m') { s with pool := p } { t with pool := q }
  | snapshot {m m' : List Entry} {s t s' t' : Strat} (hr : Together m0 m0' s0 t0 m m' s t)
      (hx : s.makeSnapshot = .ok s') (hy : t.makeSnapshot = .ok t') : Together m0 m0' s0 t0 m m' s' t'
  | init {m m' : List Entry} {s t s' t' : Strat} {c d : U256 × U256} (fuel : Nat) (hr : Together m0 m0' s0 t0 m m' s t)
      (hx : s.init fuel = .ok (c, s')) (hf : Fits m s') (hw : MaySwap s c (book m s)) (ha : SeparateRecords s'.positions)
      (hy : t.init fuel = .ok (d, t')) : Together m0 m0' s0 t0 m m' s' t'
  | rebalance {m m' : List Entry} {s t s' t' : Strat} {c d : Option (U256 × U256)} (fuel : Nat)
      (hr : Together m0 m0' s0 t0 m m' s t) (hx : s.rebalance fuel = .ok (c, s')) (hf : Fits m s')
      (hw : ∀ x, c = some x → MaySwap s x m) (ha : SeparateRecords s'.positions)
      (hy : t.rebalance fuel = .ok (d, t')) : Together m0 m0' s0 t0 m m' s' t'
  | burnAll {m m' : List Entry} {s t s' t' : Strat} {c d : U256 × U256} (hr : Together m0 m0' s0 t0 m m' s t)
      (hx : s.burnAll = .ok (c, s')) (he : s'.positions = []) (hy : t.burnAll = .ok (d, t')) :
      Together m0 m0' s0 t0 m m' s' t'

/-- The strategies agree in everything but their pools, and their pools offer the same market. -/
structure SameStanding (m m' : List Entry) (s t : Strat) : Prop where
  kind : s.kind = t.kind
  amount0 : s.amount0 = t.amount0
  amount1 : s.amount1 = t.amount1
  positions : s.positions = t.positions
  tickLower : s.tickLower = t.tickLower
  tickUpper : s.tickUpper = t.tickUpper
  history : s.history = t.history
  fees0 : fees0 s.pool s.positions = fees0 t.pool t.positions
  fees1 : fees1 s.pool s.positions = fees1 t.pool t.positions
  market : SameMarket (book m s) (book m' t) s.pool t.pool

end Spec
end Uni
