import Verif.Spec.Strategy
import Verif.Spec.Trading
import Verif.Spec.SwapPath
/-! # Values at a price -/
namespace Uni
namespace Spec
open U256 Uni

/-- The value of `x0` of token0 and `x1` of token1 in token1, at the square root price `P / 2^96`. -/
def value (P : Nat) (x0 x1 : ℚ) : ℚ := x0 * ((P : ℚ) / 2 ^ 96) ^ 2 + x1

/-- The same for a pair of amounts. -/
def valueOf (P : U256) (c : U256 × U256) : ℚ := value P.toNat c.1.toNat c.2.toNat

/-- The strategy without positions has called `Init`, or it has called `Rebalance`: it held `c`, opened all its positions
with that and is now `s'`. -/
def Invests (fuel : Nat) (s : Strat) (c : U256 × U256) (s' : Strat) : Prop :=
  (s.positions = [] ∧ s.init fuel = .ok (c, s')) ∨ s.rebalance fuel = .ok (some c, s')

/-- `Later m s m' s'`: the strategy state `s` becomes `s'` by operations of others on the pool and by price records; the ledger
of the others changes from `m` to `m'`. -/
inductive Later (m : List Entry) (s : Strat) : List Entry → Strat → Prop
  | now : Later m s m s
  | trade {m' : List Entry} {t : Strat} {p' : Pool} (fuel : Nat) (op : PoolOp) (h : Later m s m' t)
      (ho : op.ByOthers m' t) (hx : op.exec fuel t.pool = .ok p') : Later m s (op.ledger m') { t with pool := p' }
  | snapshot {m' : List Entry} {t t' : Strat} (h : Later m s m' t) (hx : t.makeSnapshot = .ok t') : Later m s m' t'

end Spec
end Uni
