import Verif.Spec.Pool
import Verif.Spec.Arith
/-! # What a swap does not reach -/
namespace Uni
namespace Spec

/-- A swap that starts at `tick` and ends at the price `P` has nothing to do with the range from `l` to `u`: a sale of token0
starts below the range or ends above it, a purchase starts above it (at or above its upper tick, which does not belong to
it) or ends below it. -/
def Misses (zeroForOne : Bool) (tick : Int) (P : Nat) (l u : Int) : Prop :=
  if zeroForOne then tick < l ∨ tickPrice u < P else u ≤ tick ∨ P < tickPrice l

/-- The pools have the same fee rate, price and tick, and the same liquidity outstanding in every range that the swap from there to the
price `P` does not miss. -/
structure SameReached (zeroForOne : Bool) (P : Nat) (h h' : List Entry) (p q : Pool) : Prop where
  fee : p.fee = q.fee
  price : p.price = q.price
  tick : p.tick = q.tick
  ranges : ∀ l u, outstanding h l u = outstanding h' l u ∨ Misses zeroForOne p.tick P l u

/-- The swaps that turned `p` into the pool of `r` and `q` into the pool of `r'` are the same trade: the same amounts of both
tokens, the same price, tick and active liquidity afterwards, and the same fees per unit of liquidity (modulo `2^256`, as the
code counts them). -/
structure SameTrade (p q : Pool) (r r' : U256 × U256 × Pool) : Prop where
  amount0 : r.1 = r'.1
  amount1 : r.2.1 = r'.2.1
  price : r.2.2.price = r'.2.2.price
  tick : r.2.2.tick = r'.2.2.tick
  liquidity : r.2.2.liquidity = r'.2.2.liquidity
  growth0 : U256.sub r.2.2.growth0 p.growth0 = U256.sub r'.2.2.growth0 q.growth0
  growth1 : U256.sub r.2.2.growth1 p.growth1 = U256.sub r'.2.2.growth1 q.growth1

/-- An operation that is not a swap and changes liquidity only in a range that the swap misses. -/
def PoolOp.Aside (zeroForOne : Bool) (tick : Int) (P : Nat) : PoolOp → Prop
  | .mint l u _ => Misses zeroForOne tick P l u
  | .burn l u _ => Misses zeroForOne tick P l u
  | .mintStrategy l u _ => Misses zeroForOne tick P l u
  | .burnStrategy l u _ => Misses zeroForOne tick P l u
  | .collectStrategy _ _ => True
  | .flash _ _ => True
  | .exactInput _ _ _ => False
  | .exactOutput _ _ _ => False

/-- A sequence of such operations leads from the pool `p` with the ledger `h` to the pool and ledger given. -/
inductive Elsewhere (zeroForOne : Bool) (tick : Int) (P : Nat) (h : List Entry) (p : Pool) : List Entry → Pool → Prop
  | start : Elsewhere zeroForOne tick P h p h p
  | step {h' : List Entry} {q q' : Pool} (fuel : Nat) (op : PoolOp) (hr : Elsewhere zeroForOne tick P h p h' q)
      (ha : op.Admissible q h') (ho : op.Aside zeroForOne tick P) (hx : op.exec fuel q = .ok q') :
      Elsewhere zeroForOne tick P h p (op.ledger h') q'

end Spec
end Uni
