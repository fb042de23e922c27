import Verif.Spec.PoolHistory
/-! # Deeper markets -/
namespace Uni
namespace Spec

/-- The pools have the same fee rate, price and tick, and in every range the second has at least the liquidity of the first. -/
structure Deeper (h h' : List Entry) (p q : Pool) : Prop where
  fee : p.fee = q.fee
  price : p.price = q.price
  tick : p.tick = q.tick
  ranges : ∀ l u, outstanding h l u ≤ outstanding h' l u

/-- The operations that are not swaps and take no liquidity out, and those that put none in. -/
def PoolOp.Adds : PoolOp → Prop
  | .mint _ _ _ => True
  | .mintStrategy _ _ _ => True
  | .collectStrategy _ _ => True
  | .flash _ _ => True
  | _ => False
def PoolOp.Removes : PoolOp → Prop
  | .burn _ _ _ => True
  | .burnStrategy _ _ _ => True
  | .collectStrategy _ _ => True
  | .flash _ _ => True
  | _ => False

/-- A sequence of operations of one kind leads from the pool `p` with the ledger `h` to the pool and ledger given. -/
inductive Through (kind : PoolOp → Prop) (h : List Entry) (p : Pool) : List Entry → Pool → Prop
  | start : Through kind h p h p
  | step {h' : List Entry} {q q' : Pool} (fuel : Nat) (op : PoolOp) (hr : Through kind h p h' q)
      (ha : op.Admissible q h') (ho : kind op) (hx : op.exec fuel q = .ok q') : Through kind h p (op.ledger h') q'

end Spec
end Uni
