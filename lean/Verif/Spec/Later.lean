import Verif.Spec.Returns
/-! # What a run reads of its input -/
namespace Uni
namespace Spec
open U256 Uni

/-- What a trader pays into the pool: the amount of token0 (`true`) if it is positive, else the amount of token1 if it is. -/
def paidIn (t : Transaction) : Option (Bool × U256) :=
  if 0 < t.amount0.toInt then some (true, t.amount0)
  else if 0 < t.amount1.toInt then some (false, t.amount1)
  else none

/-- Two transactions of the same type that agree in what a transaction of this type is about: the range and the liquidity of
a mint or burn, the amounts of a flash, the amount paid in of a swap.  Nothing is said about the identifier, the price, the
tick and the number format of the records, and nothing about transactions of any other type. -/
structure SameDeal (t u : Transaction) : Prop where
  type : u.type = t.type
  range : t.type = "Mint" ∨ t.type = "Burn" → u.tickLower = t.tickLower ∧ u.tickUpper = t.tickUpper ∧ u.amount = t.amount
  flash : t.type = "Flash" → u.amount0 = t.amount0 ∧ u.amount1 = t.amount1
  swap : t.type = "Swap" → paidIn u = paidIn t

/-- The execution `f` is the execution `e` with all times moved by `k`. -/
structure Moved (k : Int) (e f : Execution) : Prop where
  strategy : f.strategy = e.strategy
  snapshots : f.snapshots = e.snapshots
  update : f.updateInterval = e.updateInterval
  snapshot : f.snapShotInterval = e.snapShotInterval
  price : f.pricesSnapshotsInterval = e.pricesSnapshotsInterval
  start : f.startTime = e.startTime + k
  finish : f.endTime = e.endTime + k
  txs : List.Forall₂ (fun t u => u.timestamp = t.timestamp + k ∧ SameDeal t u) e.transactions f.transactions

/-- Both runs have the same outcome: they fail in the same way, or both return, with the same values and the same strategy
on the same pool. -/
def SameOutcome (fuel : Nat) (e f : Execution) : Prop :=
  match e.run fuel, f.run fuel with
  | .ok r, .ok q => q.snapshots = r.snapshots ∧ q.strategy = r.strategy
  | .error x, .error y => y = x
  | _, _ => False

/-- The times of all transactions are later than the number of transactions times the price interval. -/
def LatePrices (e : Execution) : Prop :=
  ∀ t ∈ e.transactions, e.transactions.length * e.pricesSnapshotsInterval < t.timestamp

end Spec
end Uni
