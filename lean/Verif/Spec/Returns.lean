import Verif.Spec.Executor
import Verif.Spec.Start
import Verif.Spec.Sale
/-! # When a run returns -/
namespace Uni
namespace Spec
open U256 Uni

/-- The value of the amounts `c` at the square root price `P` can be computed: there is no token1, or the square of the
price (in 256 bits) is not zero and the quotient by it is not too long. -/
def Valuable (c : U256 × U256) (P : U256) : Prop :=
  c.2.toNat = 0 ∨ (P.toNat * P.toNat % 2 ^ 256 ≠ 0 ∧ ¬ TooLong (c.2.toNat * 2 ^ 192) (P.toNat * P.toNat % 2 ^ 256))

/-- If the event records a value, the value can be computed. -/
def Event.Valued (fuel : Nat) (s : Strat) : Event → Prop
  | .init => ∀ c s', s.init fuel = .ok (c, s') → Valuable c s'.pool.price
  | .value => ∀ c, s.getAmounts = .ok c → Valuable c s.pool.price
  | _ => True

/-- All values recorded by the events, from `s` on, can be computed. -/
def AllValued (fuel : Nat) (s : Strat) (es : List Event) : Prop :=
  ∀ pre ev post s1 ws, es = pre ++ ev :: post → Trace fuel pre s ws s1 → ev.Valued fuel s1

/-- The event fails with `x` (it panics or runs for ever): the call fails, or the value to record cannot be computed. -/
def Event.Fails (fuel : Nat) (s : Strat) (x : Err) : Event → Prop
  | .init => s.init fuel = .error x ∨ ∃ c s', s.init fuel = .ok (c, s') ∧ ¬ Valuable c s'.pool.price ∧ x = .panic
  | .price => s.makeSnapshot = .error x
  | .value => s.getAmounts = .error x ∨ ∃ c, s.getAmounts = .ok c ∧ ¬ Valuable c s.pool.price ∧ x = .panic
  | .rebalance => s.rebalance fuel = .error x
  | .apply t => ∃ op, opOf t s.pool = some op ∧ op.exec fuel s.pool = .error x

/-- The end of a run fails with `x`. -/
def EndFails (s : Strat) (x : Err) : Prop :=
  s.burnAll = .error x ∨ ∃ c s', s.burnAll = .ok (c, s') ∧ ¬ Valuable c s'.pool.price ∧ x = .panic

/-- The strategy keeps a history of prices. -/
def KeepsPrices : Kind → Prop
  | .aroundAverage _ _ | .bollinger _ _ | .bollingerFillUp _ _ | .volatilitySized _ _ => True
  | _ => False

/-- Two executions that differ only in their end time, their transactions and the values recorded so far. -/
structure SameSetup (e f : Execution) : Prop where
  strategy : e.strategy = f.strategy
  start : e.startTime = f.startTime
  update : e.updateInterval = f.updateInterval
  snapshot : e.snapShotInterval = f.snapShotInterval
  price : e.pricesSnapshotsInterval = f.pricesSnapshotsInterval

end Spec
end Uni
