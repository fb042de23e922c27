import Verif.Spec.Elsewhere
import Verif.Spec.Executor
/-! # The same run in another pool -/
namespace Uni
namespace Spec
open U256 Uni

/-- Two executions that differ at most in their strategies and pools. -/
structure SameJob (e f : Execution) : Prop where
  start : f.startTime = e.startTime
  finish : f.endTime = e.endTime
  update : f.updateInterval = e.updateInterval
  snapshot : f.snapShotInterval = e.snapShotInterval
  price : f.pricesSnapshotsInterval = e.pricesSnapshotsInterval
  snapshots : f.snapshots = e.snapshots
  txs : f.transactions = e.transactions

/-- At every point of the sequence of events the positions use different records. -/
def AllSeparate (fuel : Nat) (s : Strat) (es : List Event) : Prop :=
  ∀ pre post s1 ws, es = pre ++ post → Trace fuel pre s ws s1 → SeparateRecords s1.positions

end Spec
end Uni
