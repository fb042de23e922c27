import Verif.Model.Strategy
/-! # The executor (`lib/executor`)

Timestamps and intervals are Go `int`s (64 bits); they are `Int`s here and sums wrap as in Go (`addInt`). -/
namespace Uni
open U256 FullMath Cons

/-- Go's `+` on 64-bit `int`: it wraps. -/
def addInt (a b : Int) : Int := (a + b).bmod (2 ^ 64)

/-- Go's `-` on 64-bit `int`: it wraps. -/
def subInt (a b : Int) : Int := (a - b).bmod (2 ^ 64)

/-- `math.MaxInt64`. -/
def maxInt64 : Int := 2 ^ 63 - 1

/-- `/repo/lib/transaction/transaction.go:23-35` `Transaction`. -/
structure Transaction where
  type : String
  amount : U256
  amount0 : U256
  amount1 : U256
  id : String
  sqrtPrice : U256
  tick : Int
  tickLower : Int
  tickUpper : Int
  timestamp : Int
  useX96 : Bool
  deriving DecidableEq, Repr

/-- `/repo/lib/executor/executor.go:107-120` the `switch` that applies a transaction to the pool. -/
def Transaction.apply (fuel : Nat) (t : Transaction) (p : Pool) : Go Pool :=
  if t.type = "Mint" then p.mint t.tickLower t.tickUpper t.amount
  else if t.type = "Burn" then p.burn t.tickLower t.tickUpper t.amount
  else if t.type = "Swap" then
    if t.amount0.sign > 0 then do
      let r ← p.exactInputSwap fuel t.amount0 p.token0 zero
      return r.2.2
    else if t.amount1.sign > 0 then do
      let r ← p.exactInputSwap fuel t.amount1 p.token1 zero
      return r.2.2
    else .ok p
  else if t.type = "Flash" then p.flash t.amount0 t.amount1
  else .ok p

/-- `/repo/lib/executor/executor.go:12-21` `Execution`. -/
structure Execution where
  strategy : Strat
  startTime : Int
  endTime : Int
  updateInterval : Int
  snapShotInterval : Int
  pricesSnapshotsInterval : Int
  snapshots : List U256
  transactions : List Transaction

/-- The local variables of `Run` (`/repo/lib/executor/executor.go:42-50`); `snapshots` is the field of the execution. -/
structure RunState where
  strategy : Strat
  started : Bool
  nextUpdate : Int
  nextSnapshot : Int
  nextPrice : Int
  snapshots : List U256

namespace Execution

/-- `/repo/lib/executor/executor.go:23-40` `CreateExecution`.  The capacity of the snapshot slice is computed with an index
expression and a division, both of which can panic, and a negative capacity makes `make` panic; a capacity that is too
large for the machine is not modelled. -/
def create (strategy : Strat) (startTime endTime updateInterval snapShotInterval priceSnapshotInterval : Int)
    (transactions : List Transaction) : Go Execution := do
  let last ← idx transactions (transactions.length - 1)
  if updateInterval = 0 then goPanic
  else
    if (subInt last.timestamp startTime).tdiv updateInterval < 0 then goPanic
    else return { strategy, startTime, endTime, updateInterval, snapShotInterval,
                  pricesSnapshotsInterval := priceSnapshotInterval, snapshots := [], transactions }

/-- `/repo/lib/executor/executor.go:65-68,94-97,124-127` the value of two amounts in token0. -/
def usd (amounts : U256 × U256) (price : U256) : Go U256 := do
  let x ← mulDiv amounts.2 q192 (mul price price)
  return add x amounts.1

/-- `/repo/lib/executor/executor.go:61-74` start the strategy. -/
def startIf (e : Execution) (fuel : Nat) (t : Transaction) (st : RunState) : Go RunState :=
  if !st.started && decide (t.timestamp ≥ e.startTime) then do
    let r ← st.strategy.init fuel
    let v ← usd r.1 r.2.pool.price
    return { st with strategy := r.2, snapshots := st.snapshots ++ [v],
                     nextUpdate := addInt t.timestamp e.updateInterval,
                     nextSnapshot := addInt t.timestamp e.snapShotInterval, started := true }
  else .ok st

/-- `/repo/lib/executor/executor.go:86-89` price snapshot. -/
def priceIf (e : Execution) (t : Transaction) (st : RunState) : Go RunState :=
  if t.timestamp > st.nextPrice then do
    let s ← st.strategy.makeSnapshot
    return { st with strategy := s, nextPrice := addInt st.nextPrice e.pricesSnapshotsInterval }
  else .ok st

/-- `/repo/lib/executor/executor.go:92-100` value snapshot. -/
def valueIf (e : Execution) (t : Transaction) (st : RunState) : Go RunState :=
  if t.timestamp ≥ st.nextSnapshot then do
    let c ← st.strategy.getAmounts
    let v ← usd c st.strategy.pool.price
    return { st with snapshots := st.snapshots ++ [v], nextSnapshot := addInt st.nextSnapshot e.snapShotInterval }
  else .ok st

/-- `/repo/lib/executor/executor.go:103-106` rebalance. -/
def rebalanceIf (e : Execution) (fuel : Nat) (t : Transaction) (st : RunState) : Go RunState :=
  if t.timestamp ≥ st.nextUpdate then do
    let r ← st.strategy.rebalance fuel
    return { st with strategy := r.2, nextUpdate := addInt st.nextUpdate e.updateInterval }
  else .ok st

/-- `/repo/lib/executor/executor.go:107-120` the transaction itself. -/
def applyTrans (fuel : Nat) (t : Transaction) (st : RunState) : Go RunState := do
  let p ← t.apply fuel st.strategy.pool
  return { st with strategy := { st.strategy with pool := p } }

/-- `/repo/lib/executor/executor.go:60-120` the body of the loop after the test for the end time.  `pool` and
`strategy.GetPool()` are the same object throughout (no strategy replaces its pool). -/
def step (e : Execution) (fuel : Nat) (t : Transaction) (st : RunState) : Go RunState := do
  let s1 ← e.startIf fuel t st
  let s2 ← e.priceIf t s1
  let s3 ← e.valueIf t s2
  let s4 ← e.rebalanceIf fuel t s3
  applyTrans fuel t s4

/-- `/repo/lib/executor/executor.go:54-121` the loop. -/
def loop (e : Execution) (fuel : Nat) : List Transaction → RunState → Go RunState
  | [], st => .ok st
  | t :: ts, st =>
    if t.timestamp > e.endTime then .ok st
    else do
      let st' ← e.step fuel t st
      e.loop fuel ts st'

/-- `/repo/lib/executor/executor.go:48-52` the variables before the loop. -/
def initial (e : Execution) : RunState :=
  { strategy := e.strategy, started := false, nextUpdate := maxInt64, nextSnapshot := maxInt64, nextPrice := 0,
    snapshots := e.snapshots }

/-- `/repo/lib/executor/executor.go:42-130` `Run`. -/
def run (e : Execution) (fuel : Nat) : Go Execution := do
  let st ← e.loop fuel e.transactions e.initial
  let b ← st.strategy.burnAll
  let v ← usd b.1 b.2.pool.price
  return { e with strategy := b.2, snapshots := st.snapshots ++ [v] }

end Execution
end Uni
