import Verif.Model.PtrStrategy
import Verif.Spec.Rights
/-! # Simulations that share their inputs

`main` creates one pool, two starting amounts and one list of transactions, and every simulation gets pointers to these
(`/repo/main.go:51-84`).  `onMemory` is what the program does with the pointers; `onValues` is the same for values, where nothing can
be shared. -/
namespace Uni
namespace Spec
open InPlace U256

/-- The parameters of one simulation. -/
structure Job where
  kind : Kind
  startTime : Int
  endTime : Int
  updateInterval : Int
  snapShotInterval : Int
  priceSnapshotInterval : Int

/-- What the simulations share, as pointers: the price of the new pool, the starting amounts, the transactions. -/
structure PInputs where
  token0 : String
  token1 : String
  fee : Int
  price : Nat
  amount0 : Nat
  amount1 : Nat
  transactions : List Ptr.HTrans

/-- The same as values. -/
structure VInputs where
  token0 : String
  token1 : String
  fee : Int
  price : U256
  amount0 : U256
  amount1 : U256
  transactions : List Transaction

def PInputs.view (h : Heap) (x : PInputs) : VInputs :=
  ⟨x.token0, x.token1, x.fee, h.cell x.price, h.cell x.amount0, h.cell x.amount1, x.transactions.map (Ptr.HTrans.view h)⟩

/-- The pointers of the inputs point into memory. -/
structure PInputs.InMemory (h : Heap) (x : PInputs) : Prop where
  price : x.price < h.next
  amount0 : x.amount0 < h.next
  amount1 : x.amount1 < h.next
  transactions : ∀ t ∈ x.transactions, t.amount < h.next ∧ t.amount0 < h.next ∧ t.amount1 < h.next ∧ t.sqrtPrice < h.next

/-- One simulation from a pool: construct the strategy, create the execution, run it. -/
def Job.onMemory (fuel : Nat) (x : PInputs) (pool : HPool) (j : Job) : HM Ptr.HExec := do
  let s ← Ptr.newStrat j.kind x.amount0 x.amount1 pool
  let e ← lift (Ptr.create s j.startTime j.endTime j.updateInterval j.snapShotInterval j.priceSnapshotInterval x.transactions)
  Ptr.run e fuel

def Job.onValues (fuel : Nat) (x : VInputs) (pool : Pool) (j : Job) : Go Execution := do
  let s ← Strat.new j.kind x.amount0 x.amount1 pool
  let e ← Execution.create s j.startTime j.endTime j.updateInterval j.snapShotInterval j.priceSnapshotInterval x.transactions
  e.run fuel

/-- Several simulations, one after the other, from the same pool. -/
def jobsOnMemory (fuel : Nat) (x : PInputs) (pool : HPool) : List Job → HM (List Ptr.HExec)
  | [] => return []
  | j :: js => do
    let e ← j.onMemory fuel x pool
    let es ← jobsOnMemory fuel x pool js
    return e :: es

def jobsOnValues (fuel : Nat) (x : VInputs) (pool : Pool) : List Job → Go (List Execution)
  | [] => .ok []
  | j :: js => do
    let e ← j.onValues fuel x pool
    let es ← jobsOnValues fuel x pool js
    return e :: es

/-- Create the pool, then run the simulations. -/
def simulateMemory (fuel : Nat) (x : PInputs) (js : List Job) : HM (List Ptr.HExec) := do
  let pool ← Ptr.newPool x.token0 x.token1 x.fee x.price
  jobsOnMemory fuel x pool js

def simulateValues (fuel : Nat) (x : VInputs) (js : List Job) : Go (List Execution) := do
  let pool ← Pool.new x.token0 x.token1 x.fee x.price
  jobsOnValues fuel x pool js

/-- Everything that exists may be read; nothing that exists may be written. -/
def readOnly (h : Heap) : Rights := ⟨h.next, fun x => x < h.next, fun _ => False⟩

end Spec
end Uni
