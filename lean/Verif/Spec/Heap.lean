import Verif.Model.Heap
import Verif.Model.Strategy
import Verif.Spec.PoolHistory
/-! # Several pools, used in turns

A schedule says, step by step, which pool is used and how.  It is run in two worlds: on one heap, where the pools hold
pointers (`HWorld`), and on a list of pool values that cannot influence each other (`run`). -/
namespace Uni
namespace Spec

/-- One step: an operation on the `i`-th pool, or a clone of the `i`-th pool, which becomes the last pool of the list. -/
inductive Act where
  | op (i : Nat) (o : PoolOp)
  | clone (i : Nat)

/-- Run one operation of a pool that lives on a heap.  (The swaps are `ExactInputSwap` and `ExactOutputSwap`,
`/repo/lib/pool/pool.go:209-236`.) -/
def PoolOp.execOn (fuel : Nat) (h : Heap) (p : HPool) : PoolOp → Go (Heap × HPool)
  | .mint l u a => p.mint h l u a
  | .burn l u a => p.burn h l u a
  | .mintStrategy l u a => do let r ← p.mintStrategy h l u a; return r.2.2
  | .burnStrategy l u a => do let r ← p.burnStrategy h l u a; return r.2.2
  | .collectStrategy l u => do let r ← p.collectStrategy h l u; return r.2.2
  | .flash a b => p.flash h a b
  | .exactInput a t l => do let r ← HPool.swap fuel h p (decide (t = p.token0)) a l; return r.2.2
  | .exactOutput a t l => do let r ← HPool.swap fuel h p (decide (t = p.token1)) a l; return r.2.2

/-- Pools that live on one heap. -/
structure HWorld where
  heap : Heap
  pools : List HPool

/-- What the pools show. -/
def HWorld.view (w : HWorld) : List Pool := w.pools.map (HPool.view w.heap)

/-- One step on the heap.  Using a pool that does not exist is a panic. -/
def HWorld.act (fuel : Nat) (w : HWorld) : Act → Go HWorld
  | .op i o => match w.pools[i]? with
    | none => goPanic
    | some p => do
      let r ← o.execOn fuel w.heap p
      return ⟨r.1, w.pools.set i r.2⟩
  | .clone i => match w.pools[i]? with
    | none => goPanic
    | some p => .ok ⟨(p.clone w.heap).1, w.pools ++ [(p.clone w.heap).2]⟩

/-- A schedule on the heap. -/
def HWorld.run (fuel : Nat) : List Act → HWorld → Go HWorld
  | [], w => .ok w
  | a :: l, w => do
    let w' ← w.act fuel a
    HWorld.run fuel l w'

/-- One step on values: an operation changes the `i`-th pool and no other, a clone is a copy. -/
def Act.onValues (fuel : Nat) (w : List Pool) : Act → Go (List Pool)
  | .op i o => match w[i]? with
    | none => goPanic
    | some p => do
      let p' ← o.exec fuel p
      return w.set i p'
  | .clone i => match w[i]? with
    | none => goPanic
    | some p => .ok (w ++ [p.clone])

/-- A schedule on values. -/
def runValues (fuel : Nat) : List Act → List Pool → Go (List Pool)
  | [], w => .ok w
  | a :: l, w => do
    let w' ← a.onValues fuel w
    runValues fuel l w'

/-- Whenever the schedule clones a pool, that pool has no ticks at that time. -/
def ClonesUnticked (fuel : Nat) : List Act → List Pool → Prop
  | [], _ => True
  | a :: l, w => (∀ i p, a = .clone i → w[i]? = some p → p.ticks.ticks = []) ∧
      ∀ w', a.onValues fuel w = .ok w' → ClonesUnticked fuel l w'

/-- The operations of a schedule on the `i`-th pool, in order. -/
def opsOf (i : Nat) : List Act → List PoolOp
  | [] => []
  | .op j o :: l => if j = i then o :: opsOf i l else opsOf i l
  | .clone _ :: l => opsOf i l

/-- A sequence of operations on one pool, with nobody else around. -/
def runAlone (fuel : Nat) : List PoolOp → Pool → Go Pool
  | [], p => .ok p
  | o :: l, p => do
    let p' ← o.exec fuel p
    runAlone fuel l p'

end Spec
end Uni
