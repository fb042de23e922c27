import Verif.Model.PtrPool
import Verif.Spec.Rights
import Verif.Spec.Heap
/-! # A caller of the library, with pointers

A caller holds numbers (`*ui.Int`) and pools (`*Pool`).  It makes numbers, assigns to them, makes pools and clones, and passes its
numbers to the methods of its pools; the numbers the methods return become its numbers as well.  A program of calls names numbers
and pools by their position.  It is run in two worlds: on memory, where numbers and pools are pointers (`onMemory`), and on values,
where no number can influence another number or a pool (`onValues`). -/
namespace Uni
namespace Spec
open InPlace U256

/-- A step of the caller.  `i` is the position of a pool; `price`, `k`, `amount`, `amount0`, `amount1`, `limit` are positions of
numbers. -/
inductive Call where
  | number (v : U256)
  | assign (k : Nat) (v : U256)
  | newPool (token0 token1 : String) (fee : Int) (price : Nat)
  | clone (i : Nat)
  | mint (i : Nat) (lower upper : Int) (amount : Nat)
  | burn (i : Nat) (lower upper : Int) (amount : Nat)
  | mintStrategy (i : Nat) (lower upper : Int) (amount : Nat)
  | burnStrategy (i : Nat) (lower upper : Int) (amount : Nat)
  | collectStrategy (i : Nat) (lower upper : Int)
  | flash (i : Nat) (amount0 amount1 : Nat)
  | exactInput (i : Nat) (amount : Nat) (token : String) (limit : Nat)
  | exactOutput (i : Nat) (amount : Nat) (token : String) (limit : Nat)

/-- What the caller holds, as pointers. -/
structure PWorld where
  pools : List HPool
  nums : List Nat

/-- What the caller holds, as values. -/
structure VWorld where
  pools : List Pool
  nums : List U256

/-- What the pointers show on a heap. -/
def PWorld.view (h : Heap) (w : PWorld) : VWorld := ⟨w.pools.map (HPool.view h), w.nums.map h.cell⟩

/-- The `i`-th element; a panic if there is none. -/
def pick {α : Type} (l : List α) (i : Nat) : Go α :=
  match l[i]? with
  | none => goPanic
  | some a => .ok a

/-- The pool has changed. -/
def PWorld.put (w : PWorld) (i : Nat) (q : HPool) : PWorld := { w with pools := w.pools.set i q }

/-- The pool has changed and two numbers were returned. -/
def PWorld.put2 (w : PWorld) (i : Nat) (r : Nat × Nat × HPool) : PWorld := ⟨w.pools.set i r.2.2, w.nums ++ [r.1, r.2.1]⟩

/-- A step on memory. -/
def Call.onMemory (fuel : Nat) (w : PWorld) : Call → HM PWorld
  | .number v => do
    let x ← new v
    return { w with nums := w.nums ++ [x] }
  | .assign k v => do
    let x ← lift (pick w.nums k)
    store x v
    return w
  | .newPool t0 t1 fee k => do
    let x ← lift (pick w.nums k)
    let q ← Ptr.newPool t0 t1 fee x
    return { w with pools := w.pools ++ [q] }
  | .clone i => do
    let p ← lift (pick w.pools i)
    let q ← Ptr.clonePool p
    return { w with pools := w.pools ++ [q] }
  | .mint i l u a => do
    let p ← lift (pick w.pools i)
    let x ← lift (pick w.nums a)
    let q ← Ptr.mint p l u x
    return w.put i q
  | .burn i l u a => do
    let p ← lift (pick w.pools i)
    let x ← lift (pick w.nums a)
    let q ← Ptr.burn p l u x
    return w.put i q
  | .mintStrategy i l u a => do
    let p ← lift (pick w.pools i)
    let x ← lift (pick w.nums a)
    let r ← Ptr.mintStrategy p l u x
    return w.put2 i r
  | .burnStrategy i l u a => do
    let p ← lift (pick w.pools i)
    let x ← lift (pick w.nums a)
    let r ← Ptr.burnStrategy p l u x
    return w.put2 i r
  | .collectStrategy i l u => do
    let p ← lift (pick w.pools i)
    let r ← Ptr.collectStrategy p l u
    return w.put2 i r
  | .flash i a b => do
    let p ← lift (pick w.pools i)
    let x ← lift (pick w.nums a)
    let y ← lift (pick w.nums b)
    let q ← Ptr.flash p x y
    return w.put i q
  | .exactInput i a t l => do
    let p ← lift (pick w.pools i)
    let x ← lift (pick w.nums a)
    let y ← lift (pick w.nums l)
    let r ← Ptr.exactInputSwap fuel p x t y
    return w.put2 i r
  | .exactOutput i a t l => do
    let p ← lift (pick w.pools i)
    let x ← lift (pick w.nums a)
    let y ← lift (pick w.nums l)
    let r ← Ptr.exactOutputSwap fuel p x t y
    return w.put2 i r

/-- The pool has changed. -/
def VWorld.put (w : VWorld) (i : Nat) (q : Pool) : VWorld := { w with pools := w.pools.set i q }

/-- The pool has changed and two numbers were returned. -/
def VWorld.put2 (w : VWorld) (i : Nat) (r : U256 × U256 × Pool) : VWorld := ⟨w.pools.set i r.2.2, w.nums ++ [r.1, r.2.1]⟩

/-- A step on values: a number changes only if it is assigned to, a pool only by its own methods. -/
def Call.onValues (fuel : Nat) (w : VWorld) : Call → Go VWorld
  | .number v => return { w with nums := w.nums ++ [v] }
  | .assign k v => do
    let _ ← pick w.nums k
    return { w with nums := w.nums.set k v }
  | .newPool t0 t1 fee k => do
    let x ← pick w.nums k
    let q ← Pool.new t0 t1 fee x
    return { w with pools := w.pools ++ [q] }
  | .clone i => do
    let p ← pick w.pools i
    return { w with pools := w.pools ++ [p.clone] }
  | .mint i l u a => do
    let p ← pick w.pools i
    let x ← pick w.nums a
    let q ← p.mint l u x
    return w.put i q
  | .burn i l u a => do
    let p ← pick w.pools i
    let x ← pick w.nums a
    let q ← p.burn l u x
    return w.put i q
  | .mintStrategy i l u a => do
    let p ← pick w.pools i
    let x ← pick w.nums a
    let r ← p.mintStrategy l u x
    return w.put2 i r
  | .burnStrategy i l u a => do
    let p ← pick w.pools i
    let x ← pick w.nums a
    let r ← p.burnStrategy l u x
    return w.put2 i r
  | .collectStrategy i l u => do
    let p ← pick w.pools i
    let r ← p.collectStrategy l u
    return w.put2 i r
  | .flash i a b => do
    let p ← pick w.pools i
    let x ← pick w.nums a
    let y ← pick w.nums b
    let q ← p.flash x y
    return w.put i q
  | .exactInput i a t l => do
    let p ← pick w.pools i
    let x ← pick w.nums a
    let y ← pick w.nums l
    let r ← p.exactInputSwap fuel x t y
    return w.put2 i r
  | .exactOutput i a t l => do
    let p ← pick w.pools i
    let x ← pick w.nums a
    let y ← pick w.nums l
    let r ← p.exactOutputSwap fuel x t y
    return w.put2 i r

/-- A program of calls on memory. -/
def runMemory (fuel : Nat) : List Call → PWorld → HM PWorld
  | [], w => return w
  | a :: l, w => do
    let w' ← a.onMemory fuel w
    runMemory fuel l w'

/-- A program of calls on values. -/
def runCalls (fuel : Nat) : List Call → VWorld → Go VWorld
  | [], w => return w
  | a :: l, w => do
    let w' ← a.onValues fuel w
    runCalls fuel l w'

/-- Whenever the program clones a pool, that pool has no ticks at that time (see C34 for what happens otherwise). -/
def UntickedClones (fuel : Nat) : List Call → VWorld → Prop
  | [], _ => True
  | a :: l, w => (∀ i p, a = .clone i → w.pools[i]? = some p → p.ticks.ticks = []) ∧
      ∀ w', a.onValues fuel w = .ok w' → UntickedClones fuel l w'

/-- A number that is given to a new pool as its price is never assigned to: the pool keeps the pointer. -/
def PricesKept (l : List Call) : Prop :=
  ∀ k v, Call.assign k v ∈ l → ∀ t0 t1 fee, Call.newPool t0 t1 fee k ∉ l

/-- The package-level numbers and the table of prices are in memory. -/
structure Loaded (h : Heap) : Prop where
  room : Ptr.constEnd ≤ h.next
  zero : h.cell Ptr.zeroAt = zero
  one : h.cell Ptr.oneAt = one
  maxUint256 : h.cell Ptr.maxUint256At = Cons.maxUint256
  q128 : h.cell Ptr.q128At = Cons.q128
  q96 : h.cell Ptr.q96At = Cons.q96
  q192 : h.cell Ptr.q192At = Cons.q192
  maxUint160 : h.cell Ptr.maxUint160At = SqrtPriceMath.maxUint160
  maxFee : h.cell Ptr.maxFeeAt = SwapMath.maxFee
  minSqrtRatio : h.cell Ptr.minSqrtRatioAt = TickMath.minSqrtRatio
  maxSqrtRatio : h.cell Ptr.maxSqrtRatioAt = TickMath.maxSqrtRatio
  table : ∀ i v, TickMath.ticksAt i = .ok v → h.cell (Ptr.tableAt i) = v

/-- The caller may read the package-level numbers and may use numbers made from now on; it may not touch any other number. -/
def callerRights (h : Heap) : Rights := ⟨h.next, fun x => x < Ptr.constEnd, fun _ => False⟩

end Spec
end Uni
