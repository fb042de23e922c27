import Verif.Spec.Growth
/-! # Collecting the fees of a position, again and again -/
namespace Uni
namespace Spec
open U256

/-- The two calls that pay out the fees of the position on `[l, u)` and leave its liquidity alone: `BurnStrategy` with the
amount 0, which credits the fees, and `CollectStrategy`. -/
def harvest (l u : Int) (p : Pool) : Go (U256 × U256 × Pool) := do
  let b ← p.burnStrategy l u zero
  b.2.2.collectStrategy l u

/-- The owner of a position collects the fees, or somebody else uses the pool. -/
inductive HarvestEvent where
  | harvest
  | other (fuel : Nat) (op : PoolOp)

/-- What the others do, in order. -/
def others : List HarvestEvent → List (Nat × PoolOp)
  | [] => []
  | .harvest :: es => others es
  | .other fuel op :: es => (fuel, op) :: others es

/-- How often the owner collects. -/
def harvests : List HarvestEvent → Nat
  | [] => 0
  | .harvest :: es => harvests es + 1
  | .other _ _ :: es => harvests es

/-- `Holds l u h p es log h' p' r0 r1`: the events `es` lead from the pool `p` (ledger `h`) to `p'` (ledger `h'`), with the
accruals `log`; the owner of the position on `[l, u)` has received `r0` and `r1`.  The others leave that position alone. -/
inductive Holds (l u : Int) (h : List Entry) (p : Pool) : List HarvestEvent → List Accrual → List Entry → Pool → Nat → Nat → Prop
  | start : Holds l u h p [] [] h p 0 0
  | other {es : List HarvestEvent} {log : List Accrual} {h1 : List Entry} {p1 p2 : Pool} {r0 r1 : Nat} (fuel : Nat) (op : PoolOp)
      (hr : Holds l u h p es log h1 p1 r0 r1) (hal : op.LeavesAlone l u) (ha : op.Admissible p1 h1)
      (hx : op.exec fuel p1 = .ok p2) :
      Holds l u h p (es ++ [.other fuel op]) (log ++ op.log fuel p1 p2) (op.ledger h1) p2 r0 r1
  | harvest {es : List HarvestEvent} {log : List Accrual} {h1 : List Entry} {p1 p2 : Pool} {r0 r1 : Nat} {c0 c1 : U256}
      (hr : Holds l u h p es log h1 p1 r0 r1) (hx : harvest l u p1 = .ok (c0, c1, p2)) :
      Holds l u h p (es ++ [.harvest]) log h1 p2 (r0 + c0.toNat) (r1 + c1.toNat)

/-- The growths of the fees per unit of liquidity in `[l, u)`, in units of `2^-128`, added up as numbers. -/
def grown0 (l u : Int) (log : List Accrual) : Nat := (log.map fun e => if l ≤ e.tick ∧ e.tick < u then e.d0.toNat else 0).sum
def grown1 (l u : Int) (log : List Accrual) : Nat := (log.map fun e => if l ≤ e.tick ∧ e.tick < u then e.d1.toNat else 0).sum

/-- What a position with the liquidity `L` is due that was owed `o`, after a growth of `g`: rounded down once. -/
def due (o L : U256) (g : Nat) : Nat := o.toNat + L.toNat * g / 2 ^ 128

end Spec
end Uni
