import Verif.Spec.Pool
/-! # Fee accruals

Every fee the pool takes is added to the two global growths while the current tick has some value.  An accrual
records that tick and the two increments. -/
namespace Uni
namespace Spec
open U256 Pool

/-- While the current tick was `tick` the global growths increased by `d0` and `d1` (modulo `2^256`). -/
structure Accrual where
  tick : Int
  d0 : U256
  d1 : U256

/-- The accruals of the iterations of a swap: one per iteration, at the tick the iteration starts from, of the token
that is sold. -/
def swapLog (p : Pool) (zeroForOne exactInput : Bool) (limit : U256) : Nat → SwapState → List Accrual
  | 0, _ => []
  | fuel + 1, s =>
    if running limit s then
      match swapStep p zeroForOne exactInput limit s with
      | .ok s' =>
        { tick := s.tick, d0 := if zeroForOne then sub s'.growth s.growth else zero,
          d1 := if zeroForOne then zero else sub s'.growth s.growth } :: swapLog p zeroForOne exactInput limit fuel s'
      | .error _ => []
    else []

/-- The accruals of a swap call. -/
def callLog (fuel : Nat) (p : Pool) (zeroForOne : Bool) (amount limit : U256) : List Accrual :=
  swapLog p zeroForOne (decide (amount.toInt ≥ 0)) (effLimit zeroForOne limit) fuel (initState p zeroForOne amount)

/-- The accruals of an operation that leads from `p` to `p'`. -/
def PoolOp.log (fuel : Nat) (p p' : Pool) : PoolOp → List Accrual
  | .flash _ _ => [{ tick := p.tick, d0 := sub p'.growth0 p.growth0, d1 := sub p'.growth1 p.growth1 }]
  | .exactInput a t l => callLog fuel p (decide (t = p.token0)) a l
  | .exactOutput a t l => callLog fuel p (decide (t = p.token1)) a l
  | _ => []

/-- The increment of the growth when the fee `f` is shared by `liq` units of liquidity: `f / liq`, in units of
`2^-128`, rounded down; nothing if there is no liquidity. -/
def feePerUnit (f : Nat) (liq : Int) : U256 := if liq = 0 then zero else ofNat (f * 2 ^ 128 / liq.toNat)

/-- The accrual `e` is the fee `f`, taken in the token that is sold and shared by the liquidity active at its tick
(`h` is the ledger of liquidity changes). -/
def FeeOf (h : List Entry) (z : Bool) (e : Accrual) (f : Nat) : Prop :=
  (if z then e.d0 else e.d1) = feePerUnit f (active h e.tick) ∧ (if z then e.d1 else e.d0) = zero

/-- The sum (modulo `2^256`) of the increments of token0 at ticks in `[l, u)`. -/
def accrued0 (l u : Int) (log : List Accrual) : U256 :=
  log.foldr (fun e acc => if l ≤ e.tick ∧ e.tick < u then add e.d0 acc else acc) zero

/-- The same for token1. -/
def accrued1 (l u : Int) (log : List Accrual) : U256 :=
  log.foldr (fun e acc => if l ≤ e.tick ∧ e.tick < u then add e.d1 acc else acc) zero

/-- The sum of all increments of token0. -/
def accruedAll0 (log : List Accrual) : U256 := log.foldr (fun e acc => add e.d0 acc) zero

/-- The same for token1. -/
def accruedAll1 (log : List Accrual) : U256 := log.foldr (fun e acc => add e.d1 acc) zero

/-- A tick is initialized if the pool has an entry for it. -/
def Pool.Initialized (p : Pool) (i : Int) : Prop := (lookup p.ticks.ticks i).isSome = true

/-- A continuation of a history: admissible operations allowed by `allowed` lead from `p` (ledger `h`) to `p'`
(ledger `h'`) while every state on the way satisfies `keep`; `log` lists the fees accrued on the way. -/
inductive Evolves (allowed : PoolOp → Prop) (keep : Pool → Prop) (h : List Entry) (p : Pool) :
    List Accrual → List Entry → Pool → Prop
  | refl (hk : keep p) : Evolves allowed keep h p [] h p
  | step {log : List Accrual} {h1 : List Entry} {p1 p2 : Pool} (fuel : Nat) (op : PoolOp)
      (hr : Evolves allowed keep h p log h1 p1) (hal : allowed op) (ha : op.Admissible p1 h1)
      (hx : op.exec fuel p1 = .ok p2) (hk : keep p2) :
      Evolves allowed keep h p (log ++ op.log fuel p1 p2) (op.ledger h1) p2

/-- The operation does not use the position record of the range `[l, u)` and does not take liquidity out of it behind
the record's back with a plain burn.  (C31 says which ranges share a record.) -/
def PoolOp.LeavesAlone (l u : Int) : PoolOp → Prop
  | .mintStrategy a b _ => posKey a b ≠ posKey l u
  | .burnStrategy a b _ => posKey a b ≠ posKey l u
  | .collectStrategy a b => posKey a b ≠ posKey l u
  | .burn a b _ => ¬ (a = l ∧ b = u)
  | _ => True

/-- The share of `liq` units of liquidity in a growth of `g` (in units of `2^-128` per unit), rounded down. -/
def share (liq g : U256) : U256 := ofNat (liq.toNat * g.toNat / 2 ^ 128)

end Spec
end Uni
