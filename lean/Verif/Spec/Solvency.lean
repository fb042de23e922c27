import Verif.Spec.Pool
import Verif.Spec.Amounts
/-! # Books: what the pool holds and what it owes -/
namespace Uni
namespace Spec
open U256

/-- Token0 contained in one unit of liquidity of the range `[l, u)` at the price `P` (exact). -/
def holding0 (P : Nat) (l u : Int) : ℚ := exact0 (clamp P (tickPrice l) (tickPrice u)) (tickPrice u) 1
/-- The same for token1. -/
def holding1 (P : Nat) (l u : Int) : ℚ := exact1 (tickPrice l) (clamp P (tickPrice l) (tickPrice u)) 1

/-- The principal of all outstanding positions at the price `P`, token0 and token1 (exact). -/
def principal0 (h : List Entry) (P : Nat) : ℚ := wsum (holding0 P) h
def principal1 (h : List Entry) (P : Nat) : ℚ := wsum (holding1 P) h

/-- Tokens (token0, token1) that an operation on `p` moves into the pool; negative: out of the pool.  `MintStrategy`,
`BurnStrategy` and the swaps report their amounts; a burn counts as paid out although it is collected later.  The plain
`Mint` and `Burn` report nothing: they are taken to pay the exact amounts rounded up and to receive them rounded down.
Fees of flash loans and collected fees are left out here (see `cash`). -/
def PoolOp.flow (fuel : Nat) (p : Pool) : PoolOp → Int × Int
  | .mintStrategy l u a => match p.mintStrategy l u a with
    | .ok r => (r.1.toNat, r.2.1.toNat)
    | .error _ => (0, 0)
  | .burnStrategy l u a => match p.burnStrategy l u a with
    | .ok r => (-r.1.toNat, -r.2.1.toNat)
    | .error _ => (0, 0)
  | .exactInput a t l => match p.exactInputSwap fuel a t l with
    | .ok r => (r.1.toInt, r.2.1.toInt)
    | .error _ => (0, 0)
  | .exactOutput a t l => match p.exactOutputSwap fuel a t l with
    | .ok r => (r.1.toInt, r.2.1.toInt)
    | .error _ => (0, 0)
  | .mint l u a => (⌈a.toNat * holding0 p.price.toNat l u⌉, ⌈a.toNat * holding1 p.price.toNat l u⌉)
  | .burn l u a => (-⌊a.toNat * holding0 p.price.toNat l u⌋, -⌊a.toNat * holding1 p.price.toNat l u⌋)
  | .collectStrategy _ _ => (0, 0)
  | .flash _ _ => (0, 0)

/-- The operation does not sell token0 at a tick at which the downward tick search is broken. -/
def PoolOp.Safe (p : Pool) : PoolOp → Prop
  | .exactInput _ t _ => t = p.token0 → ¬ SearchBroken p.spacing p.tick
  | .exactOutput _ t _ => t = p.token1 → ¬ SearchBroken p.spacing p.tick
  | _ => True

/-- `Books p₀ h p b0 b1`: a sequence of admissible and safe operations leads from `p₀` to `p`; `h` is the ledger of the
liquidity changes, `b0` and `b1` are the tokens paid in minus the tokens paid out. -/
inductive Books (p0 : Pool) : List Entry → Pool → Int → Int → Prop
  | start : Books p0 [] p0 0 0
  | step {h : List Entry} {p p' : Pool} {b0 b1 : Int} (fuel : Nat) (op : PoolOp) (hr : Books p0 h p b0 b1)
      (ha : op.Admissible p h) (hsafe : op.Safe p) (hx : op.exec fuel p = .ok p') :
      Books p0 (op.ledger h) p' (b0 + (op.flow fuel p).1) (b1 + (op.flow fuel p).2)

end Spec
end Uni
