import Verif.Model.Pool
import Verif.Spec.Ledger
/-! # Histories of pool operations -/
namespace Uni
namespace Spec

/-- The exported operations that change a pool. -/
inductive PoolOp where
  | mint (lower upper : Int) (amount : U256)
  | burn (lower upper : Int) (amount : U256)
  | mintStrategy (lower upper : Int) (amount : U256)
  | burnStrategy (lower upper : Int) (amount : U256)
  | collectStrategy (lower upper : Int)
  | flash (amount0 amount1 : U256)
  | exactInput (amount : U256) (token : String) (limit : U256)
  | exactOutput (amount : U256) (token : String) (limit : U256)

/-- Run one operation on the model.  `fuel` bounds the iterations of the swap loop. -/
def PoolOp.exec (fuel : Nat) (p : Pool) : PoolOp → Go Pool
  | .mint l u a => p.mint l u a
  | .burn l u a => p.burn l u a
  | .mintStrategy l u a => do let r ← p.mintStrategy l u a; return r.2.2
  | .burnStrategy l u a => do let r ← p.burnStrategy l u a; return r.2.2
  | .collectStrategy l u => do let r ← p.collectStrategy l u; return r.2.2
  | .flash a b => p.flash a b
  | .exactInput a t l => do let r ← p.exactInputSwap fuel a t l; return r.2.2
  | .exactOutput a t l => do let r ← p.exactOutputSwap fuel a t l; return r.2.2

/-- The ledger after an operation. -/
def PoolOp.ledger (h : List Entry) : PoolOp → List Entry
  | .mint l u a => ⟨l, u, a.toNat⟩ :: h
  | .mintStrategy l u a => ⟨l, u, a.toNat⟩ :: h
  | .burn l u a => if a.toNat = 0 then h else ⟨l, u, -a.toNat⟩ :: h
  | .burnStrategy l u a => if a.toNat = 0 then h else ⟨l, u, -a.toNat⟩ :: h
  | _ => h

/-- What callers have to respect: the total liquidity stays below `2^128`, nobody burns more than was minted, `Burn(0)`
is only used on a range that holds liquidity, and the amounts given to swaps are below `2^160`.  Ranges need not be
aligned to the tick spacing (the pool does not check it and some strategies use such ranges); but nobody sells token0
at a tick where the downward search is wrong and would skip a boundary (`ClearAbove`), which can only happen at negative
ticks and only with boundaries that are not aligned. -/
def PoolOp.Admissible (p : Pool) (h : List Entry) : PoolOp → Prop
  | .mint _ _ a => total h + a.toNat < 2 ^ 128
  | .mintStrategy _ _ a => total h + a.toNat < 2 ^ 128
  | .burn l u a => (a.toNat : Int) ≤ outstanding h l u ∧ 0 < outstanding h l u
  | .burnStrategy l u a => (a.toNat : Int) ≤ outstanding h l u
  | .collectStrategy _ _ => True
  | .flash _ _ => True
  | .exactInput a t _ => a.toInt < 2 ^ 160 ∧ (t = p.token0 → ClearAbove p.spacing p.tick h)
  | .exactOutput a t _ => a.toInt < 2 ^ 160 ∧ (t = p.token1 → ClearAbove p.spacing p.tick h)

/-- `Reaches p₀ h p`: some sequence of admissible operations, none of which panicked, leads from the pool `p₀` to the
pool `p`, and `h` is the ledger of its liquidity changes. -/
inductive Reaches (p0 : Pool) : List Entry → Pool → Prop
  | start : Reaches p0 [] p0
  | step {h : List Entry} {p p' : Pool} (fuel : Nat) (op : PoolOp) (hr : Reaches p0 h p)
      (ha : op.Admissible p h) (hx : op.exec fuel p = .ok p') : Reaches p0 (op.ledger h) p'

end Spec
end Uni
