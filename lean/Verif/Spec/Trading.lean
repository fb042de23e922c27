import Verif.Spec.Solvency
/-! # Sequences of trades -/
namespace Uni
namespace Spec

/-- The operation is a swap. -/
def PoolOp.IsSwap : PoolOp → Prop
  | .exactInput _ _ _ => True
  | .exactOutput _ _ _ => True
  | _ => False

/-- `Trades h p q d0 d1`: a sequence of admissible and safe swaps leads from `p` to `q` (`h` is the ledger of the
liquidity, which swaps do not change); the traders together paid `d0` of token0 and `d1` of token1 for them (negative:
they received). -/
inductive Trades (h : List Entry) (p : Pool) : Pool → Int → Int → Prop
  | none : Trades h p p 0 0
  | swap {q q' : Pool} {d0 d1 : Int} (fuel : Nat) (op : PoolOp) (ht : Trades h p q d0 d1) (hswap : op.IsSwap)
      (ha : op.Admissible q h) (hsafe : op.Safe q) (hx : op.exec fuel q = .ok q') :
      Trades h p q' (d0 + (op.flow fuel q).1) (d1 + (op.flow fuel q).2)

end Spec
end Uni
