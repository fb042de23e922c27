import Verif.Spec.Cash
/-! # Histories in which every unit of liquidity has an owner -/
namespace Uni
namespace Spec
open U256 _root_.Uni.Pool

/-- All liquidity is minted and burned through position records (plain mints leave no record of who owns the fees), and no
swap asks for an exact amount of the token under consideration (token0 if `token0`): a negative amount asks for the other
token than the one that is sold. -/
def PoolOp.Owned (token0 : Bool) (p : Pool) : PoolOp → Prop
  | .mint _ _ _ => False
  | .burn _ _ _ => False
  | .exactInput a t _ => 0 ≤ a.toInt ∨ decide (t = p.token0) = token0
  | .exactOutput a t _ => 0 ≤ a.toInt ∨ decide (t = p.token1) = token0
  | _ => True

/-- The number of places at which an operation rounds: the iterations of a swap (at most `k` if it returns with `k + 1`
units of fuel), one for a flash loan and for a change of liquidity, none for a collect. -/
def PoolOp.rounds (k : Nat) : PoolOp → Nat
  | .exactInput _ _ _ => k
  | .exactOutput _ _ _ => k
  | .collectStrategy _ _ => 0
  | _ => 1

/-- As `Cash`, but every unit of liquidity has an owner, and the pool never holds `2^128` or more of the token under
consideration; `n` counts the roundings. -/
inductive Kept (token0 : Bool) (rs : List (Int × Int)) (p0 : Pool) : List Entry → Pool → Int → Int → Nat → Prop
  | start : Kept token0 rs p0 [] p0 0 0 0
  | step {h : List Entry} {p p' : Pool} {b0 b1 : Int} {n : Nat} (k : Nat) (op : PoolOp) (hr : Kept token0 rs p0 h p b0 b1 n)
      (ha : op.Admissible p h) (hsafe : op.Safe p) (hfair : op.Fair rs p h) (hown : op.Owned token0 p)
      (hx : op.exec (k + 1) p = .ok p')
      (hb : (if token0 then b0 + (op.cash (k + 1) p).1 else b1 + (op.cash (k + 1) p).2) < 2 ^ 128) :
      Kept token0 rs p0 (op.ledger h) p' (b0 + (op.cash (k + 1) p).1) (b1 + (op.cash (k + 1) p).2) (n + op.rounds k)

end Spec
end Uni
