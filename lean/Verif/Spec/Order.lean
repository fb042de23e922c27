import Verif.Spec.Heap
import Verif.Spec.Total
/-! # Liquidity changes between two trades -/
namespace Uni
namespace Spec
open U256 TickData _root_.Uni.Pool

/-- A change of liquidity: `amount` is added to or removed from the range `[lower, upper)`, with the calls that keep a
position record (`record`) or with those that do not. -/
structure Change where
  add : Bool
  record : Bool
  lower : Int
  upper : Int
  amount : U256

/-- The call that carries out a change. -/
def Change.op (c : Change) : PoolOp :=
  match c.add, c.record with
  | true, false => .mint c.lower c.upper c.amount
  | false, false => .burn c.lower c.upper c.amount
  | true, true => .mintStrategy c.lower c.upper c.amount
  | false, true => .burnStrategy c.lower c.upper c.amount

/-- Two changes do not use one position record for two different ranges (C31 says when this could happen). -/
def Apart (c d : Change) : Prop :=
  c.record = true → d.record = true → posKey c.lower c.upper = posKey d.lower d.upper →
    c.lower = d.lower ∧ c.upper = d.upper

/-- All liquidity in the changes. -/
def amounts (cs : List Change) : Int := (cs.map fun c => (c.amount.toNat : Int)).sum

/-- The liquidity in the changes of one range. -/
def amountsOn (l u : Int) (cs : List Change) : Int :=
  (cs.map fun c => if c.lower = l ∧ c.upper = u then (c.amount.toNat : Int) else 0).sum

/-- The changes one after the other. -/
def carryOut (fuel : Nat) (cs : List Change) (p : Pool) : Go Pool := runAlone fuel (cs.map Change.op) p

/-- The two parts and the whole fit: added liquidity stays in range, removed liquidity was there. -/
def PartsFit (h : List Entry) (c : Change) (b : U256) : Prop :=
  if c.add = true then total h + c.amount.toNat + b.toNat < 2 ^ 128
  else (c.amount.toNat : Int) + b.toNat ≤ outstanding h c.lower c.upper

end Spec
end Uni
