import Verif.Spec.Strategy
/-! # Vocabulary of the positions that provide active liquidity -/
namespace Uni
namespace Spec
open U256 Uni

/-- The liquidity of those of the positions whose range contains the tick `t`. -/
def earning (ps : List StratPos) (t : Int) : Nat := (ps.map (fun q => if q.lower ≤ t ∧ t < q.upper then q.amount.toNat else 0)).sum

/-- `Follows k w`: the main range of a strategy of kind `k` reaches from `w` ticks below to `w` ticks above the tick at
which it opens it, each time it opens positions. -/
def Follows : Kind → Int → Prop
  | .aroundPrice w, v => w = v
  | .twoInterval w _, v => w = v
  | .fillUp w, v => w = v
  | .limitOrder w, v => w = v
  | _, _ => False

end Spec
end Uni
