import Verif.Spec.Pool
/-! # What a trader can see of a pool -/
namespace Uni
namespace Spec

/-- Two pools offer the same market: same fee rate, price and tick, and the same liquidity outstanding in every range.
Their histories, their fee growth and the fees recorded for their positions may differ. -/
structure SameMarket (h h' : List Entry) (p q : Pool) : Prop where
  fee : p.fee = q.fee
  price : p.price = q.price
  tick : p.tick = q.tick
  ranges : ∀ l u, outstanding h l u = outstanding h' l u

/-- Two calls end the same way: both return and their results are related by `R`, or both fail with the same error. -/
def SameEnd {α β : Type} (R : α → β → Prop) : Go α → Go β → Prop
  | .ok a, .ok b => R a b
  | .error e, .error e' => e = e'
  | _, _ => False

end Spec
end Uni
