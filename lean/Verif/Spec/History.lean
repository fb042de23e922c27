import Verif.Spec.Returns
import Verif.Spec.Prices
/-! # The prices a strategy has seen -/
namespace Uni
namespace Spec
open U256 Uni

/-- The number of prices a strategy remembers, if it does. -/
def memory : Kind → Option Int
  | .aroundAverage _ n => some n
  | .bollinger n _ => some n
  | .bollingerFillUp n _ => some n
  | .volatilitySized n _ => some n
  | _ => none

/-- Events lead from `s` to `s'`; `xs` are the prices of the pool at the price snapshots among them, in their order. -/
inductive Sees (fuel : Nat) : List Event → Strat → List U256 → Strat → Prop
  | nil {s : Strat} : Sees fuel [] s [] s
  | price {es : List Event} {s s1 s' : Strat} {xs : List U256} (h : Event.price.Does fuel s [] s1) (ht : Sees fuel es s1 xs s') :
      Sees fuel (.price :: es) s (s.pool.price :: xs) s'
  | other {e : Event} {es : List Event} {s s1 s' : Strat} {vs xs : List U256} (hn : e ≠ .price) (h : e.Does fuel s vs s1)
      (ht : Sees fuel es s1 xs s') : Sees fuel (e :: es) s xs s'

/-- The last `n` prices, or all if there are fewer. -/
def latest (n : Nat) (xs : List U256) : List U256 := xs.drop (xs.length - n)

/-- The sum of the squares. -/
def squareSum (xs : List U256) : Nat := (xs.map fun x => x.toNat ^ 2).sum

end Spec
end Uni
