import Verif.Spec.PoolHistory
import Verif.Spec.Ticks
/-! # Vocabulary of the pool properties -/
namespace Uni
namespace Spec
open U256

/-- `p` is a pool that was created with one of the three listed fees and changed by admissible operations only;
`h` is the ledger of its liquidity changes. -/
def Reachable (h : List Entry) (p : Pool) : Prop :=
  ∃ (a b : String) (fee : Int) (price : U256) (p0 : Pool), (fee = 500 ∨ fee = 3000 ∨ fee = 10000) ∧
    Pool.new a b fee price = .ok p0 ∧ Reaches p0 h p

/-- The price of a tick (properties C14-C16 say which number this is; zero outside the global tick range). -/
def tickPrice (t : Int) : Nat :=
  match TickMath.getSqrtRatioAtTick t with
  | .ok r => r.toNat
  | .error _ => 0

/-- The smallest and the largest price. -/
def minPrice : Nat := 4295128739
def maxPrice : Nat := 1461446703485210103287273052203988822378723970342

/-- The price limit of a swap: limit zero stands for the last price inside the global range. -/
def swapLimit (zeroForOne : Bool) (limit : U256) : Nat :=
  if limit.toNat = 0 then (if zeroForOne then minPrice + 1 else maxPrice - 1) else limit.toNat

/-- The limit lies strictly between the current price and the end of the global range. -/
def LimitValid (p : Pool) (zeroForOne : Bool) (limit : U256) : Prop :=
  if zeroForOne then minPrice < swapLimit zeroForOne limit ∧ swapLimit zeroForOne limit < p.price.toNat
  else p.price.toNat < swapLimit zeroForOne limit ∧ swapLimit zeroForOne limit < maxPrice

/-- `r` is what the trader pays (positive) or receives (negative) of the token they sell, respectively buy. -/
def sold (zeroForOne : Bool) (r : U256 × U256 × Pool) : Int := if zeroForOne then r.1.toInt else r.2.1.toInt
def bought (zeroForOne : Bool) (r : U256 × U256 × Pool) : Int := if zeroForOne then r.2.1.toInt else r.1.toInt

end Spec
end Uni
