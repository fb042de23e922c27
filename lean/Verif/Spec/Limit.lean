import Verif.Spec.Pool
import Verif.Spec.Strategy
/-! # Vocabulary for price limits -/
namespace Uni
namespace Spec
open U256 Uni

/-- The price at which a swap stops at the latest: its limit, or for the limit zero the last price inside the global
range. -/
def stopAt (zeroForOne : Bool) (limit : U256) : Nat :=
  if limit.toNat = 0 then (if zeroForOne then minPrice + 1 else maxPrice - 1) else limit.toNat

/-- `b` is at least as far as `a` in the direction of the swap: lower if token0 is sold, higher otherwise. -/
def Beyond (zeroForOne : Bool) (a b : Nat) : Prop := if zeroForOne then b ≤ a else a ≤ b

end Spec
end Uni
