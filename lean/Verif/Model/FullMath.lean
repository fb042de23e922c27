import Verif.Model.U256
/-! # `lib/constants`, `lib/fullmath`, `lib/invariant` -/
namespace Uni

namespace Cons
/-- `/repo/lib/constants/constants.go:9` `NegativeOne`: `FromBig(-1)` is 2^256-1 (see `Props/Conversion`). -/
def negativeOne : U256 := U256.allOne
/-- `/repo/lib/constants/constants.go:12` `MaxUint256`. -/
def maxUint256 : U256 := U256.allOne
/-- `/repo/lib/constants/constants.go:14` `Q128`. -/
def q128 : U256 := U256.ofNat (2 ^ 128)
/-- `/repo/lib/constants/constants.go:15` `Q96` = Exp(2, 96). -/
def q96 : U256 := U256.exp (U256.ofWord 2) (U256.ofWord 96)
/-- `/repo/lib/constants/constants.go:16` `Q192` = Exp(Q96, 2). -/
def q192 : U256 := U256.exp q96 (U256.ofWord 2)
/-- `/repo/lib/constants/constants.go:17` `E6` = Exp(10, 6). -/
def e6 : U256 := U256.exp (U256.ofWord 10) (U256.ofWord 6)
/-- `/repo/lib/constants/constants.go:18` `E18` = Exp(10, 18). -/
def e18 : U256 := U256.exp (U256.ofWord 10) (U256.ofWord 18)
/-- `/repo/lib/constants/constants.go:21-25` `TickSpaces`: a missing key gives 0. -/
def tickSpaces (fee : Int) : Int :=
  if fee = 500 then 10 else if fee = 3000 then 60 else if fee = 10000 then 200 else 0
end Cons

namespace FullMath
open U256

/-- `/repo/lib/fullmath/fullmath.go:8-21` `MulDivRoundingUp`.  `quotient` is a five-word buffer whose first
four words are the result. -/
def mulDivRoundingUp (a b denominator : U256) : Go U256 :=
  if a.isZero || b.isZero then .ok (ofWord 0)
  else do
    let r ← udivrem [0, 0, 0, 0, 0] (umul a b) denominator
    let result := ofWords (r.1.take 4)
    return if !r.2.isZero then add result one else result

/-- `/repo/lib/fullmath/fullmath.go:23-33` `MulDiv`. -/
def mulDiv (a b denominator : U256) : Go U256 :=
  if a.isZero || b.isZero then .ok (ofWord 0)
  else do
    let r ← udivrem [0, 0, 0, 0, 0] (umul a b) denominator
    return ofWords (r.1.take 4)

end FullMath
end Uni
