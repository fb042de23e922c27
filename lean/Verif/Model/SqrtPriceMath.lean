import Verif.Model.FullMath
/-! # `lib/sqrtprice_math` -/
namespace Uni
namespace SqrtPriceMath
open U256 FullMath

/-- `/repo/lib/sqrtprice_math/sqrtprice_math.go:10` `MaxUint160`. -/
def maxUint160 : U256 := sub (exp (ofWord 2) (ofWord 160)) one

/-- `/repo/lib/sqrtprice_math/sqrtprice_math.go:12-15` `multiplyIn256`. -/
def multiplyIn256 (x y : U256) : U256 := U256.and (mul x y) Cons.maxUint256

/-- `/repo/lib/sqrtprice_math/sqrtprice_math.go:17-20` `addIn256`. -/
def addIn256 (x y : U256) : U256 := U256.and (add x y) Cons.maxUint256

/-- `/repo/lib/sqrtprice_math/sqrtprice_math.go:23-25` (and the same lines of the other functions): order the two
prices. -/
def order (a b : U256) : U256 × U256 := if cmp a b > 0 then (b, a) else (a, b)

/-- `/repo/lib/sqrtprice_math/sqrtprice_math.go:22-37` `GetAmount0Delta`. -/
def getAmount0Delta (a b liquidity : U256) (roundUp : Bool) : Go U256 :=
  let ab := order a b
  let numerator1 := lsh liquidity 96
  let numerator2 := sub ab.2 ab.1
  if roundUp then do
    let x ← mulDivRoundingUp numerator1 numerator2 ab.2
    mulDivRoundingUp x one ab.1
  else do
    let res ← mulDiv numerator1 numerator2 ab.2
    div res ab.1

/-- `/repo/lib/sqrtprice_math/sqrtprice_math.go:39-51` `GetAmount1Delta`. -/
def getAmount1Delta (a b liquidity : U256) (roundUp : Bool) : Go U256 :=
  let ab := order a b
  if roundUp then mulDivRoundingUp liquidity (sub ab.2 ab.1) Cons.q96
  else mulDiv liquidity (sub ab.2 ab.1) Cons.q96

/-- `/repo/lib/sqrtprice_math/sqrtprice_math.go:72-93` `getNextSqrtPriceFromAmount0RoundingUp`.  Go parameter
`add` is called `plus`. -/
def getNextSqrtPriceFromAmount0RoundingUp (p liquidity amount : U256) (plus : Bool) : Go U256 :=
  if amount.isZero then .ok p
  else
    let numerator1 := lsh liquidity 96
    if plus then do
      let product := multiplyIn256 amount p
      let q ← div product amount
      let denominator := addIn256 numerator1 product
      if eq q p && decide (cmp denominator numerator1 ≥ 0) then
        mulDivRoundingUp numerator1 p denominator
      else do
        let d ← div numerator1 p
        mulDivRoundingUp numerator1 one (add d amount)
    else
      let product := multiplyIn256 amount p
      let denominator := sub numerator1 product
      mulDivRoundingUp numerator1 p denominator

/-- `/repo/lib/sqrtprice_math/sqrtprice_math.go:95-109` `getNextSqrtPriceFromAmount1RoundingDown`. -/
def getNextSqrtPriceFromAmount1RoundingDown (p liquidity amount : U256) (plus : Bool) : Go U256 :=
  if plus then
    if cmp amount maxUint160 ≤ 0 then do
      let quotient ← div (lsh amount 96) liquidity
      return add p quotient
    else do
      let quotient ← div (mul amount Cons.q96) liquidity
      return add p quotient
  else do
    let quotient ← mulDivRoundingUp amount Cons.q96 liquidity
    return sub p quotient

/-- `/repo/lib/sqrtprice_math/sqrtprice_math.go:53-60` `GetNextSqrtPriceFromInput`. -/
def getNextSqrtPriceFromInput (p liquidity amountIn : U256) (zeroForOne : Bool) : Go U256 := do
  invariant (decide (sign p = 1))
  invariant (decide (sign liquidity = 1))
  if zeroForOne then getNextSqrtPriceFromAmount0RoundingUp p liquidity amountIn true
  else getNextSqrtPriceFromAmount1RoundingDown p liquidity amountIn true

/-- `/repo/lib/sqrtprice_math/sqrtprice_math.go:62-70` `GetNextSqrtPriceFromOutput`. -/
def getNextSqrtPriceFromOutput (p liquidity amountOut : U256) (zeroForOne : Bool) : Go U256 := do
  invariant (decide (sign p = 1))
  invariant (decide (sign liquidity = 1))
  if zeroForOne then getNextSqrtPriceFromAmount1RoundingDown p liquidity amountOut false
  else getNextSqrtPriceFromAmount0RoundingUp p liquidity amountOut false

/-- `/repo/lib/sqrtprice_math/sqrtprice_math.go:111-117` `GetAmount0DeltaRounded`. -/
def getAmount0DeltaRounded (a b liquidity : U256) : Go U256 :=
  if sign liquidity = -1 then do
    let x ← getAmount0Delta a b (neg liquidity) false
    return neg x
  else getAmount0Delta a b liquidity true

/-- `/repo/lib/sqrtprice_math/sqrtprice_math.go:119-125` `GetAmount1DeltaRounded`. -/
def getAmount1DeltaRounded (a b liquidity : U256) : Go U256 :=
  if sign liquidity = -1 then do
    let x ← getAmount1Delta a b (neg liquidity) false
    return neg x
  else getAmount1Delta a b liquidity true

end SqrtPriceMath
end Uni
