import Verif.Model.Conversion
/-! # Price history (`lib/prices/prices.go`) -/
namespace Uni
open U256

/-- `/repo/lib/prices/prices.go:9-13` `Prices`. -/
structure Prices where
  prices : List U256
  index : Int
  length : Int
  deriving DecidableEq

namespace Prices

/-- `/repo/lib/prices/prices.go:15-21` `NewPrices`; `make` panics on a negative length. -/
def new (len : Int) : Go Prices :=
  if len < 0 then .error .panic else .ok ⟨List.replicate len.toNat (ofWord 0), 0, len⟩

/-- `/repo/lib/prices/prices.go:23-34` `Add`.  Go's `%` panics on a zero divisor. -/
def add (p : Prices) (price : U256) : Go Prices := do
  let priceSquareX192 := mul price price
  let shifted := rsh priceSquareX192 230
  invariant shifted.isZero
  let prices ← setIdx p.prices p.index priceSquareX192
  if p.length = 0 then .error .panic
  else return { p with prices := prices, index := (p.index + 1).tmod p.length }

/-- `/repo/lib/prices/prices.go:36-43` `Average`. -/
def average (p : Prices) : Go U256 :=
  let sum := p.prices.foldl (fun sum price => U256.add sum price) zero
  let length := ofWord (BitVec.ofInt 64 p.length)
  div sum length

/-- `/repo/lib/prices/prices.go:49-57` the loop of `Volatility`. -/
def squares (avg : U256) : List U256 → Int → Go Int
  | [], sum => .ok sum
  | price :: rest, sum => do
    let diff := U256.abs (sub price avg)
    let diffBig := toBig diff
    invariant (decide (0 ≤ diffBig))
    squares avg rest (sum + diffBig * diffBig)

/-- `/repo/lib/prices/prices.go:46-67` `Volatility`.  `big.Int.Div` is Euclidean division and panics on zero,
`big.Int.Sqrt` is the floor of the square root. -/
def volatility (p : Prices) : Go U256 := do
  let avg ← p.average
  let sum ← squares avg p.prices 0
  let nMinus1 := p.length - 1
  if nMinus1 = 0 then .error .panic
  else
    let variance := sum / nMinus1
    invariant (decide (0 ≤ variance))
    let vol : Int := Nat.sqrt variance.toNat
    invariant (decide (0 ≤ vol))
    return (fromBig vol).1

end Prices
end Uni
