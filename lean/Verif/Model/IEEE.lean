import Verif.Model.Stats64
/-! # IEEE 754 float64 with overflow, subnormal numbers and signed zeros

`Model/Float64.lean` and `Model/Stats64.lean` leave the exponent unlimited and have one zero.  Here are the same computations
with the full number format: the exponent of the last bit is at least -1074, results of 2^1024 and more are infinite, and zeros
have a sign.  C110 says that on the inputs of this program the two agree. -/
namespace Uni
open U256

/-- A float64: NaN, an infinity, a zero, or another finite number. -/
inductive B64 where
  | nan
  | inf (neg : Bool)
  | zero (neg : Bool)
  | num (q : ℚ)
  deriving DecidableEq

namespace B64
open TickRound

/-- Round to nearest, ties to even; `s` is the sign if the exact value is zero. -/
def rd (s : Bool) (q : ℚ) : B64 :=
  if q = 0 then zero s
  else
    let e := Max.max (Int.log 2 |q| - 52) (-1074)
    let r : ℚ := roundEven (q / 2 ^ e) * 2 ^ e
    if r = 0 then zero (decide (q < 0)) else if 2 ^ 1024 ≤ |r| then inf (decide (q < 0)) else num r

/-- Conversion of an integer. -/
def ofInt (n : Int) : B64 := rd false n

/-- `-x`. -/
def neg : B64 → B64
  | nan => nan
  | inf s => inf (!s)
  | zero s => zero (!s)
  | num q => num (-q)

/-- `x + y`: the sum of two zeros is negative only if both are, any other sum that is zero is positive. -/
def add : B64 → B64 → B64
  | nan, _ => nan
  | _, nan => nan
  | inf s, inf t => if s = t then inf s else nan
  | inf s, _ => inf s
  | _, inf t => inf t
  | zero s, zero t => zero (s && t)
  | zero _, num y => rd false y
  | num x, zero _ => rd false x
  | num x, num y => rd false (x + y)

/-- `x - y`. -/
def sub (x y : B64) : B64 := add x (neg y)

/-- The sign of a number that is not NaN. -/
def sign : B64 → Bool
  | nan => false
  | inf s => s
  | zero s => s
  | num q => decide (q < 0)

/-- `x * y`. -/
def mul : B64 → B64 → B64
  | nan, _ => nan
  | _, nan => nan
  | inf _, zero _ => nan
  | zero _, inf _ => nan
  | inf s, y => inf (xor s (sign y))
  | x, inf t => inf (xor (sign x) t)
  | num x, num y => rd false (x * y)
  | x, y => zero (xor (sign x) (sign y))

/-- `x / y`. -/
def div : B64 → B64 → B64
  | nan, _ => nan
  | _, nan => nan
  | inf _, inf _ => nan
  | zero _, zero _ => nan
  | inf s, y => inf (xor s (sign y))
  | x, zero t => inf (xor (sign x) t)
  | num x, num y => rd false (x / y)
  | x, y => zero (xor (sign x) (sign y))

/-- `x < y`: the two zeros are equal. -/
def lt : B64 → B64 → Bool
  | nan, _ => false
  | _, nan => false
  | inf s, inf t => s && !t
  | inf s, _ => s
  | _, inf t => !t
  | zero _, zero _ => false
  | zero _, num y => decide (0 < y)
  | num x, zero _ => decide (x < 0)
  | num x, num y => decide (x < y)

/-- `math.Max`: +Inf wins, then NaN; of two zeros the positive one. -/
def max : B64 → B64 → B64
  | inf false, _ => inf false
  | _, inf false => inf false
  | nan, _ => nan
  | _, nan => nan
  | zero s, zero t => zero (s && t)
  | x, y => if lt y x then x else y

/-- `math.Min`: -Inf wins, then NaN; of two zeros the negative one. -/
def min : B64 → B64 → B64
  | inf true, _ => inf true
  | _, inf true => inf true
  | nan, _ => nan
  | _, nan => nan
  | zero s, zero t => zero (s || t)
  | x, y => if lt x y then x else y

/-- `math.Sqrt`: the root of a zero is that zero; the root of another float64 is never near the ends of the exponent range. -/
def sqrt : B64 → B64
  | nan => nan
  | inf s => if s then nan else inf false
  | zero s => zero s
  | num q => if q < 0 then nan else num (F64.sqrtRnd q)

/-- `math.Log`, with `lg` for the positive finite arguments. -/
def log (lg : ℚ → ℚ) : B64 → B64
  | nan => nan
  | inf s => if s then nan else inf false
  | zero _ => inf true
  | num q => if q < 0 then nan else if lg q = 0 then zero false else num (lg q)

/-- The order of `sort.Float64s`: NaN first, then `<`. -/
def before (x y : B64) : Prop := ¬ (lt y x = true ∨ (y = nan ∧ x ≠ nan))

instance : DecidableRel before := fun x y => by unfold before; infer_instance

/-- `math.Round`, `math.Ceil`, `math.Floor`, given by what they do with a number that is not zero: a result of zero has the
sign of the argument. -/
def toWhole (f : ℚ → ℚ) : B64 → B64
  | num q => if f q = 0 then zero (decide (q < 0)) else num (f q)
  | x => x

/-- Conversion `int(x)` of a finite number (NaN and infinities: not specified by Go, here 0). -/
def toInt : B64 → Int
  | num q => toIntTrunc q
  | _ => 0

end B64

namespace TickRound

/-- `/repo/lib/tickmath/tickmath.go:39-43` `Round`. -/
def roundB (ix iunit : Int) : Int :=
  (B64.mul (B64.toWhole mathRound (B64.div (B64.ofInt ix) (B64.ofInt iunit))) (B64.ofInt iunit)).toInt

/-- `/repo/lib/tickmath/tickmath.go:45-49` `Ceil`. -/
def ceilB (ix iunit : Int) : Int :=
  (B64.mul (B64.toWhole mathCeil (B64.div (B64.ofInt ix) (B64.ofInt iunit))) (B64.ofInt iunit)).toInt

/-- `/repo/lib/tickmath/tickmath.go:51-55` `Floor`. -/
def floorB (ix iunit : Int) : Int :=
  (B64.mul (B64.toWhole mathFloor (B64.div (B64.ofInt ix) (B64.ofInt iunit))) (B64.ofInt iunit)).toInt

end TickRound

namespace Main

/-- `/repo/main.go:96-107` `getReturns`. -/
def getReturnsB (lg : ℚ → ℚ) : List U256 → List B64
  | [] => []
  | [_] => []
  | a :: b :: rest =>
    B64.log lg (B64.div (B64.ofInt b.toNat) (B64.ofInt a.toNat)) :: getReturnsB lg (b :: rest)

/-- `/repo/main.go:120-124` the loop of `calculateMaximumDrawdown`; the accumulator is (`maxPrice`, `maxDrawdown`). -/
def drawdownLoopB : List B64 → B64 × B64 → B64 × B64
  | [], acc => acc
  | price :: rest, acc =>
    let maxPrice := B64.max acc.1 price
    let drawdown := B64.div (B64.sub price maxPrice) maxPrice
    drawdownLoopB rest (maxPrice, B64.min acc.2 drawdown)

/-- `/repo/main.go:109-126` `calculateMaximumDrawdown`. -/
def maximumDrawdownB (prices : List U256) : Go B64 :=
  if prices.length ≤ 1 then .ok (.zero false)
  else do
    let floats := prices.map fun x => B64.ofInt x.toNat
    let first ← idx floats 0
    return (drawdownLoopB floats (first, .zero false)).2

/-- `/repo/main.go:129-145` `calculateDownDeviation`. -/
def downDeviationB (lg : ℚ → ℚ) (prices : List U256) : B64 :=
  if prices.length ≤ 2 then .zero false
  else
    let returns := getReturnsB lg prices
    let sum := returns.foldl (fun sum r => if B64.lt r (.zero false) then B64.add sum (B64.mul r r) else sum) (.zero false)
    B64.sqrt (B64.div sum (B64.ofInt returns.length))

/-- `/repo/main.go:148-157` `calculateVar` (`sort.Float64s` as insertion sort). -/
def var95B (lg : ℚ → ℚ) (prices : List U256) : Go B64 :=
  if prices.length ≤ 2 then .ok (.zero false)
  else
    let returns := getReturnsB lg prices
    idx (returns.insertionSort B64.before) (Int.tdiv returns.length 20)

/-- `/repo/main.go:159-182` `calculateStd`. -/
def stdB (lg : ℚ → ℚ) (prices : List U256) : B64 :=
  if prices.length ≤ 2 then .zero false
  else
    let returns := getReturnsB lg prices
    let n : Int := returns.length
    let sum1 := returns.foldl (fun sum r => B64.add sum (B64.mul r r)) (.zero false)
    let sum1 := B64.div sum1 (B64.ofInt (n - 1))
    let sum2 := returns.foldl (fun sum r => B64.add sum r) (.zero false)
    let sum2 := B64.mul sum2 sum2
    let quotient := mulInt n (n - 1)
    let sum2 := B64.div sum2 (B64.ofInt quotient)
    let variance := B64.sub sum1 sum2
    B64.sqrt variance

/-- `/repo/main.go:224-227` the return on investment. -/
def roiB (last first : U256) : B64 :=
  B64.div (B64.sub (B64.ofInt last.toNat) (B64.ofInt first.toNat)) (B64.ofInt first.toNat)

/-- `/repo/main.go:189-247` the float64 fields of the report of a run, from its value snapshots, in the order of
`RunResultOf.numbers`. -/
def numbersB (lg : ℚ → ℚ) (snapshots : List U256) : Go (List B64) := do
  let s := sample snapshots
  let maxDrawDown ← maximumDrawdownB s.hourly
  let varHourly ← var95B lg s.hourly
  let varDaily ← var95B lg s.daily
  let varWeekly ← var95B lg s.weekly
  let last ← idx snapshots (snapshots.length - 1)
  let first ← idx snapshots 0
  return [roiB last first, maxDrawDown, stdB lg s.hourly, stdB lg s.daily, stdB lg s.weekly, downDeviationB lg s.hourly,
    downDeviationB lg s.daily, downDeviationB lg s.weekly, varHourly, varDaily, varWeekly]

end Main
end Uni
