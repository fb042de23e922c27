import Verif.Model.Main
/-! # The statistics of log returns in float64, and the results file

The standard deviation, the downward deviation and the value at risk of `main.go` with every rounding.  `math.Log` is a
parameter `lg` of the model: its value on a positive finite float64.  (Go documents an error below one unit in the last
place; the theorems assume no more.)  Overflow and subnormals are not modelled, as in `Model/Float64.lean`: a return is 0,
infinite or between 2^-54 and 2^8 in size (C110 proves that this is harmless).  Products and sums are rounded one by one (no fused multiply-add: amd64). -/
namespace Uni
open U256
namespace F64

/-- `x * y` (zeros are taken positive). -/
def mul : F64 → F64 → F64
  | nan, _ => nan
  | _, nan => nan
  | inf s, inf t => inf (xor s t)
  | inf s, fin y => if y = 0 then nan else inf (xor s (decide (y < 0)))
  | fin x, inf t => if x = 0 then nan else inf (xor t (decide (x < 0)))
  | fin x, fin y => fin (TickRound.rnd (x * y))

/-- `x < y`. -/
def lt : F64 → F64 → Bool
  | nan, _ => false
  | _, nan => false
  | inf s, inf t => s && !t
  | inf s, fin _ => s
  | fin _, inf t => !t
  | fin x, fin y => decide (x < y)

/-- The float64 next to the square root of `q`: the significand is the integer square root of `q * 4^k`, with `k` such
that it has 53 bits, or the next integer if that is nearer. -/
def sqrtRnd (q : ℚ) : ℚ :=
  let k : Int := 52 - (Int.log 2 q).fdiv 2
  let m := Nat.sqrt ⌊q * 4 ^ k⌋.toNat
  (if (2 * (m : ℚ) + 1) ^ 2 ≤ 4 * (q * 4 ^ k) then (m : ℚ) + 1 else m) / 2 ^ k

/-- `math.Sqrt` (correctly rounded, as documented). -/
def sqrt : F64 → F64
  | nan => nan
  | inf s => if s then nan else inf false
  | fin q => if q < 0 then nan else if q = 0 then fin 0 else fin (sqrtRnd q)

/-- `math.Log`, with `lg` for the positive finite arguments. -/
def log (lg : ℚ → ℚ) : F64 → F64
  | nan => nan
  | inf s => if s then nan else inf false
  | fin q => if q < 0 then nan else if q = 0 then inf true else fin (lg q)

/-- `float64(n)` of an integer. -/
def ofInt (n : Int) : F64 := .fin (TickRound.rnd n)

/-- The order of `sort.Float64s`: NaN first, then `<`; `before x y` is "not less y x". -/
def before (x y : F64) : Prop := ¬ (lt y x = true ∨ (y = nan ∧ x ≠ nan))

instance : DecidableRel before := fun x y => by unfold before; infer_instance

/-- Not NaN and not an infinity. -/
def Finite : F64 → Bool
  | fin _ => true
  | _ => false

end F64

namespace Main
open F64

/-- `/repo/main.go:96-107` `getReturns`. -/
def getReturns64 (lg : ℚ → ℚ) : List U256 → List F64
  | [] => []
  | [_] => []
  | a :: b :: rest =>
    F64.log lg (F64.div (F64.ofNat b.toNat) (F64.ofNat a.toNat)) :: getReturns64 lg (b :: rest)

/-- `/repo/main.go:129-145` `calculateDownDeviation`. -/
def downDeviation64 (lg : ℚ → ℚ) (prices : List U256) : F64 :=
  if prices.length ≤ 2 then .fin 0
  else
    let returns := getReturns64 lg prices
    let sum := returns.foldl (fun sum r => if F64.lt r (.fin 0) then F64.add sum (F64.mul r r) else sum) (.fin 0)
    F64.sqrt (F64.div sum (F64.ofInt returns.length))

/-- `/repo/main.go:148-157` `calculateVar` (`sort.Float64s` as insertion sort: finite float64 values that compare equal are
equal, so the sorted list is unique). -/
def var95of64 (lg : ℚ → ℚ) (prices : List U256) : Go F64 :=
  if prices.length ≤ 2 then .ok (.fin 0)
  else
    let returns := getReturns64 lg prices
    idx (returns.insertionSort F64.before) (Int.tdiv returns.length 20)

/-- `/repo/main.go:159-182` `calculateStd`; `n * (n - 1)` is an `int` product. -/
def std64 (lg : ℚ → ℚ) (prices : List U256) : F64 :=
  if prices.length ≤ 2 then .fin 0
  else
    let returns := getReturns64 lg prices
    let n : Int := returns.length
    let sum1 := returns.foldl (fun sum r => F64.add sum (F64.mul r r)) (.fin 0)
    let sum1 := F64.div sum1 (F64.ofInt (n - 1))
    let sum2 := returns.foldl (fun sum r => F64.add sum r) (.fin 0)
    let sum2 := F64.mul sum2 sum2
    let quotient := mulInt n (n - 1)
    let sum2 := F64.div sum2 (F64.ofInt quotient)
    let variance := F64.sub sum1 sum2
    F64.sqrt variance

/-- `/repo/main.go:189-213` the report of a run, from its value snapshots, in float64. -/
def report64 (lg : ℚ → ℚ) (snapshots : List U256) (mul duration updateInterval : Int) : Go (RunResultOf F64) := do
  let s := sample snapshots
  let maxDrawDown ← maximumDrawdown s.hourly
  let varHourly ← var95of64 lg s.hourly
  let varDaily ← var95of64 lg s.daily
  let varWeekly ← var95of64 lg s.weekly
  createResult snapshots mul duration updateInterval (std64 lg s.hourly) (std64 lg s.daily) (std64 lg s.weekly)
    (downDeviation64 lg s.hourly) (downDeviation64 lg s.daily) (downDeviation64 lg s.weekly) maxDrawDown varHourly varDaily varWeekly

/-- `/repo/main.go:185-215` `runAndAppend`, in float64: the result that is stored. -/
def runAndReport64 (lg : ℚ → ℚ) (fuel : Nat) (e : Execution) (mul duration updateInterval : Int) : Go (RunResultOf F64) := do
  let r ← e.run fuel
  report64 lg r.snapshots mul duration updateInterval

/-- `/repo/lib/result/result.go:10-15` `Save`. -/
structure Save where
  startAmount : String
  startTime : Int
  endTime : Int
  results : List (RunResultOf F64)

/-- The float64 fields of a result: `/repo/lib/result/result.go:17-35`. -/
def RunResultOf.numbers (r : RunResultOf F64) : List F64 :=
  [r.ret, r.maxDrawdown, r.stdHourly, r.stdDaily, r.stdWeekly, r.ddHourly, r.ddDaily, r.ddWeekly, r.varHourly, r.varDaily, r.varWeekly]

/-- `/repo/main.go:252-284` `saveFile`: what the file holds afterwards, given that the directory and the file can be made;
`none` is an empty file.  `Encode` writes nothing and returns an error, which is dropped, if a number is NaN or infinite
(encoding/json: UnsupportedValueError). -/
def saveFile (results : List (RunResultOf F64)) (startTime endTime : Int) : Option Save :=
  if results.all (fun r => r.numbers.all F64.Finite) then some ⟨"2000000", startTime, endTime, results⟩ else none

end Main
end Uni
