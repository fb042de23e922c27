import Verif.Model.Executor
import Verif.Model.Float64
import Verif.Model.Decimal
import Verif.Model.Conversion
import Mathlib.Analysis.SpecialFunctions.Log.Basic
import Mathlib.Analysis.Real.Sqrt
import Mathlib.Data.List.Sort
/-! # `main.go`: powers, sampling, statistics, the result of one run

The drawdown and the return are modelled with float64 rounding (`F64`).  The three statistics of log returns
(standard deviation, downward deviation, value at risk) are modelled here over the real numbers, with exact `math.Log`,
`math.Sqrt` and arithmetic, for positive values (the logarithm of 0 is -Inf in Go); `Model/Stats64.lean` has them with
every rounding, and C82 bounds the difference. -/
namespace Uni
open U256

/-- Go's `*` on 64-bit `int`: it wraps. -/
def mulInt (a b : Int) : Int := (a * b).bmod (2 ^ 64)

namespace Main

/-- `/repo/main.go:331-333` the loop of `IntPow`, with fuel. -/
def powLoop (n m : Int) : Nat → Int → Int → Go Int
  | 0, _, _ => .error .fuel
  | fuel + 1, i, result => if i ≤ m then powLoop n m fuel (addInt i 1) (mulInt result n) else .ok result

/-- `/repo/main.go:325-335` `IntPow`. -/
def intPow (fuel : Nat) (n m : Int) : Go Int :=
  if m = 0 then .ok 1 else powLoop n m fuel 2 n

/-- The three series of `runAndAppend` (`/repo/main.go:189-191`). -/
structure Series where
  hourly : List U256
  daily : List U256
  weekly : List U256

/-- `/repo/main.go:192-200` the loop that fills the three series; `i` is the index of the first value of the list. -/
def sampleLoop : Nat → List U256 → Series → Series
  | _, [], s => s
  | i, x :: xs, s =>
    sampleLoop (i + 1) xs
      { hourly := s.hourly ++ [x]
        daily := if i % 24 = 0 then s.daily ++ [x] else s.daily
        weekly := if i % (24 * 7) = 0 then s.weekly ++ [x] else s.weekly }

/-- `/repo/main.go:189-200` sampling of the snapshots. -/
def sample (snapshots : List U256) : Series := sampleLoop 0 snapshots ⟨[], [], []⟩

/-- `/repo/main.go:114-117` conversion of the values to float64. -/
def toFloats (prices : List U256) : List F64 := prices.map fun x => F64.ofNat x.toNat

/-- `/repo/main.go:120-124` the loop of `calculateMaximumDrawdown`; the accumulator is (`maxPrice`, `maxDrawdown`). -/
def drawdownLoop : List F64 → F64 × F64 → F64 × F64
  | [], acc => acc
  | price :: rest, acc =>
    let maxPrice := F64.max acc.1 price
    let drawdown := F64.div (F64.sub price maxPrice) maxPrice
    drawdownLoop rest (maxPrice, F64.min acc.2 drawdown)

/-- `/repo/main.go:109-126` `calculateMaximumDrawdown`. -/
def maximumDrawdown (prices : List U256) : Go F64 :=
  if prices.length ≤ 1 then .ok (.fin 0)
  else do
    let first ← idx (toFloats prices) 0
    return (drawdownLoop (toFloats prices) (first, .fin 0)).2

/-- `/repo/main.go:96-107` `getReturns` (real logarithm). -/
noncomputable def getReturns : List U256 → List ℝ
  | [] => []
  | [_] => []
  | a :: b :: rest => Real.log ((b.toNat : ℝ) / (a.toNat : ℝ)) :: getReturns (b :: rest)

/-- `/repo/main.go:129-145` `calculateDownDeviation`. -/
noncomputable def downDeviation (prices : List U256) : ℝ :=
  if prices.length ≤ 2 then 0
  else
    let returns := getReturns prices
    let sum := returns.foldl (fun sum r => if r < 0 then sum + r * r else sum) 0
    Real.sqrt (sum / (returns.length : ℝ))

/-- `/repo/main.go:153-156` sort, take the entry at a twentieth of the length.  `sort.Float64s` is modelled by
insertion sort: the sorted list of a list of numbers is unique. -/
noncomputable def entry95 (returns : List ℝ) : Go ℝ :=
  idx (returns.insertionSort (· ≤ ·)) (Int.tdiv returns.length 20)

/-- `/repo/main.go:148-157` `calculateVar`. -/
noncomputable def var95 (prices : List U256) : Go ℝ :=
  if prices.length ≤ 2 then .ok 0 else entry95 (getReturns prices)

/-- `/repo/main.go:159-182` `calculateStd`. -/
noncomputable def std (prices : List U256) : ℝ :=
  if prices.length ≤ 2 then 0
  else
    let returns := getReturns prices
    let n : Int := returns.length
    let sum1 := returns.foldl (fun sum r => sum + r * r) 0 / ((n - 1 : Int) : ℝ)
    let sum2 := returns.foldl (fun sum r => sum + r) 0
    let sum2 := sum2 * sum2
    let quotient := n * (n - 1)
    let sum2 := sum2 / (quotient : ℝ)
    Real.sqrt (sum1 - sum2)

/-- `/repo/lib/result/result.go:17-35` `RunResult`; `S` is the type of the three statistics of log returns: real numbers, or
float64 in `Model/Stats64.lean`. -/
structure RunResultOf (S : Type) where
  updateInterval : Int
  multiplierX10 : Int
  historyWindow : Int
  ret : F64
  endAmount : String
  maxDrawdown : F64
  stdHourly : S
  stdDaily : S
  stdWeekly : S
  ddHourly : S
  ddDaily : S
  ddWeekly : S
  varHourly : S
  varDaily : S
  varWeekly : S

/-- `/repo/lib/result/result.go:17-35` `RunResult`. -/
abbrev RunResult := RunResultOf ℝ

/-- `/repo/main.go:224-227` the return on investment. -/
def roi (last first : U256) : F64 :=
  let amountEnd := F64.ofNat last.toNat
  let amountStart := F64.ofNat first.toNat
  F64.div (F64.sub amountEnd amountStart) amountStart

/-- `/repo/main.go:217-250` `createResult`. -/
def createResult {S : Type} (snapshots : List U256) (mul duration updateInterval : Int)
    (stdHourly stdDaily stdWeekly dDHourly dDDaily dDWeekly : S) (maxDrawDown : F64)
    (var95Hourly var95Daily var95Weekly : S) : Go (RunResultOf S) := do
  let last ← idx snapshots (snapshots.length - 1)
  let first ← idx snapshots 0
  return { endAmount := Dec.bigString (toBig last), multiplierX10 := mul, historyWindow := duration, updateInterval,
           ret := roi last first, stdHourly, stdDaily, stdWeekly, ddHourly := dDHourly, ddDaily := dDDaily,
           ddWeekly := dDWeekly, maxDrawdown := maxDrawDown, varHourly := var95Hourly, varDaily := var95Daily,
           varWeekly := var95Weekly }

/-- `/repo/main.go:189-213` the report of a run, from its value snapshots. -/
noncomputable def report (snapshots : List U256) (mul duration updateInterval : Int) : Go RunResult := do
  let s := sample snapshots
  let maxDrawDown ← maximumDrawdown s.hourly
  let varHourly ← var95 s.hourly
  let varDaily ← var95 s.daily
  let varWeekly ← var95 s.weekly
  createResult snapshots mul duration updateInterval (std s.hourly) (std s.daily) (std s.weekly)
    (downDeviation s.hourly) (downDeviation s.daily) (downDeviation s.weekly) maxDrawDown varHourly varDaily varWeekly

/-- `/repo/main.go:185-215` `runAndAppend` without the wait group and the store into `results` (see
`Model/Parallel.lean`): the result that is stored. -/
noncomputable def runAndReport (fuel : Nat) (e : Execution) (mul duration updateInterval : Int) : Go RunResult := do
  let r ← e.run fuel
  report r.snapshots mul duration updateInterval

end Main
end Uni
