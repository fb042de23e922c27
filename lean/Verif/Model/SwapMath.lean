import Verif.Model.SqrtPriceMath
/-! # `lib/swapmath` -/
namespace Uni
namespace SwapMath
open U256 FullMath SqrtPriceMath

/-- `/repo/lib/swapmath/swapmath.go:9` `MaxFee`. -/
def maxFee : U256 := exp (ofWord 10) (ofWord 6)

/-- `ui.NewInt(uint64(i))` of a Go `int` (64-bit wrap-around for negative `i`). -/
def ofGoInt (i : Int) : U256 := ofWord (BitVec.ofInt 64 i)

/-- The four results of `ComputeSwapStep`. -/
structure Step where
  next : U256
  amountIn : U256
  amountOut : U256
  fee : U256
  deriving DecidableEq, Repr

/-- `/repo/lib/swapmath/swapmath.go:19-23` the first `amountIn` (exact input). -/
def stepIn (zeroForOne : Bool) (current target liquidity : U256) : Go U256 :=
  if zeroForOne then getAmount0Delta target current liquidity true
  else getAmount1Delta current target liquidity true

/-- `/repo/lib/swapmath/swapmath.go:30-34` the first `amountOut` (exact output). -/
def stepOut (zeroForOne : Bool) (current target liquidity : U256) : Go U256 :=
  if zeroForOne then getAmount1Delta target current liquidity false
  else getAmount0Delta current target liquidity false

/-- `/repo/lib/swapmath/swapmath.go:17-41` the next price and the amounts set so far (the Go variables
`amountIn`/`amountOut`, nil pointers shown as zero: they are overwritten below in that case). -/
def stepPrice (current target liquidity remaining : U256) (feePips : Int) (zeroForOne exactIn : Bool) :
    Go (U256 × U256 × U256) :=
  if exactIn then do
    let lessFee ← div (mul remaining (sub maxFee (ofGoInt feePips))) maxFee
    let amountIn ← stepIn zeroForOne current target liquidity
    if cmp lessFee amountIn ≥ 0 then return (target, amountIn, zero)
    else do
      let next ← getNextSqrtPriceFromInput current liquidity lessFee zeroForOne
      return (next, amountIn, zero)
  else do
    let amountOut ← stepOut zeroForOne current target liquidity
    if cmp (neg remaining) amountOut ≥ 0 then return (target, zero, amountOut)
    else do
      let next ← getNextSqrtPriceFromOutput current liquidity (neg remaining) zeroForOne
      return (next, zero, amountOut)

/-- `if c { v = f(...) }`: the Go variable `v` keeps its old value otherwise. -/
def reassign (c : Bool) (f : Go U256) (old : U256) : Go U256 := if c then f else .ok old

/-- `/repo/lib/swapmath/swapmath.go:45-59` recomputation of the amounts for the price actually reached. -/
def stepAmounts (current liquidity next amountIn amountOut : U256) (zeroForOne exactIn max : Bool) :
    Go (U256 × U256) :=
  if zeroForOne then do
    let i ← reassign (!(max && exactIn)) (getAmount0Delta next current liquidity true) amountIn
    let o ← reassign (!(max && !exactIn)) (getAmount1Delta next current liquidity false) amountOut
    return (i, o)
  else do
    let i ← reassign (!(max && exactIn)) (getAmount1Delta current next liquidity true) amountIn
    let o ← reassign (!(max && !exactIn)) (getAmount0Delta current next liquidity false) amountOut
    return (i, o)

/-- `/repo/lib/swapmath/swapmath.go:11-73` `ComputeSwapStep`. -/
def computeSwapStep (current target liquidity remaining : U256) (feePips : Int) : Go Step := do
  let zeroForOne := decide (cmp current target ≥ 0)
  let exactIn := decide (sign remaining ≥ 0)
  let p ← stepPrice current target liquidity remaining feePips zeroForOne exactIn
  let next := p.1
  let max := decide (cmp target next = 0)
  let io ← stepAmounts current liquidity next p.2.1 p.2.2 zeroForOne exactIn max
  let amountIn := io.1
  let amountOut := if !exactIn && decide (cmp io.2 (neg remaining) > 0) then neg remaining else io.2
  if exactIn && decide (cmp next target ≠ 0) then
    return ⟨next, amountIn, amountOut, sub remaining amountIn⟩
  else do
    let fee ← mulDivRoundingUp amountIn (ofGoInt feePips) (sub maxFee (ofGoInt feePips))
    return ⟨next, amountIn, amountOut, fee⟩

end SwapMath
end Uni
