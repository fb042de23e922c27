import Verif.Model.InPlace
import Verif.Model.TickMath
import Verif.Model.SwapMath
import Verif.Model.LiquidityAmounts
/-! # The arithmetic of the library on memory

`lib/fullmath`, `lib/sqrtprice_math`, `lib/swapmath`, `lib/liquidity_amounts` and the table of `lib/tickmath` once more, now as
programs that take and return pointers (`*ui.Int`) and read and write memory word by word (`Model/InPlace.lean`).  Every `new`,
`NewInt` and `Clone` allocates a number, every method with a receiver writes to its receiver, and package-level numbers such as
`cons.One` are ordinary numbers in memory that a wrong program could change.

Simplifications: a predicate (`Cmp`, `Sign`, `IsZero`, `Eq`, `Sgt`) reads all four words of its operands before it decides,
where Go may stop early; the five-word buffer of `MulDiv` is private to the call until it is returned, so it is a value until then. -/
namespace Uni
namespace Ptr
open InPlace U256

/-! ### Package-level numbers

Each has an address of its own.  Go's linker chooses the addresses; nothing depends on the choice made here. -/

/-- `/repo/lib/constants/constants.go:10` the address of `cons.Zero`. -/
def zeroAt : Nat := 0
/-- `/repo/lib/constants/constants.go:11` the address of `cons.One`. -/
def oneAt : Nat := 1
/-- `/repo/lib/constants/constants.go:12` the address of `cons.MaxUint256`. -/
def maxUint256At : Nat := 2
/-- `/repo/lib/constants/constants.go:14` the address of `cons.Q128`. -/
def q128At : Nat := 3
/-- `/repo/lib/constants/constants.go:15` the address of `cons.Q96`. -/
def q96At : Nat := 4
/-- `/repo/lib/constants/constants.go:16` the address of `cons.Q192`. -/
def q192At : Nat := 5
/-- `/repo/lib/sqrtprice_math/sqrtprice_math.go:10` the address of `MaxUint160`. -/
def maxUint160At : Nat := 6
/-- `/repo/lib/swapmath/swapmath.go:9` the address of `MaxFee`. -/
def maxFeeAt : Nat := 7
/-- `/repo/lib/tickmath/tickmath.go:19` the address of `MinSqrtRatio`. -/
def minSqrtRatioAt : Nat := 8
/-- `/repo/lib/tickmath/tickmath.go:21` the address of `MaxSqrtRatio`. -/
def maxSqrtRatioAt : Nat := 9
/-- `/repo/lib/tickmath/tickmath.go:24-26` the pointer in entry `i` of the table of prices. -/
def tableAt (i : Int) : Nat := 16 + i.toNat
/-- `/repo/lib/tickmath/tickmath.go:24-26` the first address after the package-level numbers. -/
def constEnd : Nat := 16 + TickMath.totalTicks.toNat

/-! ### Methods -/

/-- `new(ui.Int).Op(...)`: a new number, then the method with this number as receiver; as in
`/repo/lib/sqrtprice_math/sqrtprice_math.go:13`. -/
def mk (op : Nat → HM Unit) : HM Nat := do
  let z ← new zero
  op z
  return z

/-- `/repo/uint256/uint256.go:171-173` `Clone`. -/
def clone (x : Nat) : HM Nat := do
  let v ← load x
  new v

/-! ### `lib/fullmath` -/

/-- `/repo/lib/fullmath/fullmath.go:16-20` the result pointer, rounded up in place. -/
def roundUp (v rem : U256) : HM Nat := do
  let result ← new v
  whenM (!rem.isZero) (add result result oneAt)
  return result

/-- `/repo/lib/fullmath/fullmath.go:8-21` `MulDivRoundingUp`. -/
def mulDivRoundingUp (a b denominator : Nat) : HM Nat := do
  let va ← load a
  let vb ← load b
  if va.isZero || vb.isZero then new (ofWord 0)
  else do
    let vd ← load denominator
    let r ← lift (udivrem [0, 0, 0, 0, 0] (umul va vb) vd)
    roundUp (ofWords (r.1.take 4)) r.2

/-- `/repo/lib/fullmath/fullmath.go:23-33` `MulDiv`. -/
def mulDiv (a b denominator : Nat) : HM Nat := do
  let va ← load a
  let vb ← load b
  if va.isZero || vb.isZero then new (ofWord 0)
  else do
    let vd ← load denominator
    let r ← lift (udivrem [0, 0, 0, 0, 0] (umul va vb) vd)
    new (ofWords (r.1.take 4))

/-! ### `lib/sqrtprice_math` -/

/-- `/repo/lib/sqrtprice_math/sqrtprice_math.go:12-15` `multiplyIn256`. -/
def multiplyIn256 (x y : Nat) : HM Nat := do
  let product ← mk fun z => mul z x y
  mk fun z => InPlace.and z product maxUint256At

/-- `/repo/lib/sqrtprice_math/sqrtprice_math.go:17-20` `addIn256`. -/
def addIn256 (x y : Nat) : HM Nat := do
  let sum ← mk fun z => add z x y
  mk fun z => InPlace.and z sum maxUint256At

/-- `/repo/lib/sqrtprice_math/sqrtprice_math.go:23-25` the two pointers are exchanged if the prices are out of order. -/
def order (a b : Nat) : HM (Nat × Nat) := do
  let va ← load a
  let vb ← load b
  if cmp va vb > 0 then return (b, a) else return (a, b)

/-- `/repo/lib/sqrtprice_math/sqrtprice_math.go:22-37` `GetAmount0Delta`. -/
def getAmount0Delta (a b liquidity : Nat) (roundUp : Bool) : HM Nat := do
  let ab ← order a b
  let numerator1 ← mk fun z => lsh z liquidity 96
  let numerator2 ← mk fun z => sub z ab.2 ab.1
  if roundUp then do
    let x ← mulDivRoundingUp numerator1 numerator2 ab.2
    mulDivRoundingUp x oneAt ab.1
  else do
    let res ← mulDiv numerator1 numerator2 ab.2
    div res res ab.1
    return res

/-- `/repo/lib/sqrtprice_math/sqrtprice_math.go:39-51` `GetAmount1Delta`. -/
def getAmount1Delta (a b liquidity : Nat) (roundUp : Bool) : HM Nat := do
  let ab ← order a b
  let dif ← mk fun z => sub z ab.2 ab.1
  if roundUp then mulDivRoundingUp liquidity dif q96At
  else mulDiv liquidity dif q96At

/-- `/repo/lib/sqrtprice_math/sqrtprice_math.go:72-93` `getNextSqrtPriceFromAmount0RoundingUp`; for amount zero it returns the
caller's pointer.  In Go the denominator is computed only if the product did not overflow; the model computes it in any case, as
the value model does. -/
def getNextSqrtPriceFromAmount0RoundingUp (p liquidity amount : Nat) (plus : Bool) : HM Nat := do
  let va ← load amount
  if va.isZero then return p
  else do
    let numerator1 ← mk fun z => lsh z liquidity 96
    if plus then do
      let product ← multiplyIn256 amount p
      let q ← mk fun z => div z product amount
      let denominator ← addIn256 numerator1 product
      let vq ← load q
      let vp ← load p
      let vd ← load denominator
      let vn ← load numerator1
      if eq vq vp && decide (cmp vd vn ≥ 0) then
        mulDivRoundingUp numerator1 p denominator
      else do
        let d ← mk fun z => div z numerator1 p
        let s ← mk fun z => add z d amount
        mulDivRoundingUp numerator1 oneAt s
    else do
      let product ← multiplyIn256 amount p
      let denominator ← mk fun z => sub z numerator1 product
      mulDivRoundingUp numerator1 p denominator

/-- `/repo/lib/sqrtprice_math/sqrtprice_math.go:95-109` `getNextSqrtPriceFromAmount1RoundingDown`. -/
def getNextSqrtPriceFromAmount1RoundingDown (p liquidity amount : Nat) (plus : Bool) : HM Nat :=
  if plus then do
    let va ← load amount
    let vm ← load maxUint160At
    if cmp va vm ≤ 0 then do
      let x ← mk fun z => lsh z amount 96
      let quotient ← mk fun z => div z x liquidity
      mk fun z => add z p quotient
    else do
      let x ← mk fun z => mul z amount q96At
      let quotient ← mk fun z => div z x liquidity
      mk fun z => add z p quotient
  else do
    let quotient ← mulDivRoundingUp amount q96At liquidity
    mk fun z => sub z p quotient

/-- `/repo/lib/sqrtprice_math/sqrtprice_math.go:53-60` `GetNextSqrtPriceFromInput`. -/
def getNextSqrtPriceFromInput (p liquidity amountIn : Nat) (zeroForOne : Bool) : HM Nat := do
  let vp ← load p
  lift (invariant (decide (sign vp = 1)))
  let vl ← load liquidity
  lift (invariant (decide (sign vl = 1)))
  if zeroForOne then getNextSqrtPriceFromAmount0RoundingUp p liquidity amountIn true
  else getNextSqrtPriceFromAmount1RoundingDown p liquidity amountIn true

/-- `/repo/lib/sqrtprice_math/sqrtprice_math.go:62-70` `GetNextSqrtPriceFromOutput`. -/
def getNextSqrtPriceFromOutput (p liquidity amountOut : Nat) (zeroForOne : Bool) : HM Nat := do
  let vp ← load p
  lift (invariant (decide (sign vp = 1)))
  let vl ← load liquidity
  lift (invariant (decide (sign vl = 1)))
  if zeroForOne then getNextSqrtPriceFromAmount1RoundingDown p liquidity amountOut false
  else getNextSqrtPriceFromAmount0RoundingUp p liquidity amountOut false

/-- `/repo/lib/sqrtprice_math/sqrtprice_math.go:111-117` `GetAmount0DeltaRounded`. -/
def getAmount0DeltaRounded (a b liquidity : Nat) : HM Nat := do
  let vl ← load liquidity
  if sign vl = -1 then do
    let l ← mk fun z => neg z liquidity
    let x ← getAmount0Delta a b l false
    mk fun z => neg z x
  else getAmount0Delta a b liquidity true

/-- `/repo/lib/sqrtprice_math/sqrtprice_math.go:119-125` `GetAmount1DeltaRounded`. -/
def getAmount1DeltaRounded (a b liquidity : Nat) : HM Nat := do
  let vl ← load liquidity
  if sign vl = -1 then do
    let l ← mk fun z => neg z liquidity
    let x ← getAmount1Delta a b l false
    mk fun z => neg z x
  else getAmount1Delta a b liquidity true

/-! ### `lib/swapmath` -/

/-- `/repo/lib/swapmath/swapmath.go:18` `ui.NewInt(uint64(feePips))`. -/
def newGoInt (i : Int) : HM Nat := new (SwapMath.ofGoInt i)

/-- `/repo/lib/swapmath/swapmath.go:19-23` the first `amountIn` (exact input). -/
def stepIn (zeroForOne : Bool) (current target liquidity : Nat) : HM Nat :=
  if zeroForOne then getAmount0Delta target current liquidity true
  else getAmount1Delta current target liquidity true

/-- `/repo/lib/swapmath/swapmath.go:30-34` the first `amountOut` (exact output). -/
def stepOut (zeroForOne : Bool) (current target liquidity : Nat) : HM Nat :=
  if zeroForOne then getAmount1Delta target current liquidity false
  else getAmount0Delta current target liquidity false

/-- `/repo/lib/swapmath/swapmath.go:17-41` the pointer to the next price and the pointer assigned so far: that of `amountIn` for an
exact input, that of `amountOut` otherwise.  The other one is nil in Go; it is assigned before it is used. -/
def stepPrice (current target liquidity remaining minus : Nat) (feePips : Int) (zeroForOne exactIn : Bool) : HM (Nat × Nat) :=
  if exactIn then do
    let f ← newGoInt feePips
    let x ← mk fun z => sub z maxFeeAt f
    let y ← mk fun z => mul z remaining x
    let lessFee ← mk fun z => div z y maxFeeAt
    let amountIn ← stepIn zeroForOne current target liquidity
    let vl ← load lessFee
    let vi ← load amountIn
    if cmp vl vi ≥ 0 then do
      let next ← clone target
      return (next, amountIn)
    else do
      let next ← getNextSqrtPriceFromInput current liquidity lessFee zeroForOne
      return (next, amountIn)
  else do
    let amountOut ← stepOut zeroForOne current target liquidity
    let vm ← load minus
    let vo ← load amountOut
    if cmp vm vo ≥ 0 then do
      let next ← clone target
      return (next, amountOut)
    else do
      let next ← getNextSqrtPriceFromOutput current liquidity minus zeroForOne
      return (next, amountOut)

/-- `if c { v = f(...) }` on a pointer variable, as in `/repo/lib/swapmath/swapmath.go:46-48`. -/
def reassign (c : Bool) (f : HM Nat) (old : Nat) : HM Nat := if c then f else pure old

/-- `/repo/lib/swapmath/swapmath.go:45-59` recomputation of the amounts for the price actually reached. -/
def stepAmounts (current liquidity next amount : Nat) (zeroForOne exactIn max : Bool) : HM (Nat × Nat) :=
  if zeroForOne then do
    let i ← reassign (!(max && exactIn)) (getAmount0Delta next current liquidity true) amount
    let o ← reassign (!(max && !exactIn)) (getAmount1Delta next current liquidity false) amount
    return (i, o)
  else do
    let i ← reassign (!(max && exactIn)) (getAmount1Delta current next liquidity true) amount
    let o ← reassign (!(max && !exactIn)) (getAmount0Delta current next liquidity false) amount
    return (i, o)

/-- `/repo/lib/swapmath/swapmath.go:61-63` an exact output is not exceeded. -/
def capOut (exactIn : Bool) (amountOut remaining minus : Nat) : HM Nat :=
  if !exactIn then do
    let vo ← load amountOut
    let m ← mk fun z => neg z remaining
    let vm ← load m
    if cmp vo vm > 0 then clone minus else return amountOut
  else return amountOut

/-- The four results of `ComputeSwapStep` (`/repo/lib/swapmath/swapmath.go:11`), as pointers. -/
structure Step where
  next : Nat
  amountIn : Nat
  amountOut : Nat
  fee : Nat

/-- `/repo/lib/swapmath/swapmath.go:65-70` the fee. -/
def stepFee (exactIn : Bool) (next target remaining amountIn : Nat) (feePips : Int) : HM Nat := do
  let vn ← load next
  let vt ← load target
  if exactIn && decide (cmp vn vt ≠ 0) then mk fun z => sub z remaining amountIn
  else do
    let f ← newGoInt feePips
    let g ← newGoInt feePips
    let d ← mk fun z => sub z maxFeeAt g
    mulDivRoundingUp amountIn f d

/-- `/repo/lib/swapmath/swapmath.go:11-73` `ComputeSwapStep`. -/
def computeSwapStep (current target liquidity remaining : Nat) (feePips : Int) : HM Step := do
  let vc ← load current
  let vt ← load target
  let vr ← load remaining
  let minus ← mk fun z => neg z remaining
  let p ← stepPrice current target liquidity remaining minus feePips (decide (cmp vc vt ≥ 0)) (decide (sign vr ≥ 0))
  let vn ← load p.1
  let io ← stepAmounts current liquidity p.1 p.2 (decide (cmp vc vt ≥ 0)) (decide (sign vr ≥ 0)) (decide (cmp vt vn = 0))
  let out ← capOut (decide (sign vr ≥ 0)) io.2 remaining minus
  let fee ← stepFee (decide (sign vr ≥ 0)) p.1 target remaining io.1 feePips
  return ⟨p.1, io.1, out, fee⟩

/-! ### `lib/tickmath` -/

/-- `/repo/lib/tickmath/tickmath.go:58,68` the pointer `t.ticks[i]`, with Go's bounds check. -/
def tablePtr (i : Int) : Go Nat := if 0 ≤ i ∧ i < TickMath.totalTicks then .ok (tableAt i) else .error .panic

/-- `/repo/lib/tickmath/tickmath.go:57-59` `GetSqrtRatioAtTick`: a new number. -/
def getSqrtRatioAtTick (tick : Int) : HM Nat := do
  let t ← lift (tablePtr (tick + TickMath.maxTick))
  mk fun z => set z t

/-- `/repo/lib/tickmath/tickmath.go:64-73` the binary search loop of `GetTickAtSqrtRatio`. -/
def tickSearch (p : Nat) : Nat → Int → Int → HM Int
  | 0, _, _ => lift (.error .fuel)
  | fuel + 1, l, r =>
    if l < r then do
      let t ← lift (tablePtr ((l + r + 1).tdiv 2))
      let vt ← load t
      let vp ← load p
      if cmp vt vp > 0 then tickSearch p fuel l ((l + r + 1).tdiv 2 - 1) else tickSearch p fuel ((l + r + 1).tdiv 2) r
    else return l

/-- `/repo/lib/tickmath/tickmath.go:60-75` `GetTickAtSqrtRatio`. -/
def getTickAtSqrtRatio (p : Nat) : HM Int := do
  let vp ← load p
  let vmin ← load minSqrtRatioAt
  let vmax ← load maxSqrtRatioAt
  lift (invariant (decide (cmp vp vmin ≥ 0) && decide (cmp vp vmax < 0)))
  let l ← tickSearch p TickMath.totalTicks.toNat 0 (TickMath.totalTicks - 1)
  return l + TickMath.minTick

/-! ### `lib/liquidity_amounts` -/

/-- `/repo/lib/liquidity_amounts/liquidity_amounts.go:9-15` `getLiquidityForAmount0`. -/
def getLiquidityForAmount0 (a b amount0 : Nat) : HM Nat := do
  let ab ← order a b
  let intermediate ← mulDiv ab.1 ab.2 q96At
  let d ← mk fun z => sub z ab.2 ab.1
  mulDiv amount0 intermediate d

/-- `/repo/lib/liquidity_amounts/liquidity_amounts.go:17-22` `getLiquidityForAmount1`. -/
def getLiquidityForAmount1 (a b amount1 : Nat) : HM Nat := do
  let ab ← order a b
  let d ← mk fun z => sub z ab.2 ab.1
  mulDiv amount1 q96At d

/-- `/repo/lib/liquidity_amounts/liquidity_amounts.go:24-43` `GetLiquidityForAmount`. -/
def getLiquidityForAmount (p a b amount0 amount1 : Nat) : HM Nat := do
  let ab ← order a b
  let vp ← load p
  let va ← load ab.1
  let vb ← load ab.2
  if cmp vp va ≤ 0 then getLiquidityForAmount0 ab.1 ab.2 amount0
  else if cmp vp vb < 0 then do
    let liquidity0 ← getLiquidityForAmount0 p ab.2 amount0
    let liquidity1 ← getLiquidityForAmount1 ab.1 p amount1
    let v0 ← load liquidity0
    let v1 ← load liquidity1
    if cmp v0 v1 < 0 then return liquidity0 else return liquidity1
  else getLiquidityForAmount1 ab.1 ab.2 amount1

/-- `/repo/lib/liquidity_amounts/liquidity_amounts.go:45-53` `getAmount0ForLiquidity`. -/
def getAmount0ForLiquidity (a b liquidity : Nat) : HM Nat := do
  let ab ← order a b
  let temp1 ← mk fun z => lsh z liquidity 96
  let temp2 ← mk fun z => sub z ab.2 ab.1
  let temp3 ← mulDiv temp1 temp2 ab.2
  mk fun z => div z temp3 ab.1

/-- `/repo/lib/liquidity_amounts/liquidity_amounts.go:55-61` `getAmount1ForLiquidity`. -/
def getAmount1ForLiquidity (a b liquidity : Nat) : HM Nat := do
  let ab ← order a b
  let temp1 ← mk fun z => sub z ab.2 ab.1
  mulDiv liquidity temp1 q96At

/-- `/repo/lib/liquidity_amounts/liquidity_amounts.go:63-77` `GetAmountsForLiquidity`. -/
def getAmountsForLiquidity (p a b liquidity : Nat) : HM (Nat × Nat) := do
  let ab ← order a b
  let zero0 ← new zero
  let zero1 ← new zero
  let vp ← load p
  let va ← load ab.1
  let vb ← load ab.2
  if cmp vp va ≤ 0 then do
    let amount0 ← getAmount0ForLiquidity ab.1 ab.2 liquidity
    return (amount0, zero1)
  else if cmp vp vb < 0 then do
    let amount0 ← getAmount0ForLiquidity p ab.2 liquidity
    let amount1 ← getAmount1ForLiquidity ab.1 p liquidity
    return (amount0, amount1)
  else do
    let amount1 ← getAmount1ForLiquidity ab.1 ab.2 liquidity
    return (zero0, amount1)

end Ptr
end Uni
