import Verif.Model.TickMath
import Verif.Model.SwapMath
import Verif.Model.TickData
import Verif.Model.Position
/-! # `lib/pool`

Pools are modelled as values.  Every `*ui.Int` reachable from a pool is created by that pool (`Clone`, `new`,
`NewInt`) except the price passed to `NewPool`, so in-place updates are record updates.  Sharing between a pool and
its clone is treated in `Model/Heap.lean`.  The state left behind by a panic is not modelled: nothing in the
repository recovers from a panic.  The `Positions` map is a function from keys to optional records. -/
namespace Uni
open U256 FullMath SqrtPriceMath SwapMath TickMath

/-- `/repo/lib/pool/pool.go:34-46` `Pool`. -/
structure Pool where
  token0 : String
  token1 : String
  fee : Int
  price : U256
  liquidity : U256
  growth0 : U256
  growth1 : U256
  spacing : Int
  tick : Int
  ticks : TickData
  positions : String → Option Info

/-- `/repo/lib/pool/pool.go:25-32` `stateStruct`, together with the tick store that the loop updates in place. -/
structure SwapState where
  remaining : U256
  calculated : U256
  price : U256
  tick : Int
  growth : U256
  liquidity : U256
  ticks : TickData

namespace Pool

/-- `/repo/lib/pool/pool.go:48-70` `NewPool`. -/
def new (token0 token1 : String) (fee : Int) (price : U256) : Go Pool := do
  invariant (decide (fee ≥ 0) && decide (fee ≤ 1000000))
  let tick ← getTickAtSqrtRatio price
  return { token0, token1, fee, price, liquidity := zero, growth0 := zero, growth1 := zero,
           spacing := Cons.tickSpaces fee, tick, ticks := TickData.new (Cons.tickSpaces fee), positions := fun _ => none }

/-- Go conversion `string(i)` of an `int`: the UTF-8 text of the code point, U+FFFD if `i` is not a valid one.
`/repo/lib/pool/pool.go:100` -/
def runeStr (i : Int) : String :=
  if 0 ≤ i ∧ Nat.isValidChar i.toNat then String.singleton (Char.ofNat i.toNat) else String.singleton (Char.ofNat 0xFFFD)

/-- `/repo/lib/pool/pool.go:100` the key of a position. -/
def posKey (lower upper : Int) : String := runeStr lower ++ "-" ++ runeStr upper

/-- Go map assignment `m[k] = v`. -/
def setPos (m : String → Option Info) (k : String) (v : Info) : String → Option Info :=
  fun k' => if k' = k then some v else m k'

/-- `/repo/lib/pool/pool.go:101-103` the record an update starts from: a new one if there is none. -/
def posOrNew (o : Option Info) : Info :=
  match o with
  | some i => i
  | none => Info.new

/-- `/repo/lib/pool/pool.go:94-97` the tick updates of `updatePosition`: results are the two flags and the store. -/
def updateBounds (p : Pool) (lower upper : Int) (amount : U256) : Go (Bool × Bool × TickData) :=
  if amount.isZero then .ok (false, false, p.ticks)
  else do
    let a ← p.ticks.updateTick lower p.tick amount p.growth0 p.growth1 false
    let b ← a.2.updateTick upper p.tick amount p.growth0 p.growth1 true
    return (a.1, b.1, b.2)

/-- `if c { ClearTick(i) }`.  `/repo/lib/pool/pool.go:111-113` -/
def clearIf (c : Bool) (t : TickData) (i : Int) : Go TickData := if c then t.clearTick i else .ok t

/-- `/repo/lib/pool/pool.go:91-119` `updatePosition`.  Result: the position record and the new pool. -/
def updatePosition (p : Pool) (lower upper : Int) (amount : U256) : Go (Info × Pool) := do
  let b ← p.updateBounds lower upper amount
  let ins ← b.2.2.getFeeGrowthInside lower upper p.tick p.growth0 p.growth1
  let pos ← (posOrNew (p.positions (posKey lower upper))).update amount ins.1 ins.2
  let neg := decide (amount.sign = -1)
  let t1 ← clearIf (neg && b.1) b.2.2 lower
  let t2 ← clearIf (neg && b.2.1) t1 upper
  return (pos, { p with ticks := t2, positions := setPos p.positions (posKey lower upper) pos })

/-- `/repo/lib/pool/pool.go:121-125` `checkTicks`. -/
def checkTicks (lower upper : Int) : Go Unit := do
  invariant (decide (lower < upper))
  invariant (decide (lower ≥ minTick))
  invariant (decide (upper ≤ maxTick))

/-- `/repo/lib/pool/pool.go:134-144` the signed amounts of a liquidity change at the current price. -/
def amountsFor (p : Pool) (lower upper : Int) (amount : U256) : Go (U256 × U256) :=
  if p.tick < lower then do
    let a ← getSqrtRatioAtTick lower
    let b ← getSqrtRatioAtTick upper
    let amount0 ← getAmount0DeltaRounded a b amount
    return (amount0, zero)
  else if p.tick < upper then do
    let b ← getSqrtRatioAtTick upper
    let amount0 ← getAmount0DeltaRounded p.price b amount
    let a ← getSqrtRatioAtTick lower
    let amount1 ← getAmount1DeltaRounded p.price a amount
    return (amount0, amount1)
  else do
    let a ← getSqrtRatioAtTick lower
    let b ← getSqrtRatioAtTick upper
    let amount1 ← getAmount1DeltaRounded a b amount
    return (zero, amount1)

/-- `/repo/lib/pool/pool.go:127-147` `modifyPositionStrategy`.  Results: position record, amount0, amount1, pool. -/
def modifyPositionStrategy (p : Pool) (lower upper : Int) (amount : U256) : Go (Info × U256 × U256 × Pool) := do
  checkTicks lower upper
  let r ← p.updatePosition lower upper amount
  if amount.isZero then return (r.1, zero, zero, r.2)
  else do
    let am ← r.2.amountsFor lower upper amount
    if lower ≤ p.tick ∧ p.tick < upper then
      return (r.1, am.1, am.2, { r.2 with liquidity := add r.2.liquidity amount })
    else return (r.1, am.1, am.2, r.2)

/-- `/repo/lib/pool/pool.go:149-153` `MintStrategy`. -/
def mintStrategy (p : Pool) (lower upper : Int) (amount : U256) : Go (U256 × U256 × Pool) := do
  invariant (amount.sgt zero)
  let r ← p.modifyPositionStrategy lower upper amount
  return r.2

/-- `/repo/lib/pool/pool.go:156-166` `BurnStrategy` (the owed amounts are added to the record in the map). -/
def burnStrategy (p : Pool) (lower upper : Int) (amount : U256) : Go (U256 × U256 × Pool) := do
  let r ← p.modifyPositionStrategy lower upper (neg amount)
  let amount0 := neg r.2.1
  let amount1 := neg r.2.2.1
  let pos := r.1
  let pool := r.2.2.2
  return (amount0, amount1, { pool with
    positions := setPos pool.positions (posKey lower upper)
      { pos with owed0 := add pos.owed0 amount0, owed1 := add pos.owed1 amount1 } })

/-- `/repo/lib/pool/pool.go:169-181` `CollectStrategy` (a missing record is a nil dereference). -/
def collectStrategy (p : Pool) (lower upper : Int) : Go (U256 × U256 × Pool) :=
  match p.positions (posKey lower upper) with
  | none => goPanic
  | some pos => .ok (pos.owed0, pos.owed1,
      { p with positions := setPos p.positions (posKey lower upper) { pos with owed0 := zero, owed1 := zero } })

/-- `/repo/lib/pool/pool.go:204-219` `modifyPosition`. -/
def modifyPosition (p : Pool) (lower upper : Int) (amount : U256) : Go Pool := do
  checkTicks lower upper
  let a ← p.ticks.updateTick lower p.tick amount p.growth0 p.growth1 false
  let b ← a.2.updateTick upper p.tick amount p.growth0 p.growth1 true
  let t1 ← clearIf a.1 b.2 lower
  let t2 ← clearIf b.1 t1 upper
  if p.tick ≥ lower ∧ p.tick < upper then return { p with ticks := t2, liquidity := add p.liquidity amount }
  else return { p with ticks := t2 }

/-- `/repo/lib/pool/pool.go:183-186` `Mint`. -/
def mint (p : Pool) (lower upper : Int) (amount : U256) : Go Pool := do
  invariant (amount.sgt zero)
  p.modifyPosition lower upper amount

/-- `/repo/lib/pool/pool.go:188-192` `Burn`. -/
def burn (p : Pool) (lower upper : Int) (amount : U256) : Go Pool := p.modifyPosition lower upper (neg amount)

/-- `/repo/lib/pool/pool.go:223-234` `Flash`. -/
def flash (p : Pool) (amount0 amount1 : U256) : Go Pool := do
  invariant (decide (p.liquidity.sign = 1))
  let fee0 ← mulDivRoundingUp amount0 (ofGoInt p.fee) (ofWord 1000000)
  let fee1 ← mulDivRoundingUp amount1 (ofGoInt p.fee) (ofWord 1000000)
  let f0 ← mulDiv fee0 Cons.q128 p.liquidity
  let f1 ← mulDiv fee1 Cons.q128 p.liquidity
  return { p with growth0 := add p.growth0 f0, growth1 := add p.growth1 f1 }

/-- `/repo/lib/pool/pool.go:282-286` clamping of the next tick. -/
def clampTick (t : Int) : Int := if t < minTick then minTick else if t > maxTick then maxTick else t

/-- `/repo/lib/pool/pool.go:289-302` the target price of a step. -/
def pickTarget (zeroForOne : Bool) (next limit : U256) : U256 :=
  if zeroForOne then (if cmp next limit < 0 then limit else next)
  else (if cmp next limit > 0 then limit else next)

/-- `/repo/lib/pool/pool.go:318-321` fee growth accrual of a step. -/
def accrue (fee liquidity growth : U256) : Go U256 :=
  if liquidity.sign > 0 then do
    let f ← mulDiv fee Cons.q128 liquidity
    return add growth f
  else .ok growth

/-- `/repo/lib/pool/pool.go:324-340` crossing an initialized tick: new liquidity and new store. -/
def crossTick (p : Pool) (zeroForOne initialized : Bool) (tickNext : Int) (growth liquidity : U256) (t : TickData) :
    Go (U256 × TickData) :=
  if initialized then do
    let c ← t.cross tickNext (if zeroForOne then growth else p.growth0) (if zeroForOne then p.growth1 else growth)
    return (if zeroForOne then sub liquidity c.1 else add liquidity c.1, c.2)
  else .ok (liquidity, t)

/-- `/repo/lib/pool/pool.go:323-348` the end of a step: crossing or moving the tick. -/
def finishStep (p : Pool) (zeroForOne initialized : Bool) (tickNext : Int) (priceNext : U256) (start s : SwapState) : Go SwapState :=
  if cmp s.price priceNext = 0 then do
    let c ← crossTick p zeroForOne initialized tickNext s.growth s.liquidity s.ticks
    return { s with liquidity := c.1, ticks := c.2, tick := if zeroForOne then tickNext - 1 else tickNext }
  else if cmp s.price start.price ≠ 0 then do
    let t ← getTickAtSqrtRatio s.price
    return { s with tick := t }
  else .ok s

/-- `/repo/lib/pool/pool.go:278-349` the body of the loop of `swap`. -/
def swapStep (p : Pool) (zeroForOne exactInput : Bool) (limit : U256) (s : SwapState) : Go SwapState := do
  let n ← s.ticks.nextInitializedTickWithinOneWord s.tick zeroForOne
  let tickNext := clampTick n.1
  let priceNext ← getSqrtRatioAtTick tickNext
  let st ← computeSwapStep s.price (pickTarget zeroForOne priceNext limit) s.liquidity s.remaining p.fee
  let g ← accrue st.fee s.liquidity s.growth
  finishStep p zeroForOne n.2 tickNext priceNext s
    { s with
      price := st.next
      remaining := if exactInput then sub s.remaining (add st.amountIn st.fee) else add s.remaining st.amountOut
      calculated := if exactInput then sub s.calculated st.amountOut else add s.calculated (add st.amountIn st.fee)
      growth := g }

/-- `/repo/lib/pool/pool.go:277` the loop condition of `swap`. -/
def running (limit : U256) (s : SwapState) : Bool := !s.remaining.isZero && decide (cmp s.price limit ≠ 0)

/-- `/repo/lib/pool/pool.go:277-350` the loop of `swap`, with fuel. -/
def swapLoop (p : Pool) (zeroForOne exactInput : Bool) (limit : U256) : Nat → SwapState → Go SwapState
  | 0, _ => .error .fuel
  | fuel + 1, s =>
    if running limit s then do
      let s' ← swapStep p zeroForOne exactInput limit s
      swapLoop p zeroForOne exactInput limit fuel s'
    else .ok s

/-- `/repo/lib/pool/pool.go:242-250` the effective price limit. -/
def effLimit (zeroForOne : Bool) (limit : U256) : U256 :=
  if limit.isZero then (if zeroForOne then add minSqrtRatio one else sub maxSqrtRatio one) else limit

/-- `/repo/lib/pool/pool.go:252-258` the check of the price limit. -/
def limitOk (p : Pool) (zeroForOne : Bool) (limit : U256) : Bool :=
  if zeroForOne then decide (cmp limit p.price = -1) && decide (cmp limit minSqrtRatio = 1)
  else decide (cmp limit p.price = 1) && decide (cmp limit maxSqrtRatio = -1)

/-- `/repo/lib/pool/pool.go:260-274` the initial loop state. -/
def initState (p : Pool) (zeroForOne : Bool) (amount : U256) : SwapState :=
  { remaining := amount, calculated := zero, price := p.price, tick := p.tick,
    growth := if zeroForOne then p.growth0 else p.growth1, liquidity := p.liquidity, ticks := p.ticks }

/-- `/repo/lib/pool/pool.go:351-360` the pool after the loop. -/
def afterSwap (p : Pool) (zeroForOne : Bool) (s : SwapState) : Pool :=
  { p with tick := s.tick, liquidity := s.liquidity, price := s.price, ticks := s.ticks,
           growth0 := if zeroForOne then s.growth else p.growth0, growth1 := if zeroForOne then p.growth1 else s.growth }

/-- `/repo/lib/pool/pool.go:362-370` the returned amounts. -/
def swapResult (zeroForOne exactInput : Bool) (amount : U256) (s : SwapState) : U256 × U256 :=
  if zeroForOne = exactInput then (sub amount s.remaining, s.calculated) else (s.calculated, sub amount s.remaining)

/-- `/repo/lib/pool/pool.go:238-371` `swap`.  The loop runs with the given fuel; `Err.fuel` means that it has not
finished after that many iterations. -/
def swap (fuel : Nat) (p : Pool) (zeroForOne : Bool) (amount limitIn : U256) : Go (U256 × U256 × Pool) := do
  invariant (!amount.isZero)
  let limit := effLimit zeroForOne limitIn
  invariant (limitOk p zeroForOne limit)
  let exactInput := decide (amount.sign ≥ 0)
  let s ← swapLoop p zeroForOne exactInput limit fuel (initState p zeroForOne amount)
  let r := swapResult zeroForOne exactInput amount s
  return (r.1, r.2, afterSwap p zeroForOne s)

/-- `/repo/lib/pool/pool.go:194-197` `ExactInputSwap`. -/
def exactInputSwap (fuel : Nat) (p : Pool) (amount : U256) (token : String) (limit : U256) : Go (U256 × U256 × Pool) :=
  swap fuel p (decide (token = p.token0)) amount limit

/-- `/repo/lib/pool/pool.go:199-202` `ExactOutputSwap`. -/
def exactOutputSwap (fuel : Nat) (p : Pool) (amount : U256) (token : String) (limit : U256) : Go (U256 × U256 × Pool) :=
  swap fuel p (decide (token = p.token1)) amount limit

end Pool
end Uni
