import Verif.Model.PtrPool
import Verif.Model.Executor
/-! # Price history, strategies and executor on memory

`lib/prices`, `lib/strategy` and `lib/executor` as programs that take and return pointers, on top of `Model/PtrPool.lean`: the
balances of a strategy are two numbers that are changed in place, positions and price histories hold pointers, and so do the
transactions and the recorded values.  The shape follows `Model/Strategy.lean` and `Model/Executor.lean`, where the same functions
work on values.

The structs and the backing arrays of the slices are held by one strategy or one execution only, so they are values that are passed
along.  `Volatility` computes with `big.Int`; those numbers are private to the call and are integers here. -/
namespace Uni
namespace Ptr
open InPlace U256

/-! ### `lib/prices` -/

/-- `/repo/lib/prices/prices.go:9-13` `Prices`. -/
structure HPrices where
  prices : List Nat
  index : Int
  length : Int

/-- What a history shows on a heap (`/repo/lib/prices/prices.go:9-13`). -/
def HPrices.view (h : Heap) (p : HPrices) : Prices := ⟨p.prices.map h.cell, p.index, p.length⟩

/-- `/repo/lib/prices/prices.go:17-19` `n` new numbers. -/
def newNumbers : Nat → HM (List Nat)
  | 0 => return []
  | n + 1 => do
    let x ← new (ofWord 0)
    let l ← newNumbers n
    return x :: l

/-- `/repo/lib/prices/prices.go:15-21` `NewPrices`. -/
def newPrices (len : Int) : HM HPrices :=
  if len < 0 then lift goPanic
  else do
    let l ← newNumbers len.toNat
    return ⟨l, 0, len⟩

/-- `/repo/lib/prices/prices.go:23-34` `Add`: the slice keeps a pointer to a new number. -/
def addPrice (p : HPrices) (price : Nat) : HM HPrices := do
  let square ← mk fun z => mul z price price
  let shifted ← mk fun z => rsh z square 230
  let v ← load shifted
  lift (invariant v.isZero)
  let prices ← lift (setIdx p.prices p.index square)
  if p.length = 0 then lift goPanic
  else return { p with prices := prices, index := (p.index + 1).tmod p.length }

/-- `/repo/lib/prices/prices.go:38-40` the sum, in place. -/
def sumLoop (sum : Nat) : List Nat → HM Unit
  | [] => return ()
  | x :: l => do
    add sum sum x
    sumLoop sum l

/-- `/repo/lib/prices/prices.go:36-43` `Average`: a new number. -/
def average (p : HPrices) : HM Nat := do
  let sum ← new zero
  sumLoop sum p.prices
  let length ← new (ofWord (BitVec.ofInt 64 p.length))
  mk fun z => div z sum length

/-- `/repo/lib/prices/prices.go:49-57` the loop of `Volatility`; `diff.Abs(diff)` is in place. -/
def squares (avg : Nat) : List Nat → Int → HM Int
  | [], sum => return sum
  | x :: l, sum => do
    let diff ← mk fun z => sub z x avg
    abs diff diff
    let v ← load diff
    lift (invariant (decide (0 ≤ toBig v)))
    squares avg l (sum + toBig v * toBig v)

/-- `/repo/lib/prices/prices.go:46-67` `Volatility`: a new number. -/
def volatility (p : HPrices) : HM Nat := do
  let avg ← average p
  let sum ← squares avg p.prices 0
  if p.length - 1 = 0 then lift goPanic
  else do
    lift (invariant (decide (0 ≤ sum / (p.length - 1))))
    lift (invariant (decide ((0 : Int) ≤ Nat.sqrt (sum / (p.length - 1)).toNat)))
    new (fromBig (Nat.sqrt (sum / (p.length - 1)).toNat)).1

/-! ### `lib/strategy` -/

/-- `/repo/lib/strategy/strategy.go:8-12` `Position`. -/
structure HStratPos where
  amount : Nat
  lower : Int
  upper : Int

/-- What a position shows on a heap (`/repo/lib/strategy/strategy.go:8-12`). -/
def HStratPos.view (h : Heap) (q : HStratPos) : StratPos := ⟨h.cell q.amount, q.lower, q.upper⟩

/-- A strategy: the structs cited at `Kind` and `Strat`, with pointers.  `multiplier` is the field `MultiplierX10` of the three
strategies that have it (`/repo/lib/strategy/bollinger_bands.go:20`); in the others it is not used and points to `cons.Zero`. -/
structure HStrat where
  kind : Kind
  amount0 : Nat
  amount1 : Nat
  pool : HPool
  positions : List HStratPos
  tickLower : Int
  tickUpper : Int
  limitTick : Int
  direction : Bool
  history : HPrices
  multiplier : Nat

/-- What a strategy shows on a heap (`/repo/lib/strategy/strategy.go:14-23`). -/
def HStrat.view (h : Heap) (s : HStrat) : Strat :=
  { kind := s.kind, amount0 := h.cell s.amount0, amount1 := h.cell s.amount1, pool := s.pool.view h,
    positions := s.positions.map (HStratPos.view h), tickLower := s.tickLower, tickUpper := s.tickUpper,
    limitTick := s.limitTick, direction := s.direction, history := s.history.view h }

/-- The price history a constructor creates (`/repo/lib/strategy/bollinger_bands.go:25`). -/
def newHistory : Kind → HM HPrices
  | .aroundAverage _ n => newPrices n
  | .bollinger n _ => newPrices n
  | .bollingerFillUp n _ => newPrices n
  | .volatilitySized n _ => newPrices n
  | _ => return ⟨[], 0, 0⟩

/-- `/repo/lib/strategy/bollinger_bands.go:26` and the same line of the other two: the multiplier, if the strategy has one. -/
def newMultiplier : Kind → HM Nat
  | .bollinger _ m => new (ofWord (BitVec.ofInt 64 m))
  | .bollingerFillUp _ m => new (ofWord (BitVec.ofInt 64 m))
  | .volatilitySized _ m => new (ofWord (BitVec.ofInt 64 m))
  | _ => return zeroAt

/-- The constructors: `/repo/lib/strategy/constant_intervall_strategy.go:26-34`,
`/repo/lib/strategy/interval_around_current_price.go:44-52`, `/repo/lib/strategy/2_interval_around_price.go:29-38`,
`/repo/lib/strategy/interval_around_average.go:24-34`, `/repo/lib/strategy/bollinger_bands.go:24-35`,
`/repo/lib/strategy/bollinger_fill_up.go:25-36`, `/repo/lib/strategy/volatility_sized_intervals.go:24-35`,
`/repo/lib/strategy/fill_up.go:26-34`, `/repo/lib/strategy/limit_order.go:39-47`,
`/repo/lib/strategy/swap_half_constant_interval_current_price.go:44-52`, `/repo/lib/strategy/v2_strategy.go:32-39`,
`/repo/lib/strategy/no_provision.go:24-30`. -/
def newStrat (kind : Kind) (amount0 amount1 : Nat) (pool : HPool) : HM HStrat := do
  let history ← newHistory kind
  let multiplier ← newMultiplier kind
  let a0 ← clone amount0
  let a1 ← clone amount1
  let p ← clonePool pool
  return { kind, amount0 := a0, amount1 := a1, pool := p, positions := [], tickLower := 0, tickUpper := 0,
           limitTick := 0, direction := false, history, multiplier }

/-- The loop of `GetAmounts`: `/repo/lib/strategy/constant_intervall_strategy.go:42-48`; the sums are changed in place. -/
def amountsLoop (price acc0 acc1 : Nat) : List HStratPos → HM Unit
  | [] => return ()
  | q :: qs => do
    let a ← getSqrtRatioAtTick q.lower
    let b ← getSqrtRatioAtTick q.upper
    let r ← getAmountsForLiquidity price a b q.amount
    add acc0 acc0 r.1
    add acc1 acc1 r.2
    amountsLoop price acc0 acc1 qs

/-- `GetAmounts` of the strategies with positions: `/repo/lib/strategy/constant_intervall_strategy.go:40-52` and the copies cited
at `Strat.getAmounts`. -/
def sumAmounts (s : HStrat) : HM (Nat × Nat) := do
  let acc0 ← new zero
  let acc1 ← new zero
  amountsLoop s.pool.price acc0 acc1 s.positions
  add acc0 acc0 s.amount0
  add acc1 acc1 s.amount1
  return (acc0, acc1)

/-- Copies of the balances: `/repo/lib/strategy/no_provision.go:37,42,47`, and the same expression elsewhere. -/
def balances (s : HStrat) : HM (Nat × Nat) := do
  let a ← clone s.amount0
  let b ← clone s.amount1
  return (a, b)

/-- `GetAmounts`: `/repo/lib/strategy/constant_intervall_strategy.go:40-52` and the copies cited at `Strat.getAmounts`;
`/repo/lib/strategy/no_provision.go:36-39`. -/
def getAmounts (s : HStrat) : HM (Nat × Nat) :=
  match s.kind with
  | .noProvision => balances s
  | _ => sumAmounts s

/-- The loop that closes all positions: `/repo/lib/strategy/constant_intervall_strategy.go:55-60,91-96`; the balances are changed
in place. -/
def burnLoop : List HStratPos → HStrat → HM HStrat
  | [], s => return s
  | q :: qs, s => do
    let b ← burnStrategy s.pool q.lower q.upper q.amount
    let c ← collectStrategy b.2.2 q.lower q.upper
    add s.amount0 s.amount0 c.1
    add s.amount1 s.amount1 c.2.1
    burnLoop qs { s with pool := c.2.2 }

/-- Close all positions, copy the balances, clear the list: `/repo/lib/strategy/constant_intervall_strategy.go:91-98` and the
copies cited at `Strat.closeAll`. -/
def closeAll (s : HStrat) : HM ((Nat × Nat) × HStrat) := do
  let s1 ← burnLoop s.positions s
  let r ← balances s1
  return (r, { s1 with positions := [] })

/-- The `BurnAll` that keeps the list of positions: `/repo/lib/strategy/constant_intervall_strategy.go:54-63`,
`/repo/lib/strategy/interval_around_current_price.go:54-63`, `/repo/lib/strategy/2_interval_around_price.go:58-67`. -/
def closeAllKeep (s : HStrat) : HM ((Nat × Nat) × HStrat) := do
  let s1 ← burnLoop s.positions s
  let r ← balances s1
  return (r, s1)

/-- `BurnAll` of a strategy without positions: `/repo/lib/strategy/no_provision.go:41-44`. -/
def closeNone (s : HStrat) : HM ((Nat × Nat) × HStrat) := do
  let r ← balances s
  return (r, s)

/-- `BurnAll` of the twelve strategies: the functions cited at `Strat.burnAll`, `/repo/lib/strategy/no_provision.go:41-44`. -/
def burnAll (s : HStrat) : HM ((Nat × Nat) × HStrat) :=
  match s.kind with
  | .constantInterval _ => closeAllKeep s
  | .aroundPrice _ => closeAllKeep s
  | .twoInterval _ _ => closeAllKeep s
  | .noProvision => closeNone s
  | _ => closeAll s

/-- `/repo/lib/strategy/limit_order.go:76-86` `mintAmount`, and the end of every `mintPosition`, for example
`/repo/lib/strategy/v2_strategy.go:79-87`: the position keeps the pointer that is passed to the pool, the balances are changed in
place. -/
def mintAmount (s : HStrat) (lower upper : Int) (amount : Nat) : HM HStrat := do
  let m ← mintStrategy s.pool lower upper amount
  sub s.amount0 s.amount0 m.1
  sub s.amount1 s.amount1 m.2.1
  return { s with positions := s.positions ++ [⟨amount, lower, upper⟩], pool := m.2.2 }

/-- `/repo/lib/strategy/v2_strategy.go:72-75` and the same lines of the other strategies: a new number. -/
def affordable (s : HStrat) (lower upper : Int) : HM Nat := do
  let a ← getSqrtRatioAtTick lower
  let b ← getSqrtRatioAtTick upper
  getLiquidityForAmount s.pool.price a b s.amount0 s.amount1

/-- `mintPosition`: `/repo/lib/strategy/v2_strategy.go:71-88` and the copies cited at `Strat.mintPosition`. -/
def mintPosition (s : HStrat) (lower upper : Int) : HM HStrat := do
  let amount ← affordable s lower upper
  let v ← load amount
  if v.isZero then return s
  else mintAmount s lower upper amount

/-- The mint of `Init` that does not test for zero: `/repo/lib/strategy/constant_intervall_strategy.go:73-84`,
`/repo/lib/strategy/interval_around_current_price.go:73-85`. -/
def mintUnchecked (s : HStrat) (lower upper : Int) : HM HStrat := do
  let amount ← affordable s lower upper
  mintAmount s lower upper amount

/-- `/repo/lib/strategy/limit_order.go:88-98` `mintHalf`. -/
def mintHalf (s : HStrat) (lower upper : Int) : HM HStrat := do
  let amount ← affordable s lower upper
  let two ← new (ofWord 2)
  let half ← mk fun z => div z amount two
  let v ← load half
  if v.isZero then return s
  else mintAmount s lower upper half

/-- `/repo/lib/strategy/swap_half_constant_interval_current_price.go:83-85,91-93` swap and pay for it, in place. -/
def swapPay (s : HStrat) (fuel : Nat) (amount : Nat) (token : String) : HM HStrat := do
  let r ← exactInputSwap fuel s.pool amount token zeroAt
  sub s.amount0 s.amount0 r.1
  sub s.amount1 s.amount1 r.2.1
  return { s with pool := r.2.2 }

/-- `/repo/lib/strategy/swap_half_constant_interval_current_price.go:81-86,89-94` half of the excess, if it is positive. -/
def swapHalfOf (s : HStrat) (fuel : Nat) (diff : Nat) (token : String) : HM HStrat := do
  let two ← new (ofWord 2)
  let half ← mk fun z => div z diff two
  let v ← load half
  if v.sign = 1 then swapPay s fuel half token else return s

/-- `/repo/lib/strategy/swap_half_constant_interval_current_price.go:70-95` the swap of one half of the excess. -/
def swapExcess (s : HStrat) (fuel : Nat) (a b : Nat) : HM HStrat := do
  let noSwap ← getLiquidityForAmount s.pool.price a b s.amount0 s.amount1
  let used ← getAmountsForLiquidity s.pool.price a b noSwap
  let diff0 ← mk fun z => sub z s.amount0 used.1
  let cmp0 ← mk fun z => lsh z diff0 9
  let diff1 ← mk fun z => sub z s.amount1 used.2
  let v0 ← load cmp0
  let v1 ← load diff1
  if cmp v0 v1 > 0 then swapHalfOf s fuel diff0 s.pool.token0
  else swapHalfOf s fuel diff1 s.pool.token1

/-- `/repo/lib/strategy/swap_half_constant_interval_current_price.go:66-107` `mintPosition` of the swapping strategy. -/
def swapMint (s : HStrat) (fuel : Nat) (lower upper : Int) : HM HStrat := do
  let a ← getSqrtRatioAtTick lower
  let b ← getSqrtRatioAtTick upper
  let s1 ← swapExcess s fuel a b
  let amount ← getLiquidityForAmount s1.pool.price a b s1.amount0 s1.amount1
  mintAmount s1 lower upper amount

/-- The tick spacing the strategies use: `/repo/lib/strategy/fill_up.go:83` and the same line elsewhere. -/
def unit (s : HStrat) : Int := Cons.tickSpaces s.pool.fee

/-- The interval around a tick: `/repo/lib/strategy/fill_up.go:83-85` and the same lines elsewhere. -/
def around (s : HStrat) (tick width : Int) : Int × Int :=
  (TickRound.round (tick - width) (unit s), TickRound.round (tick + width) (unit s))

/-- `/repo/lib/strategy/2_interval_around_price.go:98-102,133-137` the second position, above the price. -/
def twoAbove (s : HStrat) (unit b : Int) : HM HStrat := do
  let v ← load s.amount0
  if v.isZero then return s
  else mintPosition s (TickRound.ceil s.pool.tick unit) (TickRound.ceil s.pool.tick unit + b)

/-- `/repo/lib/strategy/2_interval_around_price.go:104-108,139-143` the second position, below the price. -/
def twoBelow (s : HStrat) (unit b : Int) : HM HStrat := do
  let v ← load s.amount1
  if v.isZero then return s
  else mintPosition s (TickRound.floor s.pool.tick unit - b) (TickRound.floor s.pool.tick unit)

/-- `/repo/lib/strategy/2_interval_around_price.go:90-108,127-143` the positions of the two-interval strategy. -/
def setTwo (s : HStrat) (a b : Int) : HM HStrat := do
  let s1 ← mintPosition s (around s s.pool.tick a).1 (around s s.pool.tick a).2
  let s2 ← twoAbove s1 (unit s) b
  twoBelow s2 (unit s) b

/-- `/repo/lib/strategy/fill_up.go:89-99`, `/repo/lib/strategy/bollinger_fill_up.go:135-146` use what is left. -/
def fillSide (s : HStrat) (lower upper : Int) : HM HStrat := do
  let v0 ← load s.amount0
  if !v0.isZero then
    (if TickRound.ceil s.pool.tick (unit s) < upper then mintPosition s (TickRound.ceil s.pool.tick (unit s)) upper else return s)
  else do
    let v1 ← load s.amount1
    if !v1.isZero then
      (if lower < TickRound.floor s.pool.tick (unit s) then mintPosition s lower (TickRound.floor s.pool.tick (unit s)) else return s)
    else return s

/-- `/repo/lib/strategy/fill_up.go:81-101` `setPositions`. -/
def setFill (s : HStrat) (width : Int) : HM HStrat := do
  let s1 ← mintPosition s (around s s.pool.tick width).1 (around s s.pool.tick width).2
  fillSide s1 (around s s.pool.tick width).1 (around s s.pool.tick width).2

/-- `/repo/lib/strategy/limit_order.go:119-125` the limit order above the price. -/
def limitAbove (s : HStrat) (unit : Int) : HM HStrat := do
  let v ← load s.amount0
  if v.isZero then return s
  else do
    let s1 ← mintHalf s (TickRound.ceil s.pool.tick unit) (TickRound.ceil s.pool.tick unit + 10)
    return { s1 with limitTick := TickRound.ceil s.pool.tick unit + 10, direction := true }

/-- `/repo/lib/strategy/limit_order.go:127-133` the limit order below the price. -/
def limitBelow (s : HStrat) (unit : Int) : HM HStrat := do
  let v ← load s.amount1
  if v.isZero then return s
  else do
    let s1 ← mintHalf s (TickRound.floor s.pool.tick unit - 10) (TickRound.floor s.pool.tick unit)
    return { s1 with limitTick := TickRound.floor s.pool.tick unit - 10, direction := false }

/-- `/repo/lib/strategy/limit_order.go:112-134` `setPositions`. -/
def setLimit (s : HStrat) (width : Int) : HM HStrat := do
  let s1 ← mintPosition s (around s s.pool.tick width).1 (around s s.pool.tick width).2
  let s2 ← limitAbove s1 (unit s)
  limitBelow s2 (unit s)

/-- `/repo/lib/strategy/interval_around_average.go:72-80` `getTicks`. -/
def averageTicks (s : HStrat) (width : Int) : HM (Int × Int) := do
  let priceX192 ← average s.history
  let sqrtPriceX96 ← mk fun z => sqrt z priceX192
  let tick ← getTickAtSqrtRatio sqrtPriceX96
  return around s tick width

/-- `/repo/lib/strategy/bollinger_bands.go:74-77`, `/repo/lib/strategy/bollinger_fill_up.go:75-78`,
`/repo/lib/strategy/volatility_sized_intervals.go:74,76-78` the half width of the band: a new number. -/
def bandWidth (s : HStrat) : HM Nat := do
  let vol ← volatility s.history
  let scaled ← mk fun z => mul z vol s.multiplier
  let shifted ← mk fun z => rsh z scaled 10
  mk fun z => sqrt z shifted

/-- `/repo/lib/strategy/bollinger_bands.go:85-89` and the same lines of the other two: the lower end. -/
def bandLower (a : Nat) (overflow : Bool) : HM Int := do
  let v ← load a
  let m ← load minSqrtRatioAt
  if overflow || decide (cmp v m = -1) then return TickMath.minTick else getTickAtSqrtRatio a

/-- `/repo/lib/strategy/bollinger_bands.go:91-95` and the same lines of the other two: the upper end. -/
def bandUpper (b : Nat) (overflow : Bool) : HM Int := do
  let v ← load b
  let m ← load maxSqrtRatioAt
  if overflow || decide (cmp v m = 1) then return TickMath.maxTick else getTickAtSqrtRatio b

/-- `/repo/lib/strategy/bollinger_bands.go:82-97`, `/repo/lib/strategy/bollinger_fill_up.go:83-98`,
`/repo/lib/strategy/volatility_sized_intervals.go:80-95` the ticks of a band around a price. -/
def band (centre width : Nat) : HM (Int × Int) := do
  let a ← new zero
  let overflow0 ← subOverflow a centre width
  let b ← new zero
  let overflow1 ← addOverflow b centre width
  let lower ← bandLower a overflow0
  let upper ← bandUpper b overflow1
  return (lower, upper)

/-- `/repo/lib/strategy/bollinger_bands.go:73-98`, `/repo/lib/strategy/bollinger_fill_up.go:74-99` `getTicks`. -/
def bollingerTicks (s : HStrat) : HM (Int × Int) := do
  let width ← bandWidth s
  let priceX192 ← average s.history
  let sqrtPriceX96 ← mk fun z => sqrt z priceX192
  band sqrtPriceX96 width

/-- `/repo/lib/strategy/volatility_sized_intervals.go:73-96` `getTicks`. -/
def volatilityTicks (s : HStrat) : HM (Int × Int) := do
  let width ← bandWidth s
  band s.pool.price width

/-- `/repo/lib/strategy/bollinger_fill_up.go:131-147` the positions after a rebalance. -/
def setBollingerFill (s : HStrat) : HM HStrat := do
  let r ← bollingerTicks s
  let s1 ← mintPosition s r.1 r.2
  if r.1 ≤ s1.pool.tick ∧ s1.pool.tick ≤ r.2 then fillSide s1 r.1 r.2 else return s1

/-- New positions of `Init`: `/repo/lib/strategy/constant_intervall_strategy.go:68-84` and the functions cited at
`Strat.openFirst`. -/
def openFirst (s : HStrat) (fuel : Nat) : HM HStrat :=
  match s.kind with
  | .constantInterval width =>
    mintUnchecked { s with tickLower := (around s s.pool.tick width).1, tickUpper := (around s s.pool.tick width).2 }
      (around s s.pool.tick width).1 (around s s.pool.tick width).2
  | .aroundPrice width => mintUnchecked s (around s s.pool.tick width).1 (around s s.pool.tick width).2
  | .twoInterval a b => setTwo s a b
  | .aroundAverage width _ => do
    let r ← averageTicks s width
    mintPosition s r.1 r.2
  | .bollinger _ _ => do
    let r ← bollingerTicks s
    mintPosition s r.1 r.2
  | .bollingerFillUp _ _ => do
    let r ← bollingerTicks s
    mintPosition s r.1 r.2
  | .volatilitySized _ _ => do
    let r ← volatilityTicks s
    mintPosition s r.1 r.2
  | .fillUp width => setFill s width
  | .limitOrder width => setLimit s width
  | .swapHalf width => swapMint s fuel (around s s.pool.tick width).1 (around s s.pool.tick width).2
  | .v2 => mintPosition s (-887270) 887270
  | .noProvision => return s

/-- New positions of `Rebalance`: `/repo/lib/strategy/constant_intervall_strategy.go:99-116` and the functions cited at
`Strat.openAgain`. -/
def openAgain (s : HStrat) (fuel : Nat) : HM HStrat :=
  match s.kind with
  | .constantInterval _ => mintPosition s s.tickLower s.tickUpper
  | .aroundPrice width => mintPosition s (around s s.pool.tick width).1 (around s s.pool.tick width).2
  | .twoInterval a b => setTwo s a b
  | .aroundAverage width _ => do
    let r ← averageTicks s width
    mintPosition s r.1 r.2
  | .bollinger _ _ => do
    let r ← bollingerTicks s
    mintPosition s r.1 r.2
  | .bollingerFillUp _ _ => setBollingerFill s
  | .volatilitySized _ _ => do
    let r ← volatilityTicks s
    mintPosition s r.1 r.2
  | .fillUp width => setFill s width
  | .limitOrder width => setLimit s width
  | .swapHalf width => swapMint s fuel (around s s.pool.tick width).1 (around s s.pool.tick width).2
  | .v2 => mintPosition s (-887270) 887270
  | .noProvision => return s

/-- `Init` of the twelve strategies: `/repo/lib/strategy/v2_strategy.go:90-98` and the functions cited at `Strat.init`; the
returned numbers are copies made before the balances change. -/
def init (s : HStrat) (fuel : Nat) : HM ((Nat × Nat) × HStrat) := do
  let r ← balances s
  let s' ← openFirst s fuel
  return (r, s')

/-- `Rebalance` of a strategy with positions: `/repo/lib/strategy/v2_strategy.go:18-26` and the functions cited at
`Strat.rebalance`. -/
def reopen (s : HStrat) (fuel : Nat) : HM (Option (Nat × Nat) × HStrat) := do
  let c ← closeAll s
  let s' ← openAgain c.2 fuel
  return (some c.1, s')

/-- `Rebalance` of the twelve strategies: the functions cited at `Strat.rebalance`; `/repo/lib/strategy/no_provision.go:15-18`
returns nil, nil. -/
def rebalance (s : HStrat) (fuel : Nat) : HM (Option (Nat × Nat) × HStrat) :=
  match s.kind with
  | .noProvision => return (none, s)
  | _ => reopen s fuel

/-- `/repo/lib/strategy/bollinger_bands.go:41-45` and the copies: the history gets the current price. -/
def snapshotPrice (s : HStrat) : HM HStrat := do
  let p ← addPrice s.history s.pool.price
  return { s with history := p }

/-- `MakeSnapshot`: `/repo/lib/strategy/bollinger_bands.go:41-45` and the functions cited at `Strat.makeSnapshot`. -/
def makeSnapshot (s : HStrat) : HM HStrat :=
  match s.kind with
  | .aroundAverage _ _ | .bollinger _ _ | .bollingerFillUp _ _ | .volatilitySized _ _ => snapshotPrice s
  | _ => return s

/-! ### `lib/executor` -/

/-- `/repo/lib/transaction/transaction.go:23-35` `Transaction`. -/
structure HTrans where
  type : String
  amount : Nat
  amount0 : Nat
  amount1 : Nat
  id : String
  sqrtPrice : Nat
  tick : Int
  tickLower : Int
  tickUpper : Int
  timestamp : Int
  useX96 : Bool

/-- What a transaction shows on a heap (`/repo/lib/transaction/transaction.go:23-35`). -/
def HTrans.view (h : Heap) (t : HTrans) : Transaction :=
  { type := t.type, amount := h.cell t.amount, amount0 := h.cell t.amount0, amount1 := h.cell t.amount1, id := t.id,
    sqrtPrice := h.cell t.sqrtPrice, tick := t.tick, tickLower := t.tickLower, tickUpper := t.tickUpper,
    timestamp := t.timestamp, useX96 := t.useX96 }

/-- `/repo/lib/executor/executor.go:113-117` a swap: the amounts of the transaction are passed to the pool as they are. -/
def applySwap (fuel : Nat) (t : HTrans) (p : HPool) : HM HPool := do
  let v0 ← load t.amount0
  if v0.sign > 0 then do
    let r ← exactInputSwap fuel p t.amount0 p.token0 zeroAt
    return r.2.2
  else do
    let v1 ← load t.amount1
    if v1.sign > 0 then do
      let r ← exactInputSwap fuel p t.amount1 p.token1 zeroAt
      return r.2.2
    else return p

/-- `/repo/lib/executor/executor.go:107-120` the `switch` that applies a transaction to the pool. -/
def applyTo (fuel : Nat) (t : HTrans) (p : HPool) : HM HPool :=
  if t.type = "Mint" then mint p t.tickLower t.tickUpper t.amount
  else if t.type = "Burn" then burn p t.tickLower t.tickUpper t.amount
  else if t.type = "Swap" then applySwap fuel t p
  else if t.type = "Flash" then flash p t.amount0 t.amount1
  else return p

/-- `/repo/lib/executor/executor.go:12-21` `Execution`. -/
structure HExec where
  strategy : HStrat
  startTime : Int
  endTime : Int
  updateInterval : Int
  snapShotInterval : Int
  pricesSnapshotsInterval : Int
  snapshots : List Nat
  transactions : List HTrans

/-- What an execution shows on a heap (`/repo/lib/executor/executor.go:12-21`). -/
def HExec.view (h : Heap) (e : HExec) : Execution :=
  { strategy := e.strategy.view h, startTime := e.startTime, endTime := e.endTime, updateInterval := e.updateInterval,
    snapShotInterval := e.snapShotInterval, pricesSnapshotsInterval := e.pricesSnapshotsInterval,
    snapshots := e.snapshots.map h.cell, transactions := e.transactions.map (HTrans.view h) }

/-- The local variables of `Run` (`/repo/lib/executor/executor.go:42-50`). -/
structure HRun where
  strategy : HStrat
  started : Bool
  nextUpdate : Int
  nextSnapshot : Int
  nextPrice : Int
  snapshots : List Nat

/-- What the local variables of `Run` (`/repo/lib/executor/executor.go:42-50`) show on a heap. -/
def HRun.view (h : Heap) (r : HRun) : RunState :=
  ⟨r.strategy.view h, r.started, r.nextUpdate, r.nextSnapshot, r.nextPrice, r.snapshots.map h.cell⟩

/-- `/repo/lib/executor/executor.go:23-40` `CreateExecution`: it touches no number. -/
def create (strategy : HStrat) (startTime endTime updateInterval snapShotInterval priceSnapshotInterval : Int)
    (transactions : List HTrans) : Go HExec := do
  let last ← idx transactions (transactions.length - 1)
  if updateInterval = 0 then goPanic
  else
    if (subInt last.timestamp startTime).tdiv updateInterval < 0 then goPanic
    else return { strategy, startTime, endTime, updateInterval, snapShotInterval,
                  pricesSnapshotsInterval := priceSnapshotInterval, snapshots := [], transactions }

/-- `/repo/lib/executor/executor.go:65-68,94-97,124-127` the value of two amounts in token0: a new number. -/
def usd (amounts : Nat × Nat) (price : Nat) : HM Nat := do
  let square ← mk fun z => mul z price price
  let x ← mulDiv amounts.2 q192At square
  mk fun z => add z x amounts.1

/-- `/repo/lib/executor/executor.go:61-74` start the strategy. -/
def startIf (e : HExec) (fuel : Nat) (t : HTrans) (st : HRun) : HM HRun :=
  if !st.started && decide (t.timestamp ≥ e.startTime) then do
    let r ← init st.strategy fuel
    let v ← usd r.1 r.2.pool.price
    return { st with strategy := r.2, snapshots := st.snapshots ++ [v],
                     nextUpdate := addInt t.timestamp e.updateInterval,
                     nextSnapshot := addInt t.timestamp e.snapShotInterval, started := true }
  else return st

/-- `/repo/lib/executor/executor.go:86-89` price snapshot. -/
def priceIf (e : HExec) (t : HTrans) (st : HRun) : HM HRun :=
  if t.timestamp > st.nextPrice then do
    let s ← makeSnapshot st.strategy
    return { st with strategy := s, nextPrice := addInt st.nextPrice e.pricesSnapshotsInterval }
  else return st

/-- `/repo/lib/executor/executor.go:92-100` value snapshot. -/
def valueIf (e : HExec) (t : HTrans) (st : HRun) : HM HRun :=
  if t.timestamp ≥ st.nextSnapshot then do
    let c ← getAmounts st.strategy
    let v ← usd c st.strategy.pool.price
    return { st with snapshots := st.snapshots ++ [v], nextSnapshot := addInt st.nextSnapshot e.snapShotInterval }
  else return st

/-- `/repo/lib/executor/executor.go:103-106` rebalance. -/
def rebalanceIf (e : HExec) (fuel : Nat) (t : HTrans) (st : HRun) : HM HRun :=
  if t.timestamp ≥ st.nextUpdate then do
    let r ← rebalance st.strategy fuel
    return { st with strategy := r.2, nextUpdate := addInt st.nextUpdate e.updateInterval }
  else return st

/-- `/repo/lib/executor/executor.go:107-120` the transaction itself. -/
def applyTrans (fuel : Nat) (t : HTrans) (st : HRun) : HM HRun := do
  let p ← applyTo fuel t st.strategy.pool
  return { st with strategy := { st.strategy with pool := p } }

/-- `/repo/lib/executor/executor.go:60-120` the body of the loop after the test for the end time. -/
def step (e : HExec) (fuel : Nat) (t : HTrans) (st : HRun) : HM HRun := do
  let s1 ← startIf e fuel t st
  let s2 ← priceIf e t s1
  let s3 ← valueIf e t s2
  let s4 ← rebalanceIf e fuel t s3
  applyTrans fuel t s4

/-- `/repo/lib/executor/executor.go:54-121` the loop. -/
def loop (e : HExec) (fuel : Nat) : List HTrans → HRun → HM HRun
  | [], st => return st
  | t :: ts, st =>
    if t.timestamp > e.endTime then return st
    else do
      let st' ← step e fuel t st
      loop e fuel ts st'

/-- `/repo/lib/executor/executor.go:48-52` the variables before the loop. -/
def initial (e : HExec) : HRun :=
  { strategy := e.strategy, started := false, nextUpdate := maxInt64, nextSnapshot := maxInt64, nextPrice := 0,
    snapshots := e.snapshots }

/-- `/repo/lib/executor/executor.go:42-130` `Run`. -/
def run (e : HExec) (fuel : Nat) : HM HExec := do
  let st ← loop e fuel e.transactions (initial e)
  let b ← burnAll st.strategy
  let v ← usd b.1 b.2.pool.price
  return { e with strategy := b.2, snapshots := st.snapshots ++ [v] }

end Ptr
end Uni
