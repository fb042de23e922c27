import Verif.Model.Pool
import Verif.Model.Prices
import Verif.Model.LiquidityAmounts
import Verif.Model.TickRound
/-! # The strategies (`lib/strategy`)

Eleven of the twelve strategies consist of the same parts (balances, pool, list of open positions) and of copies of the
same methods; the copies are modelled once and every copy is cited.  `Kind` says which strategy a state belongs to and
carries the parameters of its constructor.  Go's `int` is modelled by `Int` (ticks and widths are far from `2^63`).
All amounts stored in a strategy are copies (`Clone`, results of calls), so the state is a value. -/
namespace Uni
open U256 LiquidityAmounts TickMath

/-- `/repo/lib/strategy/strategy.go:8-12` `Position`. -/
structure StratPos where
  amount : U256
  lower : Int
  upper : Int
  deriving DecidableEq, Repr

/-- The twelve strategies and the parameters of their constructors. -/
inductive Kind where
  /-- `/repo/lib/strategy/constant_intervall_strategy.go:12-20` -/
  | constantInterval (width : Int)
  /-- `/repo/lib/strategy/interval_around_current_price.go:14-20` -/
  | aroundPrice (width : Int)
  /-- `/repo/lib/strategy/2_interval_around_price.go:16-23` -/
  | twoInterval (a b : Int)
  /-- `/repo/lib/strategy/interval_around_average.go:15-22` -/
  | aroundAverage (width snapshots : Int)
  /-- `/repo/lib/strategy/bollinger_bands.go:15-22` -/
  | bollinger (snapshots multiplier : Int)
  /-- `/repo/lib/strategy/bollinger_fill_up.go:16-23` -/
  | bollingerFillUp (snapshots multiplier : Int)
  /-- `/repo/lib/strategy/volatility_sized_intervals.go:15-22` -/
  | volatilitySized (snapshots multiplier : Int)
  /-- `/repo/lib/strategy/fill_up.go:11-17` -/
  | fillUp (width : Int)
  /-- `/repo/lib/strategy/limit_order.go:11-19` -/
  | limitOrder (width : Int)
  /-- `/repo/lib/strategy/swap_half_constant_interval_current_price.go:14-20` -/
  | swapHalf (width : Int)
  /-- `/repo/lib/strategy/v2_strategy.go:11-16` -/
  | v2
  /-- `/repo/lib/strategy/no_provision.go:9-13` -/
  | noProvision
  deriving DecidableEq, Repr

/-- `/repo/lib/pool/pool.go:72-90` `Clone`, as far as the values are concerned (`Model/Heap.lean` treats the sharing). -/
def Pool.clone (p : Pool) : Pool := { p with positions := fun k => (p.positions k).map Info.clone }

/-- The state of a strategy: the fields of the twelve structs together; a strategy uses only its own.  `tickLower`,
`tickUpper`: constant interval.  `limitTick`, `direction`: limit order.  `history`: the four strategies with snapshots. -/
structure Strat where
  kind : Kind
  amount0 : U256
  amount1 : U256
  pool : Pool
  positions : List StratPos
  tickLower : Int
  tickUpper : Int
  limitTick : Int
  direction : Bool
  history : Prices

namespace Strat

/-- The price history a constructor creates. -/
def newHistory : Kind → Go Prices
  | .aroundAverage _ n => Prices.new n
  | .bollinger n _ => Prices.new n
  | .bollingerFillUp n _ => Prices.new n
  | .volatilitySized n _ => Prices.new n
  | _ => .ok ⟨[], 0, 0⟩

/-- The constructors: `/repo/lib/strategy/constant_intervall_strategy.go:26-34`,
`/repo/lib/strategy/interval_around_current_price.go:44-52`, `/repo/lib/strategy/2_interval_around_price.go:29-38`,
`/repo/lib/strategy/interval_around_average.go:24-34`, `/repo/lib/strategy/bollinger_bands.go:24-35`,
`/repo/lib/strategy/bollinger_fill_up.go:25-36`, `/repo/lib/strategy/volatility_sized_intervals.go:24-35`,
`/repo/lib/strategy/fill_up.go:26-34`, `/repo/lib/strategy/limit_order.go:39-47`,
`/repo/lib/strategy/swap_half_constant_interval_current_price.go:44-52`, `/repo/lib/strategy/v2_strategy.go:32-39`,
`/repo/lib/strategy/no_provision.go:24-30`. -/
def new (kind : Kind) (amount0 amount1 : U256) (pool : Pool) : Go Strat := do
  let history ← newHistory kind
  return { kind, amount0, amount1, pool := pool.clone, positions := [], tickLower := 0, tickUpper := 0,
           limitTick := 0, direction := false, history }

/-- The loop of `GetAmounts`: `/repo/lib/strategy/constant_intervall_strategy.go:42-48`. -/
def amountsLoop (price : U256) : List StratPos → U256 × U256 → Go (U256 × U256)
  | [], acc => .ok acc
  | q :: qs, acc => do
    let a ← getSqrtRatioAtTick q.lower
    let b ← getSqrtRatioAtTick q.upper
    let r ← getAmountsForLiquidity price a b q.amount
    amountsLoop price qs (add acc.1 r.1, add acc.2 r.2)

/-- `GetAmounts`: `/repo/lib/strategy/constant_intervall_strategy.go:40-52`,
`/repo/lib/strategy/interval_around_current_price.go:30-42`, `/repo/lib/strategy/2_interval_around_price.go:40-52`,
`/repo/lib/strategy/interval_around_average.go:46-58`, `/repo/lib/strategy/bollinger_bands.go:47-59`,
`/repo/lib/strategy/bollinger_fill_up.go:48-60`, `/repo/lib/strategy/volatility_sized_intervals.go:47-59`,
`/repo/lib/strategy/fill_up.go:36-48`, `/repo/lib/strategy/limit_order.go:21-33`,
`/repo/lib/strategy/swap_half_constant_interval_current_price.go:30-42`, `/repo/lib/strategy/v2_strategy.go:45-57`,
`/repo/lib/strategy/no_provision.go:36-39` (no positions).  It changes nothing, so the model returns amounts only. -/
def getAmounts (s : Strat) : Go (U256 × U256) :=
  match s.kind with
  | .noProvision => .ok (s.amount0, s.amount1)
  | _ => do
    let r ← amountsLoop s.pool.price s.positions (zero, zero)
    return (add r.1 s.amount0, add r.2 s.amount1)

/-- The loop that closes all positions: `/repo/lib/strategy/constant_intervall_strategy.go:55-60,91-96`. -/
def burnLoop : List StratPos → Strat → Go Strat
  | [], s => .ok s
  | q :: qs, s => do
    let b ← s.pool.burnStrategy q.lower q.upper q.amount
    let c ← b.2.2.collectStrategy q.lower q.upper
    burnLoop qs { s with pool := c.2.2, amount0 := add s.amount0 c.1, amount1 := add s.amount1 c.2.1 }

/-- Close all positions, remember the balances, clear the list:
`/repo/lib/strategy/constant_intervall_strategy.go:91-98`, `/repo/lib/strategy/interval_around_current_price.go:92-100`,
`/repo/lib/strategy/2_interval_around_price.go:116-124`,
`/repo/lib/strategy/swap_half_constant_interval_current_price.go:122-130` (inside `Rebalance`);
`/repo/lib/strategy/interval_around_average.go:60-70`, `/repo/lib/strategy/bollinger_bands.go:61-71`,
`/repo/lib/strategy/bollinger_fill_up.go:62-72`, `/repo/lib/strategy/volatility_sized_intervals.go:61-71`,
`/repo/lib/strategy/fill_up.go:50-60`, `/repo/lib/strategy/limit_order.go:100-110`,
`/repo/lib/strategy/swap_half_constant_interval_current_price.go:54-64`, `/repo/lib/strategy/v2_strategy.go:59-69`
(`BurnAll`). -/
def closeAll (s : Strat) : Go ((U256 × U256) × Strat) := do
  let s1 ← burnLoop s.positions s
  return ((s1.amount0, s1.amount1), { s1 with positions := [] })

/-- The `BurnAll` that keeps the list of positions: `/repo/lib/strategy/constant_intervall_strategy.go:54-63`,
`/repo/lib/strategy/interval_around_current_price.go:54-63`, `/repo/lib/strategy/2_interval_around_price.go:58-67`. -/
def closeAllKeep (s : Strat) : Go ((U256 × U256) × Strat) := do
  let s1 ← burnLoop s.positions s
  return ((s1.amount0, s1.amount1), s1)

/-- `BurnAll` of the twelve strategies; `/repo/lib/strategy/no_provision.go:41-44` only returns the balances. -/
def burnAll (s : Strat) : Go ((U256 × U256) × Strat) :=
  match s.kind with
  | .constantInterval _ => s.closeAllKeep
  | .aroundPrice _ => s.closeAllKeep
  | .twoInterval _ _ => s.closeAllKeep
  | .noProvision => .ok ((s.amount0, s.amount1), s)
  | _ => s.closeAll

/-- Record and mint a position and pay for it: `/repo/lib/strategy/limit_order.go:76-86` `mintAmount`, and the end of
every `mintPosition`, for example `/repo/lib/strategy/v2_strategy.go:79-87`. -/
def mintAmount (s : Strat) (lower upper : Int) (amount : U256) : Go Strat := do
  let m ← s.pool.mintStrategy lower upper amount
  return { s with positions := s.positions ++ [⟨amount, lower, upper⟩], pool := m.2.2,
                  amount0 := sub s.amount0 m.1, amount1 := sub s.amount1 m.2.1 }

/-- The liquidity the balances can buy in a range: `/repo/lib/strategy/v2_strategy.go:72-75` and the same lines of the
other strategies. -/
def affordable (s : Strat) (lower upper : Int) : Go U256 := do
  let a ← getSqrtRatioAtTick lower
  let b ← getSqrtRatioAtTick upper
  getLiquidityForAmount s.pool.price a b s.amount0 s.amount1

/-- `mintPosition`: `/repo/lib/strategy/2_interval_around_price.go:69-86`, `/repo/lib/strategy/interval_around_average.go:82-99`,
`/repo/lib/strategy/bollinger_bands.go:100-117`, `/repo/lib/strategy/bollinger_fill_up.go:101-118`,
`/repo/lib/strategy/volatility_sized_intervals.go:98-115`, `/repo/lib/strategy/fill_up.go:62-79`,
`/repo/lib/strategy/limit_order.go:65-74`, `/repo/lib/strategy/v2_strategy.go:71-88`, and the same lines inside
`/repo/lib/strategy/constant_intervall_strategy.go:102-116`, `/repo/lib/strategy/interval_around_current_price.go:107-121`. -/
def mintPosition (s : Strat) (lower upper : Int) : Go Strat := do
  let amount ← s.affordable lower upper
  if amount.isZero then return s
  else s.mintAmount lower upper amount

/-- The mint of `Init` that does not test for zero: `/repo/lib/strategy/constant_intervall_strategy.go:73-84`,
`/repo/lib/strategy/interval_around_current_price.go:73-85`. -/
def mintUnchecked (s : Strat) (lower upper : Int) : Go Strat := do
  let amount ← s.affordable lower upper
  s.mintAmount lower upper amount

/-- `/repo/lib/strategy/limit_order.go:88-98` `mintHalf`. -/
def mintHalf (s : Strat) (lower upper : Int) : Go Strat := do
  let amount ← s.affordable lower upper
  let half ← div amount (ofWord 2)
  if half.isZero then return s
  else s.mintAmount lower upper half

/-- `/repo/lib/strategy/swap_half_constant_interval_current_price.go:83-85,91-93` swap and pay for it. -/
def swapPay (s : Strat) (fuel : Nat) (amount : U256) (token : String) : Go Strat := do
  let r ← s.pool.exactInputSwap fuel amount token zero
  return { s with pool := r.2.2, amount0 := sub s.amount0 r.1, amount1 := sub s.amount1 r.2.1 }

/-- `/repo/lib/strategy/swap_half_constant_interval_current_price.go:70-95` the swap of one half of the excess. -/
def swapExcess (s : Strat) (fuel : Nat) (a b : U256) : Go Strat := do
  let noSwap ← getLiquidityForAmount s.pool.price a b s.amount0 s.amount1
  let used ← getAmountsForLiquidity s.pool.price a b noSwap
  let diff0 := sub s.amount0 used.1
  let cmp0 := lsh diff0 9
  let diff1 := sub s.amount1 used.2
  if cmp cmp0 diff1 > 0 then do
    let half ← div diff0 (ofWord 2)
    if half.sign = 1 then s.swapPay fuel half s.pool.token0 else return s
  else do
    let half ← div diff1 (ofWord 2)
    if half.sign = 1 then s.swapPay fuel half s.pool.token1 else return s

/-- `/repo/lib/strategy/swap_half_constant_interval_current_price.go:66-107` `mintPosition` of the swapping strategy. -/
def swapMint (s : Strat) (fuel : Nat) (lower upper : Int) : Go Strat := do
  let a ← getSqrtRatioAtTick lower
  let b ← getSqrtRatioAtTick upper
  let s1 ← s.swapExcess fuel a b
  let amount ← getLiquidityForAmount s1.pool.price a b s1.amount0 s1.amount1
  s1.mintAmount lower upper amount

/-- The tick spacing the strategies use: `/repo/lib/strategy/fill_up.go:83` and the same line elsewhere. -/
def unit (s : Strat) : Int := Cons.tickSpaces s.pool.fee

/-- The interval around the current tick: `/repo/lib/strategy/fill_up.go:83-85` and the same lines elsewhere. -/
def around (s : Strat) (tick width : Int) : Int × Int :=
  (TickRound.round (tick - width) s.unit, TickRound.round (tick + width) s.unit)

/-- `/repo/lib/strategy/2_interval_around_price.go:98-102,133-137` the second position, above the price. -/
def twoAbove (s : Strat) (unit b : Int) : Go Strat :=
  if s.amount0.isZero then .ok s
  else s.mintPosition (TickRound.ceil s.pool.tick unit) (TickRound.ceil s.pool.tick unit + b)

/-- `/repo/lib/strategy/2_interval_around_price.go:104-108,139-143` the second position, below the price. -/
def twoBelow (s : Strat) (unit b : Int) : Go Strat :=
  if s.amount1.isZero then .ok s
  else s.mintPosition (TickRound.floor s.pool.tick unit - b) (TickRound.floor s.pool.tick unit)

/-- `/repo/lib/strategy/2_interval_around_price.go:90-108,127-143` the positions of the two-interval strategy. -/
def setTwo (s : Strat) (a b : Int) : Go Strat := do
  let r := s.around s.pool.tick a
  let s1 ← s.mintPosition r.1 r.2
  let s2 ← s1.twoAbove s.unit b
  s2.twoBelow s.unit b

/-- `/repo/lib/strategy/fill_up.go:89-99`, `/repo/lib/strategy/bollinger_fill_up.go:135-146` use what is left on the side
of the price where it is needed. -/
def fillSide (s : Strat) (lower upper : Int) : Go Strat :=
  if !s.amount0.isZero then
    (if TickRound.ceil s.pool.tick s.unit < upper then s.mintPosition (TickRound.ceil s.pool.tick s.unit) upper else .ok s)
  else if !s.amount1.isZero then
    (if lower < TickRound.floor s.pool.tick s.unit then s.mintPosition lower (TickRound.floor s.pool.tick s.unit) else .ok s)
  else .ok s

/-- `/repo/lib/strategy/fill_up.go:81-101` `setPositions`. -/
def setFill (s : Strat) (width : Int) : Go Strat := do
  let r := s.around s.pool.tick width
  let s1 ← s.mintPosition r.1 r.2
  s1.fillSide r.1 r.2

/-- `/repo/lib/strategy/limit_order.go:119-125` the limit order above the price. -/
def limitAbove (s : Strat) (unit : Int) : Go Strat :=
  if s.amount0.isZero then .ok s
  else do
    let lower := TickRound.ceil s.pool.tick unit
    let s1 ← s.mintHalf lower (lower + 10)
    return { s1 with limitTick := lower + 10, direction := true }

/-- `/repo/lib/strategy/limit_order.go:127-133` the limit order below the price. -/
def limitBelow (s : Strat) (unit : Int) : Go Strat :=
  if s.amount1.isZero then .ok s
  else do
    let upper := TickRound.floor s.pool.tick unit
    let s1 ← s.mintHalf (upper - 10) upper
    return { s1 with limitTick := upper - 10, direction := false }

/-- `/repo/lib/strategy/limit_order.go:112-134` `setPositions`. -/
def setLimit (s : Strat) (width : Int) : Go Strat := do
  let r := s.around s.pool.tick width
  let s1 ← s.mintPosition r.1 r.2
  let s2 ← s1.limitAbove s.unit
  s2.limitBelow s.unit

/-- `/repo/lib/strategy/interval_around_average.go:72-80` `getTicks`. -/
def averageTicks (s : Strat) (width : Int) : Go (Int × Int) := do
  let priceX192 ← s.history.average
  let sqrtPriceX96 ← sqrt priceX192
  let tick ← getTickAtSqrtRatio sqrtPriceX96
  return s.around tick width

/-- `/repo/lib/strategy/bollinger_bands.go:74-77`, `/repo/lib/strategy/bollinger_fill_up.go:75-78`,
`/repo/lib/strategy/volatility_sized_intervals.go:74,76-78` the half width of the band. -/
def bandWidth (s : Strat) (multiplier : Int) : Go U256 := do
  let vol ← s.history.volatility
  sqrt (rsh (mul vol (ofWord (BitVec.ofInt 64 multiplier))) 10)

/-- `/repo/lib/strategy/bollinger_bands.go:85-89` and the same lines of the other two: the lower end. -/
def bandLower (r : U256 × Bool) : Go Int :=
  if r.2 || decide (cmp r.1 minSqrtRatio = -1) then .ok minTick else getTickAtSqrtRatio r.1

/-- `/repo/lib/strategy/bollinger_bands.go:91-95` and the same lines of the other two: the upper end. -/
def bandUpper (r : U256 × Bool) : Go Int :=
  if r.2 || decide (cmp r.1 maxSqrtRatio = 1) then .ok maxTick else getTickAtSqrtRatio r.1

/-- `/repo/lib/strategy/bollinger_bands.go:82-97`, `/repo/lib/strategy/bollinger_fill_up.go:83-98`,
`/repo/lib/strategy/volatility_sized_intervals.go:80-95` the ticks of a band around a price. -/
def band (centre width : U256) : Go (Int × Int) := do
  let lower ← bandLower (subOverflow centre width)
  let upper ← bandUpper (addOverflow centre width)
  return (lower, upper)

/-- `/repo/lib/strategy/bollinger_bands.go:73-98`, `/repo/lib/strategy/bollinger_fill_up.go:74-99` `getTicks`. -/
def bollingerTicks (s : Strat) (multiplier : Int) : Go (Int × Int) := do
  let width ← s.bandWidth multiplier
  let priceX192 ← s.history.average
  let sqrtPriceX96 ← sqrt priceX192
  band sqrtPriceX96 width

/-- `/repo/lib/strategy/volatility_sized_intervals.go:73-96` `getTicks`. -/
def volatilityTicks (s : Strat) (multiplier : Int) : Go (Int × Int) := do
  let width ← s.bandWidth multiplier
  band s.pool.price width

/-- `/repo/lib/strategy/bollinger_fill_up.go:131-147` the positions after a rebalance. -/
def setBollingerFill (s : Strat) (multiplier : Int) : Go Strat := do
  let r ← s.bollingerTicks multiplier
  let s1 ← s.mintPosition r.1 r.2
  if r.1 ≤ s1.pool.tick ∧ s1.pool.tick ≤ r.2 then s1.fillSide r.1 r.2 else return s1

/-- New positions of `Init`: `/repo/lib/strategy/constant_intervall_strategy.go:68-84`,
`/repo/lib/strategy/interval_around_current_price.go:68-85`, `/repo/lib/strategy/2_interval_around_price.go:90-108`,
`/repo/lib/strategy/interval_around_average.go:104-105`, `/repo/lib/strategy/bollinger_bands.go:122-123`,
`/repo/lib/strategy/bollinger_fill_up.go:123-124`, `/repo/lib/strategy/volatility_sized_intervals.go:120-121`,
`/repo/lib/strategy/fill_up.go:106`, `/repo/lib/strategy/limit_order.go:138`,
`/repo/lib/strategy/swap_half_constant_interval_current_price.go:112-115`, `/repo/lib/strategy/v2_strategy.go:94-96`. -/
def openFirst (s : Strat) (fuel : Nat) : Go Strat :=
  match s.kind with
  | .constantInterval width =>
    let r := s.around s.pool.tick width
    { s with tickLower := r.1, tickUpper := r.2 }.mintUnchecked r.1 r.2
  | .aroundPrice width =>
    let r := s.around s.pool.tick width
    s.mintUnchecked r.1 r.2
  | .twoInterval a b => s.setTwo a b
  | .aroundAverage width _ => do
    let r ← s.averageTicks width
    s.mintPosition r.1 r.2
  | .bollinger _ multiplier => do
    let r ← s.bollingerTicks multiplier
    s.mintPosition r.1 r.2
  | .bollingerFillUp _ multiplier => do
    let r ← s.bollingerTicks multiplier
    s.mintPosition r.1 r.2
  | .volatilitySized _ multiplier => do
    let r ← s.volatilityTicks multiplier
    s.mintPosition r.1 r.2
  | .fillUp width => s.setFill width
  | .limitOrder width => s.setLimit width
  | .swapHalf width =>
    let r := s.around s.pool.tick width
    s.swapMint fuel r.1 r.2
  | .v2 => s.mintPosition (-887270) 887270
  | .noProvision => .ok s

/-- New positions of `Rebalance`: `/repo/lib/strategy/constant_intervall_strategy.go:99-116`,
`/repo/lib/strategy/interval_around_current_price.go:102-121`, `/repo/lib/strategy/2_interval_around_price.go:126-143`,
`/repo/lib/strategy/interval_around_average.go:112-113`, `/repo/lib/strategy/bollinger_bands.go:130-131`,
`/repo/lib/strategy/bollinger_fill_up.go:131-147`, `/repo/lib/strategy/volatility_sized_intervals.go:128-129`,
`/repo/lib/strategy/fill_up.go:112`, `/repo/lib/strategy/limit_order.go:144`,
`/repo/lib/strategy/swap_half_constant_interval_current_price.go:132-136`, `/repo/lib/strategy/v2_strategy.go:22-24`. -/
def openAgain (s : Strat) (fuel : Nat) : Go Strat :=
  match s.kind with
  | .constantInterval _ => s.mintPosition s.tickLower s.tickUpper
  | .aroundPrice width =>
    let r := s.around s.pool.tick width
    s.mintPosition r.1 r.2
  | .twoInterval a b => s.setTwo a b
  | .aroundAverage width _ => do
    let r ← s.averageTicks width
    s.mintPosition r.1 r.2
  | .bollinger _ multiplier => do
    let r ← s.bollingerTicks multiplier
    s.mintPosition r.1 r.2
  | .bollingerFillUp _ multiplier => s.setBollingerFill multiplier
  | .volatilitySized _ multiplier => do
    let r ← s.volatilityTicks multiplier
    s.mintPosition r.1 r.2
  | .fillUp width => s.setFill width
  | .limitOrder width => s.setLimit width
  | .swapHalf width =>
    let r := s.around s.pool.tick width
    s.swapMint fuel r.1 r.2
  | .v2 => s.mintPosition (-887270) 887270
  | .noProvision => .ok s

/-- `Init` of the twelve strategies: the balances before, then the new positions.
`/repo/lib/strategy/constant_intervall_strategy.go:65-86`, `/repo/lib/strategy/interval_around_current_price.go:65-87`,
`/repo/lib/strategy/2_interval_around_price.go:88-111`, `/repo/lib/strategy/interval_around_average.go:101-107`,
`/repo/lib/strategy/bollinger_bands.go:119-125`, `/repo/lib/strategy/bollinger_fill_up.go:120-126`,
`/repo/lib/strategy/volatility_sized_intervals.go:117-123`, `/repo/lib/strategy/fill_up.go:103-108`,
`/repo/lib/strategy/limit_order.go:136-140`, `/repo/lib/strategy/swap_half_constant_interval_current_price.go:109-117`,
`/repo/lib/strategy/v2_strategy.go:90-98`, `/repo/lib/strategy/no_provision.go:46-50`. -/
def init (s : Strat) (fuel : Nat) : Go ((U256 × U256) × Strat) := do
  let s' ← s.openFirst fuel
  return ((s.amount0, s.amount1), s')

/-- `Rebalance` of the twelve strategies: close all positions, then the new positions.
`/repo/lib/strategy/constant_intervall_strategy.go:88-118`, `/repo/lib/strategy/interval_around_current_price.go:89-123`,
`/repo/lib/strategy/2_interval_around_price.go:113-146`, `/repo/lib/strategy/interval_around_average.go:109-115`,
`/repo/lib/strategy/bollinger_bands.go:127-133`, `/repo/lib/strategy/bollinger_fill_up.go:128-149`,
`/repo/lib/strategy/volatility_sized_intervals.go:125-131`, `/repo/lib/strategy/fill_up.go:110-114`,
`/repo/lib/strategy/limit_order.go:142-146`, `/repo/lib/strategy/swap_half_constant_interval_current_price.go:119-138`,
`/repo/lib/strategy/v2_strategy.go:18-26`, `/repo/lib/strategy/no_provision.go:15-18` (returns nil, nil). -/
def rebalance (s : Strat) (fuel : Nat) : Go (Option (U256 × U256) × Strat) :=
  match s.kind with
  | .noProvision => .ok (none, s)
  | _ => do
    let c ← s.closeAll
    let s' ← c.2.openAgain fuel
    return (some c.1, s')

/-- `MakeSnapshot`: `/repo/lib/strategy/interval_around_average.go:40-44`, `/repo/lib/strategy/bollinger_bands.go:41-45`,
`/repo/lib/strategy/bollinger_fill_up.go:42-46`, `/repo/lib/strategy/volatility_sized_intervals.go:41-45`; it does
nothing in the other strategies. -/
def makeSnapshot (s : Strat) : Go Strat :=
  match s.kind with
  | .aroundAverage _ _ | .bollinger _ _ | .bollingerFillUp _ _ | .volatilitySized _ _ => do
    let h ← s.history.add s.pool.price
    return { s with history := h }
  | _ => .ok s

end Strat
end Uni
