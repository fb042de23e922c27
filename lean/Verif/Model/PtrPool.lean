import Verif.Model.PtrMath
import Verif.Model.Heap
/-! # Pools on memory

`lib/tickdata`, `lib/position` and `lib/pool` as programs that take and return pointers.  Compared with `Model/Heap.lean`, the
arguments and results of a call, its local variables and the package-level numbers are now numbers in memory as well, and every
access is one read or write of a word.

The structs (`Pool`, `TickData`, `Info`) and the backing array of the tick slice are held by one pool only, so they are values
that are passed along.  A search of the ticks reads the tick indices, which are fields of those structs, and no number. -/
namespace Uni
namespace Ptr
open InPlace U256

/-! ### `lib/tickdata` -/

/-- The part of a tick store (`/repo/lib/tickdata/tickdata.go:18-21`) that is not behind pointers: indices and spacing. -/
def shape (t : HTickData) : TickData := ⟨t.ticks.map fun x => ⟨x.index, zero, zero, zero, zero⟩, t.spacing⟩

/-- `/repo/lib/tickdata/tickdata.go:60-64` `GetTick`: a struct of pointers. -/
def getTick (t : HTickData) (index : Int) : Go HTick := do
  let i ← (shape t).binarySearch index
  let x ← idx t.ticks i
  invariant (decide (x.index = index))
  return x

/-- `/repo/lib/tickdata/tickdata.go:66-73` `Cross`: the result is the pointer held by the tick. -/
def cross (t : HTickData) (tick : Int) (g0 g1 : Nat) : HM Nat := do
  let x ← lift (getTick t tick)
  sub x.out0 g0 x.out0
  sub x.out1 g1 x.out1
  return x.net

/-- `/repo/lib/tickdata/tickdata.go:75-94` `makeTick`. -/
def makeTick (tick tickCurrent : Int) (net gross g0 g1 : Nat) : HM HTick := do
  let a ← clone net
  let b ← clone gross
  if tick ≤ tickCurrent then do
    let c ← clone g0
    let d ← clone g1
    return ⟨tick, a, b, c, d⟩
  else do
    let c ← clone zeroAt
    let d ← clone zeroAt
    return ⟨tick, a, b, c, d⟩

/-- `/repo/lib/tickdata/tickdata.go:96-103` `ClearTick`. -/
def clearTick (t : HTickData) (index : Int) : Go HTickData := do
  let r ← (shape t).binarySearch2 index
  if r.2 then return { t with ticks := t.ticks.eraseIdx r.1.toNat } else return t

/-- `/repo/lib/tickdata/tickdata.go:108-112` `z` is the signed change of the net liquidity. -/
def setDelta (upper : Bool) (z delta : Nat) : HM Unit := if upper then neg z delta else set z delta

/-- `/repo/lib/tickdata/tickdata.go:115-119` the net liquidity is changed in place. -/
def changeNet (upper : Bool) (net delta : Nat) : HM Unit := if upper then sub net net delta else add net net delta

/-- `/repo/lib/tickdata/tickdata.go:127-135` the new tick is inserted into the slice. -/
def insertTick (t : HTickData) (i : Int) (x : HTick) : HTickData :=
  if i = -2 then { t with ticks := t.ticks ++ [x] }
  else if i = -1 then { t with ticks := x :: t.ticks }
  else { t with ticks := t.ticks.take i.toNat ++ x :: t.ticks.drop i.toNat }

/-- `/repo/lib/tickdata/tickdata.go:105-139` `UpdateTick`. -/
def updateTick (t : HTickData) (index tickCurrent : Int) (delta g0 g1 : Nat) (upper : Bool) : HM (Bool × HTickData) := do
  let r ← lift ((shape t).binarySearch2 index)
  let z ← new zero
  setDelta upper z delta
  if r.2 then do
    let x ← lift (idx t.ticks r.1)
    changeNet upper x.net delta
    add x.gross x.gross delta
    let v ← load x.gross
    return (v.isZero, t)
  else do
    let x ← makeTick index tickCurrent z delta g0 g1
    return (false, insertTick t r.1 x)

/-- `/repo/lib/tickdata/tickdata.go:144-151` a new number: the fee growth below the lower tick, one token. -/
def growthBelow (tickLower tickCurrent : Int) (g lowerOut : Nat) : HM Nat :=
  if tickCurrent ≥ tickLower then mk fun z => set z lowerOut else mk fun z => sub z g lowerOut

/-- `/repo/lib/tickdata/tickdata.go:152-159` a new number: the fee growth above the upper tick, one token. -/
def growthAbove (tickUpper tickCurrent : Int) (g upperOut : Nat) : HM Nat :=
  if tickCurrent < tickUpper then mk fun z => set z upperOut else mk fun z => sub z g upperOut

/-- `/repo/lib/tickdata/tickdata.go:160-161` a new number, changed in place. -/
def growthInside (g below above : Nat) : HM Nat := do
  let r ← mk fun z => sub z g below
  sub r r above
  return r

/-- `/repo/lib/tickdata/tickdata.go:141-165` `GetFeeGrowthInside`: two new numbers. -/
def getFeeGrowthInside (t : HTickData) (tickLower tickUpper tickCurrent : Int) (g0 g1 : Nat) : HM (Nat × Nat) := do
  let lower ← lift (getTick t tickLower)
  let upper ← lift (getTick t tickUpper)
  let b0 ← growthBelow tickLower tickCurrent g0 lower.out0
  let b1 ← growthBelow tickLower tickCurrent g1 lower.out1
  let a0 ← growthAbove tickUpper tickCurrent g0 upper.out0
  let a1 ← growthAbove tickUpper tickCurrent g1 upper.out1
  let i0 ← growthInside g0 b0 a0
  let i1 ← growthInside g1 b1 a1
  return (i0, i1)

/-! ### `lib/position` -/

/-- `/repo/lib/position/position.go:27-35` `NewPosition`. -/
def newPosition : HM HInfo := do
  let a ← new (ofWord 0)
  let b ← new (ofWord 0)
  let c ← new (ofWord 0)
  let d ← new (ofWord 0)
  let e ← new (ofWord 0)
  return ⟨a, b, c, d, e⟩

/-- `/repo/lib/position/position.go:9-17` `Clone`. -/
def cloneInfo (i : HInfo) : HM HInfo := do
  let a ← clone i.liquidity
  let b ← clone i.inside0
  let c ← clone i.inside1
  let d ← clone i.owed1
  let e ← clone i.owed1
  return ⟨a, b, c, d, e⟩

/-- `/repo/lib/position/position.go:37-48` `Update`: the struct keeps the pointers `in0` and `in1`. -/
def updateInfo (i : HInfo) (delta in0 in1 : Nat) : HM HInfo := do
  let next ← mk fun z => add z i.liquidity delta
  let temp0 ← mk fun z => sub z in0 i.inside0
  let temp1 ← mk fun z => sub z in1 i.inside1
  let owed0 ← mulDiv temp0 i.liquidity q128At
  let owed1 ← mulDiv temp1 i.liquidity q128At
  add i.owed0 i.owed0 owed0
  add i.owed1 i.owed1 owed1
  return ⟨next, in0, in1, i.owed0, i.owed1⟩

/-! ### `lib/pool` -/

/-- `/repo/lib/pool/pool.go:48-70` `NewPool`: the pool keeps the caller's pointer to the price. -/
def newPool (token0 token1 : String) (fee : Int) (price : Nat) : HM HPool := do
  lift (invariant (decide (fee ≥ 0) && decide (fee ≤ 1000000)))
  let liquidity ← new (ofWord 0)
  let tick ← getTickAtSqrtRatio price
  let g0 ← clone zeroAt
  let g1 ← clone zeroAt
  return { token0, token1, fee, price, liquidity, growth0 := g0, growth1 := g1,
           spacing := Cons.tickSpaces fee, tick, ticks := ⟨[], Cons.tickSpaces fee⟩, positions := [] }

/-- `/repo/lib/pool/pool.go:73-76` the copies of the positions. -/
def clonePositions : List (String × HInfo) → HM (List (String × HInfo))
  | [] => return []
  | e :: l => do
    let i ← cloneInfo e.2
    let r ← clonePositions l
    return (e.1, i) :: r

/-- `/repo/lib/pool/pool.go:72-90` `Clone`: the ticks of the copy hold the same pointers. -/
def clonePool (p : HPool) : HM HPool := do
  let ps ← clonePositions p.positions
  let price ← clone p.price
  let liquidity ← clone p.liquidity
  let g0 ← clone p.growth0
  let g1 ← clone p.growth1
  return { p with price, liquidity, growth0 := g0, growth1 := g1, positions := ps }

/-- `/repo/lib/pool/pool.go:92-97` the tick updates of `updatePosition`. -/
def updateBounds (p : HPool) (lower upper : Int) (amount : Nat) : HM (Bool × Bool × HTickData) := do
  let v ← load amount
  if v.isZero then return (false, false, p.ticks)
  else do
    let a ← updateTick p.ticks lower p.tick amount p.growth0 p.growth1 false
    let b ← updateTick a.2 upper p.tick amount p.growth0 p.growth1 true
    return (a.1, b.1, b.2)

/-- `/repo/lib/pool/pool.go:111-113` `if c { ClearTick(i) }`. -/
def clearIf (c : Bool) (t : HTickData) (i : Int) : Go HTickData := if c then clearTick t i else .ok t

/-- `/repo/lib/pool/pool.go:101-103` the record an update starts from: a new one if there is none. -/
def posOrNew (o : Option HInfo) : HM HInfo :=
  match o with
  | some i => return i
  | none => newPosition

/-- `/repo/lib/pool/pool.go:91-119` `updatePosition`. -/
def updatePosition (p : HPool) (lower upper : Int) (amount : Nat) : HM (HInfo × HPool) := do
  let b ← updateBounds p lower upper amount
  let ins ← getFeeGrowthInside b.2.2 lower upper p.tick p.growth0 p.growth1
  let q ← posOrNew (hlookup p.positions (Pool.posKey lower upper))
  let pos ← updateInfo q amount ins.1 ins.2
  let v ← load amount
  let t1 ← lift (clearIf (decide (v.sign = -1) && b.1) b.2.2 lower)
  let t2 ← lift (clearIf (decide (v.sign = -1) && b.2.1) t1 upper)
  return (pos, { p with ticks := t2, positions := hset p.positions (Pool.posKey lower upper) pos })

/-- `/repo/lib/pool/pool.go:134-144` the signed amounts of a liquidity change at the current price; the change of the liquidity
in line 140 is in `modifyPositionStrategy`. -/
def amountsFor (p : HPool) (lower upper : Int) (amount : Nat) : HM (Nat × Nat) :=
  if p.tick < lower then do
    let a ← getSqrtRatioAtTick lower
    let b ← getSqrtRatioAtTick upper
    let amount0 ← getAmount0DeltaRounded a b amount
    let amount1 ← new (ofWord 0)
    return (amount0, amount1)
  else if p.tick < upper then do
    let b ← getSqrtRatioAtTick upper
    let amount0 ← getAmount0DeltaRounded p.price b amount
    let a ← getSqrtRatioAtTick lower
    let amount1 ← getAmount1DeltaRounded p.price a amount
    return (amount0, amount1)
  else do
    let amount0 ← new (ofWord 0)
    let a ← getSqrtRatioAtTick lower
    let b ← getSqrtRatioAtTick upper
    let amount1 ← getAmount1DeltaRounded a b amount
    return (amount0, amount1)

/-- `/repo/lib/pool/pool.go:127-147` `modifyPositionStrategy`. -/
def modifyPositionStrategy (p : HPool) (lower upper : Int) (amount : Nat) : HM (HInfo × Nat × Nat × HPool) := do
  lift (Pool.checkTicks lower upper)
  let r ← updatePosition p lower upper amount
  let v ← load amount
  if v.isZero then do
    let a ← clone zeroAt
    let b ← clone zeroAt
    return (r.1, a, b, r.2)
  else do
    let am ← amountsFor r.2 lower upper amount
    whenM (decide (lower ≤ p.tick ∧ p.tick < upper)) (add r.2.liquidity r.2.liquidity amount)
    return (r.1, am.1, am.2, r.2)

/-- `/repo/lib/pool/pool.go:149-153` `MintStrategy`. -/
def mintStrategy (p : HPool) (lower upper : Int) (amount : Nat) : HM (Nat × Nat × HPool) := do
  let v ← load amount
  let z ← load zeroAt
  lift (invariant (v.sgt z))
  let r ← modifyPositionStrategy p lower upper amount
  return r.2

/-- `/repo/lib/pool/pool.go:156-166` `BurnStrategy`. -/
def burnStrategy (p : HPool) (lower upper : Int) (amount : Nat) : HM (Nat × Nat × HPool) := do
  let minus ← mk fun z => neg z amount
  let r ← modifyPositionStrategy p lower upper minus
  let amount0 ← mk fun z => neg z r.2.1
  let amount1 ← mk fun z => neg z r.2.2.1
  add r.1.owed0 r.1.owed0 amount0
  add r.1.owed1 r.1.owed1 amount1
  return (amount0, amount1, r.2.2.2)

/-- `/repo/lib/pool/pool.go:169-181` `CollectStrategy` (a missing record is a nil dereference). -/
def collectStrategy (p : HPool) (lower upper : Int) : HM (Nat × Nat × HPool) :=
  match hlookup p.positions (Pool.posKey lower upper) with
  | none => lift goPanic
  | some pos => do
    let amount0 ← clone pos.owed0
    let amount1 ← clone pos.owed1
    set pos.owed0 zeroAt
    set pos.owed1 zeroAt
    return (amount0, amount1, p)

/-- `/repo/lib/pool/pool.go:204-219` `modifyPosition`. -/
def modifyPosition (p : HPool) (lower upper : Int) (amount : Nat) : HM HPool := do
  lift (Pool.checkTicks lower upper)
  let a ← updateTick p.ticks lower p.tick amount p.growth0 p.growth1 false
  let b ← updateTick a.2 upper p.tick amount p.growth0 p.growth1 true
  let t1 ← lift (clearIf a.1 b.2 lower)
  let t2 ← lift (clearIf b.1 t1 upper)
  whenM (decide (p.tick ≥ lower ∧ p.tick < upper)) (add p.liquidity p.liquidity amount)
  return { p with ticks := t2 }

/-- `/repo/lib/pool/pool.go:183-186` `Mint`. -/
def mint (p : HPool) (lower upper : Int) (amount : Nat) : HM HPool := do
  let v ← load amount
  let z ← load zeroAt
  lift (invariant (v.sgt z))
  modifyPosition p lower upper amount

/-- `/repo/lib/pool/pool.go:188-192` `Burn`. -/
def burn (p : HPool) (lower upper : Int) (amount : Nat) : HM HPool := do
  let minus ← mk fun z => neg z amount
  modifyPosition p lower upper minus

/-- `/repo/lib/pool/pool.go:223-234` `Flash`. -/
def flash (p : HPool) (amount0 amount1 : Nat) : HM HPool := do
  let l ← load p.liquidity
  lift (invariant (decide (l.sign = 1)))
  let a ← newGoInt p.fee
  let b ← new (ofWord 1000000)
  let fee0 ← mulDivRoundingUp amount0 a b
  let c ← newGoInt p.fee
  let d ← new (ofWord 1000000)
  let fee1 ← mulDivRoundingUp amount1 c d
  let f0 ← mulDiv fee0 q128At p.liquidity
  let f1 ← mulDiv fee1 q128At p.liquidity
  add p.growth0 p.growth0 f0
  add p.growth1 p.growth1 f1
  return p

/-- `/repo/lib/pool/pool.go:25-32` `stateStruct`. -/
structure State where
  remaining : Nat
  calculated : Nat
  price : Nat
  tick : Int
  growth : Nat
  liquidity : Nat

/-- `/repo/lib/pool/pool.go:289-302` the pointer to the target price of a step. -/
def pickTarget (zeroForOne : Bool) (next limit : Nat) : HM Nat := do
  let vn ← load next
  let vl ← load limit
  if zeroForOne then
    if cmp vn vl < 0 then return limit else return next
  else
    if cmp vn vl > 0 then return limit else return next

/-- `/repo/lib/pool/pool.go:308-316` the amounts of the step: in place for an exact input, new numbers for an exact output. -/
def account (exactInput : Bool) (s : State) (st : Step) : HM State :=
  if exactInput then do
    let x ← mk fun z => add z st.amountIn st.fee
    sub s.remaining s.remaining x
    sub s.calculated s.calculated st.amountOut
    return s
  else do
    let r ← mk fun z => add z s.remaining st.amountOut
    let x ← mk fun z => add z st.amountIn st.fee
    let c ← mk fun z => add z s.calculated x
    return { s with remaining := r, calculated := c }

/-- `/repo/lib/pool/pool.go:318-321` fee growth accrual of a step, in place. -/
def accrue (fee liquidity growth : Nat) : HM Unit := do
  let l ← load liquidity
  if l.sign > 0 then do
    let f ← mulDiv fee q128At liquidity
    add growth growth f
  else return ()

/-- `/repo/lib/pool/pool.go:335-339` the liquidity is changed in place by the number the tick holds. -/
def changeLiquidity (zeroForOne : Bool) (liquidity net : Nat) : HM Unit :=
  if zeroForOne then sub liquidity liquidity net else add liquidity liquidity net

/-- `/repo/lib/pool/pool.go:324-340` crossing an initialized tick. -/
def crossTick (p : HPool) (zeroForOne initialized : Bool) (tickNext : Int) (growth liquidity : Nat) : HM Unit :=
  if initialized then do
    let net ← cross p.ticks tickNext (if zeroForOne then growth else p.growth0) (if zeroForOne then p.growth1 else growth)
    changeLiquidity zeroForOne liquidity net
  else return ()

/-- `/repo/lib/pool/pool.go:323-348` the end of a step. -/
def finishStep (p : HPool) (zeroForOne initialized : Bool) (tickNext : Int) (priceNext startPrice : Nat) (s : State) : HM State := do
  let v ← load s.price
  let vn ← load priceNext
  let vs ← load startPrice
  if cmp v vn = 0 then do
    crossTick p zeroForOne initialized tickNext s.growth s.liquidity
    return { s with tick := if zeroForOne then tickNext - 1 else tickNext }
  else if cmp v vs ≠ 0 then do
    let t ← getTickAtSqrtRatio s.price
    return { s with tick := t }
  else return s

/-- `/repo/lib/pool/pool.go:278-349` the body of the loop of `swap`. -/
def swapStep (p : HPool) (zeroForOne exactInput : Bool) (limit : Nat) (s : State) : HM State := do
  let n ← lift ((shape p.ticks).nextInitializedTickWithinOneWord s.tick zeroForOne)
  let priceNext ← getSqrtRatioAtTick (Pool.clampTick n.1)
  let target ← pickTarget zeroForOne priceNext limit
  let st ← computeSwapStep s.price target s.liquidity s.remaining p.fee
  let s1 ← account exactInput { s with price := st.next } st
  accrue st.fee s1.liquidity s1.growth
  finishStep p zeroForOne n.2 (Pool.clampTick n.1) priceNext s.price s1

/-- `/repo/lib/pool/pool.go:277-350` the loop of `swap`, with fuel. -/
def swapLoop (p : HPool) (zeroForOne exactInput : Bool) (limit : Nat) : Nat → State → HM State
  | 0, _ => lift (.error .fuel)
  | fuel + 1, s => do
    let vr ← load s.remaining
    let vp ← load s.price
    let vl ← load limit
    if !vr.isZero && decide (cmp vp vl ≠ 0) then do
      let s' ← swapStep p zeroForOne exactInput limit s
      swapLoop p zeroForOne exactInput limit fuel s'
    else return s

/-- `/repo/lib/pool/pool.go:242-250` the effective price limit: a new number, set in place. -/
def effLimit (zeroForOne : Bool) (limitIn : Nat) : HM Nat := do
  let limit ← clone limitIn
  let v ← load limit
  whenM v.isZero (if zeroForOne then add limit minSqrtRatioAt oneAt else sub limit maxSqrtRatioAt oneAt)
  return limit

/-- `/repo/lib/pool/pool.go:252-258` the check of the price limit. -/
def checkLimit (p : HPool) (zeroForOne : Bool) (limit : Nat) : HM Unit := do
  let v ← load limit
  let vp ← load p.price
  let vmin ← load minSqrtRatioAt
  let vmax ← load maxSqrtRatioAt
  lift (invariant (if zeroForOne then decide (cmp v vp = -1) && decide (cmp v vmin = 1)
    else decide (cmp v vp = 1) && decide (cmp v vmax = -1)))

/-- `/repo/lib/pool/pool.go:260-274` the initial loop state. -/
def initState (p : HPool) (zeroForOne : Bool) (amount : Nat) : HM State := do
  let r ← clone amount
  let c ← new (ofWord 0)
  let pr ← clone p.price
  let g ← clone (if zeroForOne then p.growth0 else p.growth1)
  let l ← clone p.liquidity
  return ⟨r, c, pr, p.tick, g, l⟩

/-- `/repo/lib/pool/pool.go:351-360` the pool after the loop: it takes over the pointers of `state`. -/
def afterSwap (p : HPool) (zeroForOne : Bool) (s : State) : HPool :=
  { p with
    tick := s.tick
    liquidity := s.liquidity
    price := s.price
    growth0 := if zeroForOne then s.growth else p.growth0
    growth1 := if zeroForOne then p.growth1 else s.growth }

/-- `/repo/lib/pool/pool.go:362-370` the returned amounts: two new numbers. -/
def swapResult (zeroForOne exactInput : Bool) (amount : Nat) (s : State) : HM (Nat × Nat) := do
  let amount0 ← new zero
  let amount1 ← new zero
  if zeroForOne = exactInput then do
    sub amount0 amount s.remaining
    set amount1 s.calculated
    return (amount0, amount1)
  else do
    set amount0 s.calculated
    sub amount1 amount s.remaining
    return (amount0, amount1)

/-- `/repo/lib/pool/pool.go:238-371` `swap`. -/
def swap (fuel : Nat) (p : HPool) (zeroForOne : Bool) (amount limitIn : Nat) : HM (Nat × Nat × HPool) := do
  let v ← load amount
  lift (invariant (!v.isZero))
  let limit ← effLimit zeroForOne limitIn
  checkLimit p zeroForOne limit
  let s0 ← initState p zeroForOne amount
  let s ← swapLoop p zeroForOne (decide (v.sign ≥ 0)) limit fuel s0
  let r ← swapResult zeroForOne (decide (v.sign ≥ 0)) amount s
  return (r.1, r.2, afterSwap p zeroForOne s)

/-- `/repo/lib/pool/pool.go:194-197` `ExactInputSwap`. -/
def exactInputSwap (fuel : Nat) (p : HPool) (amount : Nat) (token : String) (limit : Nat) : HM (Nat × Nat × HPool) :=
  swap fuel p (decide (token = p.token0)) amount limit

/-- `/repo/lib/pool/pool.go:199-202` `ExactOutputSwap`. -/
def exactOutputSwap (fuel : Nat) (p : HPool) (amount : Nat) (token : String) (limit : Nat) : HM (Nat × Nat × HPool) :=
  swap fuel p (decide (token = p.token1)) amount limit

end Ptr
end Uni
