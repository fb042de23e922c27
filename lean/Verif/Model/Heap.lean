import Verif.Model.Pool
import Verif.Model.Mem
/-! # Pools as pointers into a heap

`Model/Pool.lean` treats a pool as a value.  In Go a pool holds pointers (`*ui.Int`) to 256-bit numbers, some of which are
changed in place.  Here a heap of 256-bit cells is explicit: a pool holds references to cells, every in-place operation
(`x.Add(x, y)`, `x.Set(y)`, …) is a write to a cell, every `new`, `NewInt` and `Clone` allocates one.  `view` reads the pool
off the heap.

Simplifications: the arguments and results of a call, and the numbers that only a single call can reach (its local
variables), are values.  The structs themselves (`Pool`, `TickData`, `Info`) and the backing array of the tick slice are
held by one pool only (`Clone` makes new ones), so they are values too.  A function that only reads is evaluated on the
numbers read off the heap. -/
namespace Uni
open U256 FullMath TickMath SwapMath

/-- `/repo/lib/tickdata/tickdata.go:10-16` `Tick`: the four numbers are references. -/
structure HTick where
  index : Int
  net : Nat
  gross : Nat
  out0 : Nat
  out1 : Nat
  deriving DecidableEq, Repr

/-- `/repo/lib/tickdata/tickdata.go:18-21` `TickData`. -/
structure HTickData where
  ticks : List HTick
  spacing : Int
  deriving DecidableEq, Repr

/-- `/repo/lib/position/position.go:19-25` `Info`. -/
structure HInfo where
  liquidity : Nat
  inside0 : Nat
  inside1 : Nat
  owed0 : Nat
  owed1 : Nat
  deriving DecidableEq, Repr

/-- `/repo/lib/pool/pool.go:34-46` `Pool`.  The map of positions is a list of its entries. -/
structure HPool where
  token0 : String
  token1 : String
  fee : Int
  price : Nat
  liquidity : Nat
  growth0 : Nat
  growth1 : Nat
  spacing : Int
  tick : Int
  ticks : HTickData
  positions : List (String × HInfo)
  deriving DecidableEq, Repr

/-- The tick a `Tick` struct (`/repo/lib/tickdata/tickdata.go:10-16`) shows on a heap. -/
def HTick.view (h : Heap) (t : HTick) : Tick := ⟨t.index, h.cell t.net, h.cell t.gross, h.cell t.out0, h.cell t.out1⟩

/-- The tick store a `TickData` struct (`/repo/lib/tickdata/tickdata.go:18-21`) shows on a heap. -/
def HTickData.view (h : Heap) (t : HTickData) : TickData := ⟨t.ticks.map (HTick.view h), t.spacing⟩

/-- The position an `Info` struct (`/repo/lib/position/position.go:19-25`) shows on a heap. -/
def HInfo.view (h : Heap) (i : HInfo) : Info :=
  ⟨h.cell i.liquidity, h.cell i.inside0, h.cell i.inside1, h.cell i.owed0, h.cell i.owed1⟩

/-- Map lookup, as in `/repo/lib/pool/pool.go:101`. -/
def hlookup : List (String × HInfo) → String → Option HInfo
  | [], _ => none
  | e :: l, k => if e.1 = k then some e.2 else hlookup l k

/-- Map assignment, as in `/repo/lib/pool/pool.go:105`. -/
def hset : List (String × HInfo) → String → HInfo → List (String × HInfo)
  | [], k, v => [(k, v)]
  | e :: l, k, v => if e.1 = k then (k, v) :: l else e :: hset l k v

/-- The pool a `Pool` struct (`/repo/lib/pool/pool.go:34-46`) shows on a heap. -/
def HPool.view (h : Heap) (p : HPool) : Pool :=
  { token0 := p.token0, token1 := p.token1, fee := p.fee, price := h.cell p.price, liquidity := h.cell p.liquidity,
    growth0 := h.cell p.growth0, growth1 := h.cell p.growth1, spacing := p.spacing, tick := p.tick,
    ticks := p.ticks.view h, positions := fun k => (hlookup p.positions k).map (HInfo.view h) }

/-! ### `lib/tickdata` -/

namespace HTickData

/-- `/repo/lib/tickdata/tickdata.go:66-73` `Cross`: the two numbers of the tick are changed in place. -/
def cross (h : Heap) (t : HTickData) (tick : Int) (g0 g1 : U256) : Go (U256 × Heap) := do
  let r ← (t.view h).getTickAt tick
  let x ← idx t.ticks r.1
  let h1 := h.write x.out0 (sub g0 (h.cell x.out0))
  let h2 := h1.write x.out1 (sub g1 (h1.cell x.out1))
  return (h2.cell x.net, h2)

/-- `/repo/lib/tickdata/tickdata.go:75-94` `makeTick`: four new numbers. -/
def makeTick (h : Heap) (tick tickCurrent : Int) (net gross g0 g1 : U256) : HTick × Heap :=
  let a := h.alloc net
  let b := a.2.alloc gross
  let c := b.2.alloc (if tick ≤ tickCurrent then g0 else zero)
  let d := c.2.alloc (if tick ≤ tickCurrent then g1 else zero)
  (⟨tick, a.1, b.1, c.1, d.1⟩, d.2)

/-- `/repo/lib/tickdata/tickdata.go:96-103` `ClearTick`: only the slice changes. -/
def clearTick (h : Heap) (t : HTickData) (index : Int) : Go HTickData := do
  let r ← (t.view h).binarySearch2 index
  if r.2 then return { t with ticks := t.ticks.eraseIdx r.1.toNat } else return t

/-- `/repo/lib/tickdata/tickdata.go:105-139` `UpdateTick`: the numbers of an existing tick are changed in place. -/
def updateTick (h : Heap) (t : HTickData) (index tickCurrent : Int) (delta g0 g1 : U256) (upper : Bool) :
    Go (Bool × Heap × HTickData) := do
  let r ← (t.view h).binarySearch2 index
  let z := if upper then neg delta else delta
  if r.2 then do
    let x ← idx t.ticks r.1
    let h1 := h.write x.net (if upper then sub (h.cell x.net) delta else add (h.cell x.net) delta)
    let h2 := h1.write x.gross (add (h1.cell x.gross) delta)
    return ((h2.cell x.gross).isZero, h2, t)
  else
    let m := makeTick h index tickCurrent z delta g0 g1
    if r.1 = -2 then return (false, m.2, { t with ticks := t.ticks ++ [m.1] })
    else if r.1 = -1 then return (false, m.2, { t with ticks := m.1 :: t.ticks })
    else return (false, m.2, { t with ticks := t.ticks.take r.1.toNat ++ m.1 :: t.ticks.drop r.1.toNat })

/-- `/repo/lib/tickdata/tickdata.go:23-30` `Clone`: the slice is copied, the pointers in it are not followed. -/
def clone (t : HTickData) : HTickData := t

end HTickData

/-! ### `lib/position` -/

namespace HInfo

/-- `/repo/lib/position/position.go:27-35` `NewPosition`. -/
def new (h : Heap) : HInfo × Heap :=
  let a := h.alloc zero
  let b := a.2.alloc zero
  let c := b.2.alloc zero
  let d := c.2.alloc zero
  let e := d.2.alloc zero
  (⟨a.1, b.1, c.1, d.1, e.1⟩, e.2)

/-- `/repo/lib/position/position.go:9-17` `Clone`: five new numbers, the fourth copied from the fifth. -/
def clone (h : Heap) (i : HInfo) : HInfo × Heap :=
  let a := h.alloc (h.cell i.liquidity)
  let b := a.2.alloc (a.2.cell i.inside0)
  let c := b.2.alloc (b.2.cell i.inside1)
  let d := c.2.alloc (c.2.cell i.owed1)
  let e := d.2.alloc (d.2.cell i.owed1)
  (⟨a.1, b.1, c.1, d.1, e.1⟩, e.2)

/-- `/repo/lib/position/position.go:37-48` `Update`: three pointers are replaced by pointers to new numbers (the two growths
are new numbers made by `GetFeeGrowthInside`), the owed amounts are changed in place. -/
def update (h : Heap) (i : HInfo) (delta in0 in1 : U256) : Go (HInfo × Heap) := do
  let owed0 ← mulDiv (sub in0 (h.cell i.inside0)) (h.cell i.liquidity) Cons.q128
  let owed1 ← mulDiv (sub in1 (h.cell i.inside1)) (h.cell i.liquidity) Cons.q128
  let a := h.alloc (add (h.cell i.liquidity) delta)
  let b := a.2.alloc in0
  let c := b.2.alloc in1
  let h1 := c.2.write i.owed0 (add (c.2.cell i.owed0) owed0)
  let h2 := h1.write i.owed1 (add (h1.cell i.owed1) owed1)
  return (⟨a.1, b.1, c.1, i.owed0, i.owed1⟩, h2)

end HInfo

/-! ### `lib/pool` -/

namespace HPool

/-- `/repo/lib/pool/pool.go:48-70` `NewPool`: the pool keeps the caller's pointer to the price. -/
def new (h : Heap) (token0 token1 : String) (fee : Int) (price : Nat) : Go (Heap × HPool) := do
  invariant (decide (fee ≥ 0) && decide (fee ≤ 1000000))
  let tick ← getTickAtSqrtRatio (h.cell price)
  let a := h.alloc zero
  let b := a.2.alloc zero
  let c := b.2.alloc zero
  return (c.2, { token0, token1, fee, price, liquidity := a.1, growth0 := b.1, growth1 := c.1,
                 spacing := Cons.tickSpaces fee, tick, ticks := ⟨[], Cons.tickSpaces fee⟩, positions := [] })

/-- `/repo/lib/pool/pool.go:73-76` the copies of the positions. -/
def clonePositions (h : Heap) : List (String × HInfo) → List (String × HInfo) × Heap
  | [] => ([], h)
  | e :: l =>
    let a := e.2.clone h
    let b := clonePositions a.2 l
    ((e.1, a.1) :: b.1, b.2)

/-- `/repo/lib/pool/pool.go:72-90` `Clone`. -/
def clone (h : Heap) (p : HPool) : Heap × HPool :=
  let ps := clonePositions h p.positions
  let a := ps.2.alloc (ps.2.cell p.price)
  let b := a.2.alloc (a.2.cell p.liquidity)
  let c := b.2.alloc (b.2.cell p.growth0)
  let d := c.2.alloc (c.2.cell p.growth1)
  (d.2, { p with price := a.1, liquidity := b.1, growth0 := c.1, growth1 := d.1, ticks := p.ticks.clone,
                 positions := ps.1 })

/-- `/repo/lib/pool/pool.go:94-97` the tick updates of `updatePosition`. -/
def updateBounds (h : Heap) (p : HPool) (lower upper : Int) (amount : U256) : Go (Bool × Bool × Heap × HTickData) :=
  if amount.isZero then .ok (false, false, h, p.ticks)
  else do
    let a ← p.ticks.updateTick h lower p.tick amount (h.cell p.growth0) (h.cell p.growth1) false
    let b ← a.2.2.updateTick a.2.1 upper p.tick amount (a.2.1.cell p.growth0) (a.2.1.cell p.growth1) true
    return (a.1, b.1, b.2.1, b.2.2)

/-- `/repo/lib/pool/pool.go:111-113` `if c { ClearTick(i) }`. -/
def clearIf (c : Bool) (h : Heap) (t : HTickData) (i : Int) : Go HTickData := if c then t.clearTick h i else .ok t

/-- `/repo/lib/pool/pool.go:101-103` the record an update starts from: a new one if there is none. -/
def posOrNew (h : Heap) (o : Option HInfo) : HInfo × Heap :=
  match o with
  | some i => (i, h)
  | none => HInfo.new h

/-- `/repo/lib/pool/pool.go:91-119` `updatePosition`. -/
def updatePosition (h : Heap) (p : HPool) (lower upper : Int) (amount : U256) : Go (HInfo × Heap × HPool) := do
  let b ← p.updateBounds h lower upper amount
  let ins ← (b.2.2.2.view b.2.2.1).getFeeGrowthInside lower upper p.tick (b.2.2.1.cell p.growth0) (b.2.2.1.cell p.growth1)
  let q := posOrNew b.2.2.1 (hlookup p.positions (Pool.posKey lower upper))
  let pos ← q.1.update q.2 amount ins.1 ins.2
  let neg := decide (amount.sign = -1)
  let t1 ← clearIf (neg && b.1) pos.2 b.2.2.2 lower
  let t2 ← clearIf (neg && b.2.1) pos.2 t1 upper
  return (pos.1, pos.2, { p with ticks := t2, positions := hset p.positions (Pool.posKey lower upper) pos.1 })

/-- `/repo/lib/pool/pool.go:127-147` `modifyPositionStrategy`: the liquidity is changed in place. -/
def modifyPositionStrategy (h : Heap) (p : HPool) (lower upper : Int) (amount : U256) :
    Go (HInfo × U256 × U256 × Heap × HPool) := do
  Pool.checkTicks lower upper
  let r ← p.updatePosition h lower upper amount
  if amount.isZero then return (r.1, zero, zero, r.2.1, r.2.2)
  else do
    let am ← (r.2.2.view r.2.1).amountsFor lower upper amount
    if lower ≤ p.tick ∧ p.tick < upper then
      return (r.1, am.1, am.2, r.2.1.write r.2.2.liquidity (add (r.2.1.cell r.2.2.liquidity) amount), r.2.2)
    else return (r.1, am.1, am.2, r.2.1, r.2.2)

/-- `/repo/lib/pool/pool.go:149-153` `MintStrategy`. -/
def mintStrategy (h : Heap) (p : HPool) (lower upper : Int) (amount : U256) : Go (U256 × U256 × Heap × HPool) := do
  invariant (amount.sgt zero)
  let r ← p.modifyPositionStrategy h lower upper amount
  return r.2

/-- `/repo/lib/pool/pool.go:156-166` `BurnStrategy`: the owed amounts are changed in place. -/
def burnStrategy (h : Heap) (p : HPool) (lower upper : Int) (amount : U256) : Go (U256 × U256 × Heap × HPool) := do
  let r ← p.modifyPositionStrategy h lower upper (neg amount)
  let amount0 := neg r.2.1
  let amount1 := neg r.2.2.1
  let h0 := r.2.2.2.1
  let h1 := h0.write r.1.owed0 (add (h0.cell r.1.owed0) amount0)
  let h2 := h1.write r.1.owed1 (add (h1.cell r.1.owed1) amount1)
  return (amount0, amount1, h2, r.2.2.2.2)

/-- `/repo/lib/pool/pool.go:169-181` `CollectStrategy`: the owed amounts are set to zero in place. -/
def collectStrategy (h : Heap) (p : HPool) (lower upper : Int) : Go (U256 × U256 × Heap × HPool) :=
  match hlookup p.positions (Pool.posKey lower upper) with
  | none => goPanic
  | some pos =>
    let h1 := h.write pos.owed0 zero
    let h2 := h1.write pos.owed1 zero
    .ok (h.cell pos.owed0, h.cell pos.owed1, h2, p)

/-- `/repo/lib/pool/pool.go:204-219` `modifyPosition`. -/
def modifyPosition (h : Heap) (p : HPool) (lower upper : Int) (amount : U256) : Go (Heap × HPool) := do
  Pool.checkTicks lower upper
  let a ← p.ticks.updateTick h lower p.tick amount (h.cell p.growth0) (h.cell p.growth1) false
  let b ← a.2.2.updateTick a.2.1 upper p.tick amount (a.2.1.cell p.growth0) (a.2.1.cell p.growth1) true
  let t1 ← clearIf a.1 b.2.1 b.2.2 lower
  let t2 ← clearIf b.1 b.2.1 t1 upper
  if p.tick ≥ lower ∧ p.tick < upper then
    return (b.2.1.write p.liquidity (add (b.2.1.cell p.liquidity) amount), { p with ticks := t2 })
  else return (b.2.1, { p with ticks := t2 })

/-- `/repo/lib/pool/pool.go:183-186` `Mint`. -/
def mint (h : Heap) (p : HPool) (lower upper : Int) (amount : U256) : Go (Heap × HPool) := do
  invariant (amount.sgt zero)
  p.modifyPosition h lower upper amount

/-- `/repo/lib/pool/pool.go:188-192` `Burn`. -/
def burn (h : Heap) (p : HPool) (lower upper : Int) (amount : U256) : Go (Heap × HPool) :=
  p.modifyPosition h lower upper (neg amount)

/-- `/repo/lib/pool/pool.go:223-234` `Flash`: the growths are changed in place. -/
def flash (h : Heap) (p : HPool) (amount0 amount1 : U256) : Go (Heap × HPool) := do
  invariant (decide ((h.cell p.liquidity).sign = 1))
  let fee0 ← mulDivRoundingUp amount0 (ofGoInt p.fee) (ofWord 1000000)
  let fee1 ← mulDivRoundingUp amount1 (ofGoInt p.fee) (ofWord 1000000)
  let f0 ← mulDiv fee0 Cons.q128 (h.cell p.liquidity)
  let f1 ← mulDiv fee1 Cons.q128 (h.cell p.liquidity)
  let h1 := h.write p.growth0 (add (h.cell p.growth0) f0)
  let h2 := h1.write p.growth1 (add (h1.cell p.growth1) f1)
  return (h2, p)

/-- `/repo/lib/pool/pool.go:25-32` `stateStruct` (numbers private to the call) and the heap. -/
structure State where
  remaining : U256
  calculated : U256
  price : U256
  tick : Int
  growth : U256
  liquidity : U256
  heap : Heap

/-- `/repo/lib/pool/pool.go:324-340` crossing an initialized tick. -/
def crossTick (p : HPool) (zeroForOne initialized : Bool) (tickNext : Int) (growth liquidity : U256) (h : Heap) :
    Go (U256 × Heap) :=
  if initialized then do
    let c ← p.ticks.cross h tickNext (if zeroForOne then growth else h.cell p.growth0)
      (if zeroForOne then h.cell p.growth1 else growth)
    return (if zeroForOne then sub liquidity c.1 else add liquidity c.1, c.2)
  else .ok (liquidity, h)

/-- `/repo/lib/pool/pool.go:323-348` the end of a step. -/
def finishStep (p : HPool) (zeroForOne initialized : Bool) (tickNext : Int) (priceNext startPrice : U256) (s : State) : Go State :=
  if cmp s.price priceNext = 0 then do
    let c ← p.crossTick zeroForOne initialized tickNext s.growth s.liquidity s.heap
    return { s with liquidity := c.1, heap := c.2, tick := if zeroForOne then tickNext - 1 else tickNext }
  else if cmp s.price startPrice ≠ 0 then do
    let t ← getTickAtSqrtRatio s.price
    return { s with tick := t }
  else .ok s

/-- `/repo/lib/pool/pool.go:278-349` the body of the loop of `swap`. -/
def swapStep (p : HPool) (zeroForOne exactInput : Bool) (limit : U256) (s : State) : Go State := do
  let n ← (p.ticks.view s.heap).nextInitializedTickWithinOneWord s.tick zeroForOne
  let tickNext := Pool.clampTick n.1
  let priceNext ← getSqrtRatioAtTick tickNext
  let st ← computeSwapStep s.price (Pool.pickTarget zeroForOne priceNext limit) s.liquidity s.remaining p.fee
  let g ← Pool.accrue st.fee s.liquidity s.growth
  p.finishStep zeroForOne n.2 tickNext priceNext s.price
    { s with
      price := st.next
      remaining := if exactInput then sub s.remaining (add st.amountIn st.fee) else add s.remaining st.amountOut
      calculated := if exactInput then sub s.calculated st.amountOut else add s.calculated (add st.amountIn st.fee)
      growth := g }

/-- `/repo/lib/pool/pool.go:277-350` the loop of `swap`, with fuel. -/
def swapLoop (p : HPool) (zeroForOne exactInput : Bool) (limit : U256) : Nat → State → Go State
  | 0, _ => .error .fuel
  | fuel + 1, s =>
    if !s.remaining.isZero && decide (cmp s.price limit ≠ 0) then do
      let s' ← p.swapStep zeroForOne exactInput limit s
      swapLoop p zeroForOne exactInput limit fuel s'
    else .ok s

/-- `/repo/lib/pool/pool.go:351-360` the pool after the loop: pointers to the new numbers of `state`. -/
def afterSwap (p : HPool) (zeroForOne : Bool) (s : State) : Heap × HPool :=
  let a := s.heap.alloc s.liquidity
  let b := a.2.alloc s.price
  let c := b.2.alloc s.growth
  (c.2, { p with tick := s.tick, liquidity := a.1, price := b.1,
                 growth0 := if zeroForOne then c.1 else p.growth0, growth1 := if zeroForOne then p.growth1 else c.1 })

/-- `/repo/lib/pool/pool.go:238-371` `swap`. -/
def swap (fuel : Nat) (h : Heap) (p : HPool) (zeroForOne : Bool) (amount limitIn : U256) :
    Go (U256 × U256 × Heap × HPool) := do
  invariant (!amount.isZero)
  let limit := Pool.effLimit zeroForOne limitIn
  invariant ((p.view h).limitOk zeroForOne limit)
  let exactInput := decide (amount.sign ≥ 0)
  let s ← p.swapLoop zeroForOne exactInput limit fuel
    { remaining := amount, calculated := zero, price := h.cell p.price, tick := p.tick,
      growth := if zeroForOne then h.cell p.growth0 else h.cell p.growth1, liquidity := h.cell p.liquidity, heap := h }
  let r := if zeroForOne = exactInput then (sub amount s.remaining, s.calculated) else (s.calculated, sub amount s.remaining)
  let q := p.afterSwap zeroForOne s
  return (r.1, r.2, q.1, q.2)

end HPool
end Uni
