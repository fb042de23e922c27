import Verif.Model.U256
/-! # `lib/tickdata`

Go `int` is modelled by `Int`.  The slice of `Tick` structs is modelled by a list; the `*ui.Int` fields of a tick
are owned by exactly one list entry (they are created by `Clone` in `makeTick`), so in-place updates through the
pointers are list updates.  (Sharing after `TickData.Clone` is treated in the heap model, see `Model/Heap.lean`.) -/
namespace Uni
open U256

/-- `/repo/lib/tickdata/tickdata.go:10-16` `Tick`. -/
structure Tick where
  index : Int
  net : U256
  gross : U256
  out0 : U256
  out1 : U256
  deriving DecidableEq, Repr

/-- `/repo/lib/tickdata/tickdata.go:18-21` `TickData`. -/
structure TickData where
  ticks : List Tick
  spacing : Int
  deriving DecidableEq, Repr

namespace TickData

/-- `/repo/lib/tickdata/tickdata.go:39-44` `NewTickData`. -/
def new (spacing : Int) : TickData := ⟨[], spacing⟩

/-- Go `len(t.ticks)`. -/
def len (t : TickData) : Int := t.ticks.length

/-- `/repo/lib/tickdata/tickdata.go:46-49` `isBelowSmallest`. -/
def isBelowSmallest (t : TickData) (tick : Int) : Go Bool := do
  invariant (decide (t.len > 0))
  let x ← idx t.ticks 0
  return decide (tick < x.index)

/-- `/repo/lib/tickdata/tickdata.go:51-54` `isAtOrAboveLargest`. -/
def isAtOrAboveLargest (t : TickData) (tick : Int) : Go Bool := do
  invariant (decide (t.len > 0))
  let x ← idx t.ticks (t.len - 1)
  return decide (tick ≥ x.index)

/-- `/repo/lib/tickdata/tickdata.go:55-58` `isAboveLargest`. -/
def isAboveLargest (t : TickData) (tick : Int) : Go Bool := do
  let x ← idx t.ticks (t.len - 1)
  return decide (tick > x.index)

/-- `/repo/lib/tickdata/tickdata.go:198` the second half of the loop condition of `binarySearch`
(`i == len(t.ticks)-1 || t.ticks[i+1].Index > tick`, short-circuit). -/
def lastBefore (t : TickData) (tick i : Int) : Go Bool :=
  if i = t.len - 1 then .ok true
  else do
    let y ← idx t.ticks (i + 1)
    return decide (y.index > tick)

/-- `/repo/lib/tickdata/tickdata.go:198` the whole loop condition (short-circuit `&&`). -/
def foundAt (t : TickData) (tick i : Int) (x : Tick) : Go Bool :=
  if x.index ≤ tick then lastBefore t tick i else .ok false

/-- `/repo/lib/tickdata/tickdata.go:196-206` the loop of `binarySearch`, with fuel. -/
def bsLoop (t : TickData) (tick : Int) : Nat → Int → Int → Go Int
  | 0, _, _ => .error .fuel
  | fuel + 1, l, r => do
    let i := Int.tdiv (l + r) 2
    let x ← idx t.ticks i
    let f ← foundAt t tick i x
    if f then return i
    else if x.index < tick then bsLoop t tick fuel (i + 1) r
    else bsLoop t tick fuel l (i - 1)

/-- `/repo/lib/tickdata/tickdata.go:191-207` `binarySearch`. -/
def binarySearch (t : TickData) (tick : Int) : Go Int := do
  let b ← t.isBelowSmallest tick
  invariant (!b)
  bsLoop t tick (t.ticks.length + 1) 0 (t.len - 1)

/-- `/repo/lib/tickdata/tickdata.go:226-236` the loop of `binarySearch2`, with fuel.  Result: `Sum.inl i` for the
early `return i, true`, `Sum.inr l` for the value of `l` after the loop. -/
def bs2Loop (t : TickData) (tick : Int) : Nat → Int → Int → Go (Sum Int Int)
  | 0, _, _ => .error .fuel
  | fuel + 1, l, r =>
    if l < r then do
      let i := l + Int.tdiv (r - l) 2
      let x ← idx t.ticks i
      if tick = x.index then return .inl i
      else if x.index < tick then bs2Loop t tick fuel (i + 1) r
      else bs2Loop t tick fuel l i
    else .ok (.inr l)

/-- `/repo/lib/tickdata/tickdata.go:225-241` the search part of `binarySearch2`. -/
def bs2Search (t : TickData) (tick : Int) : Go (Int × Bool) := do
  let res ← bs2Loop t tick (t.ticks.length + 1) 0 (t.len - 1)
  match res with
  | .inl i => return (i, true)
  | .inr l =>
    let x ← idx t.ticks l
    return (l, decide (tick = x.index))

/-- `/repo/lib/tickdata/tickdata.go:209-243` `binarySearch2`. -/
def binarySearch2 (t : TickData) (tick : Int) : Go (Int × Bool) :=
  if t.ticks.length = 0 then .ok (-2, false)
  else do
    let b ← t.isBelowSmallest tick
    if b then return (-1, false)
    else do
      let a ← t.isAboveLargest tick
      if a then return (-2, false)
      else bs2Search t tick

/-- `/repo/lib/tickdata/tickdata.go:60-64` `GetTick` (the position in the list is returned as well, so that
in-place updates can be modelled). -/
def getTickAt (t : TickData) (index : Int) : Go (Int × Tick) := do
  let i ← t.binarySearch index
  let x ← idx t.ticks i
  invariant (decide (x.index = index))
  return (i, x)

/-- `/repo/lib/tickdata/tickdata.go:60-64` `GetTick`. -/
def getTick (t : TickData) (index : Int) : Go Tick := do
  let r ← t.getTickAt index
  return r.2

/-- `/repo/lib/tickdata/tickdata.go:66-73` `Cross`. -/
def cross (t : TickData) (tick : Int) (g0 g1 : U256) : Go (U256 × TickData) := do
  let r ← t.getTickAt tick
  let x := r.2
  let ts ← setIdx t.ticks r.1 { x with out0 := sub g0 x.out0, out1 := sub g1 x.out1 }
  return (x.net, { t with ticks := ts })

/-- `/repo/lib/tickdata/tickdata.go:75-94` `makeTick`. -/
def makeTick (tick tickCurrent : Int) (net gross g0 g1 : U256) : Tick :=
  if tick ≤ tickCurrent then ⟨tick, net, gross, g0, g1⟩ else ⟨tick, net, gross, zero, zero⟩

/-- `/repo/lib/tickdata/tickdata.go:96-103` `ClearTick` (the message printed when the tick is missing is not
modelled). -/
def clearTick (t : TickData) (index : Int) : Go TickData := do
  let r ← t.binarySearch2 index
  if r.2 then return { t with ticks := t.ticks.eraseIdx r.1.toNat } else return t

/-- `/repo/lib/tickdata/tickdata.go:105-139` `UpdateTick`.  Result: the returned flag and the new store. -/
def updateTick (t : TickData) (index tickCurrent : Int) (delta g0 g1 : U256) (upper : Bool) : Go (Bool × TickData) := do
  let r ← t.binarySearch2 index
  let z := if upper then neg delta else delta
  if r.2 then do
    let x ← idx t.ticks r.1
    let net := if upper then sub x.net delta else add x.net delta
    let gross := add x.gross delta
    let ts ← setIdx t.ticks r.1 { x with net := net, gross := gross }
    return (gross.isZero, { t with ticks := ts })
  else
    let x := makeTick index tickCurrent z delta g0 g1
    if r.1 = -2 then return (false, { t with ticks := t.ticks ++ [x] })
    else if r.1 = -1 then return (false, { t with ticks := x :: t.ticks })
    else return (false, { t with ticks := t.ticks.take r.1.toNat ++ x :: t.ticks.drop r.1.toNat })

/-- `/repo/lib/tickdata/tickdata.go:145-151` fee growth below the lower tick, one token. -/
def growthBelow (tickLower tickCurrent : Int) (g lowerOut : U256) : U256 :=
  if tickCurrent ≥ tickLower then lowerOut else sub g lowerOut

/-- `/repo/lib/tickdata/tickdata.go:153-159` fee growth above the upper tick, one token. -/
def growthAbove (tickUpper tickCurrent : Int) (g upperOut : U256) : U256 :=
  if tickCurrent < tickUpper then upperOut else sub g upperOut

/-- `/repo/lib/tickdata/tickdata.go:141-165` `GetFeeGrowthInside`. -/
def getFeeGrowthInside (t : TickData) (tickLower tickUpper tickCurrent : Int) (g0 g1 : U256) : Go (U256 × U256) := do
  let lower ← t.getTick tickLower
  let upper ← t.getTick tickUpper
  return (sub (sub g0 (growthBelow tickLower tickCurrent g0 lower.out0)) (growthAbove tickUpper tickCurrent g0 upper.out0),
          sub (sub g1 (growthBelow tickLower tickCurrent g1 lower.out1)) (growthAbove tickUpper tickCurrent g1 upper.out1))

/-- `/repo/lib/tickdata/tickdata.go:245-261` `nextInitializedTick`. -/
def nextInitializedTick (t : TickData) (tick : Int) (lte : Bool) : Go Tick :=
  if lte then do
    let b ← t.isBelowSmallest tick
    invariant (!b)
    let a ← t.isAtOrAboveLargest tick
    if a then idx t.ticks (t.len - 1)
    else do
      let i ← t.binarySearch tick
      idx t.ticks i
  else do
    let a ← t.isAtOrAboveLargest tick
    invariant (!a)
    let b ← t.isBelowSmallest tick
    if b then idx t.ticks 0
    else do
      let i ← t.binarySearch tick
      idx t.ticks (i + 1)

/-- Go integer division by a variable: panics on zero, truncates. -/
def goDiv (a b : Int) : Go Int := if b = 0 then .error .panic else .ok (Int.tdiv a b)

/-- `/repo/lib/tickdata/tickdata.go:167-189` `NextInitializedTickWithinOneWord`.  `>> 8` is floor division by 256,
`<< 8` multiplication by 256. -/
def nextInitializedTickWithinOneWord (t : TickData) (tick : Int) (lte : Bool) : Go (Int × Bool) := do
  let compressed ← goDiv tick t.spacing
  if lte then do
    let minimum := compressed / 256 * 256 * t.spacing
    let b ← t.isBelowSmallest tick
    if b then return (minimum, false)
    else do
      let x ← t.nextInitializedTick tick lte
      let next := if minimum > x.index then minimum else x.index
      return (next, decide (next = x.index))
  else do
    let maximum := (((compressed + 1) / 256 + 1) * 256 - 1) * t.spacing
    let a ← t.isAtOrAboveLargest tick
    if a then return (maximum, false)
    else do
      let x ← t.nextInitializedTick tick lte
      let next := if maximum < x.index then maximum else x.index
      return (next, decide (next = x.index))

end TickData
end Uni
