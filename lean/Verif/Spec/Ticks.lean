import Verif.Model.TickData
/-! # Specification view of the tick store: a finite map from tick index to tick entry -/
namespace Uni
namespace Spec
open U256

/-- The entry stored for tick `i`. -/
def lookup (ts : List Tick) (i : Int) : Option Tick := ts.find? (fun x => decide (x.index = i))

/-- Strictly increasing tick indices: at most one entry per tick, in increasing order. -/
def Increasing (ts : List Tick) : Prop := ts.Pairwise (fun x y => x.index < y.index)

/-- A finite map from ticks to entries. -/
abbrev TickMap := Int → Option Tick

/-- Overwrite one key. -/
def TickMap.put (m : TickMap) (i : Int) (v : Option Tick) : TickMap := fun j => if j = i then v else m j

/-- The operations of the tick store. -/
inductive TickOp
  | update (index tickCurrent : Int) (delta g0 g1 : U256) (upper : Bool)
  | clear (index : Int)
  | cross (index : Int) (g0 g1 : U256)

/-- What an operation does to the map (`none`: it panics).  A lower boundary adds `delta` to the net liquidity, an
upper boundary subtracts it; both add it to the gross liquidity.  A new entry starts with the global growths if it is
at or below the current tick and with zero otherwise.  Crossing flips the outside growths. -/
def TickOp.apply (m : TickMap) : TickOp → Option TickMap
  | .update i cur d g0 g1 upper =>
    match m i with
    | some x => some (m.put i (some
        { index := i, net := if upper then sub x.net d else add x.net d, gross := add x.gross d, out0 := x.out0, out1 := x.out1 }))
    | none => some (m.put i (some
        { index := i, net := if upper then neg d else d, gross := d,
          out0 := if i ≤ cur then g0 else U256.zero, out1 := if i ≤ cur then g1 else U256.zero }))
  | .clear i => some (m.put i none)
  | .cross i g0 g1 =>
    match m i with
    | some x => some (m.put i (some { index := i, net := x.net, gross := x.gross, out0 := sub g0 x.out0, out1 := sub g1 x.out1 }))
    | none => none

/-- A history of operations on the map. -/
def applyAll : TickMap → List TickOp → Option TickMap
  | m, [] => some m
  | m, o :: os => (o.apply m).bind (fun m' => applyAll m' os)

/-- The same operations on the store. -/
def TickOp.exec (t : TickData) : TickOp → Go TickData
  | .update i cur d g0 g1 upper => do
      let r ← t.updateTick i cur d g0 g1 upper
      return r.2
  | .clear i => t.clearTick i
  | .cross i g0 g1 => do
      let r ← t.cross i g0 g1
      return r.2

/-- A history of operations on the store. -/
def execAll : TickData → List TickOp → Go TickData
  | t, [] => .ok t
  | t, o :: os => do
      let t' ← o.exec t
      execAll t' os

end Spec
end Uni
