import Mathlib.Algebra.Order.Ring.Defs
import Mathlib.Algebra.Order.Ring.Int
import Mathlib.Algebra.BigOperators.Group.List.Basic
import Mathlib.Data.Int.Cast.Basic
/-! # Ledger of liquidity changes

A ledger is the list of all liquidity changes so far, newest first.  All quantities a pool should report are sums
over the ledger. -/
namespace Uni
namespace Spec

/-- One change of liquidity: `delta` units were added to (removed from, if negative) the range `[lower, upper)`. -/
structure Entry where
  lower : Int
  upper : Int
  delta : Int
  deriving DecidableEq, Repr

/-- Sum over the ledger of `weight(range) * delta`. -/
def wsum {R : Type} [Ring R] (weight : Int → Int → R) (h : List Entry) : R :=
  (h.map (fun e => weight e.lower e.upper * (e.delta : R))).sum

/-- Liquidity still in the range `[l, u)`. -/
def outstanding (h : List Entry) (l u : Int) : Int := wsum (fun a b => if a = l ∧ b = u then 1 else 0) h

/-- Liquidity of all ranges that contain tick `t`. -/
def active (h : List Entry) (t : Int) : Int := wsum (fun a b => if a ≤ t ∧ t < b then 1 else 0) h

/-- Liquidity that becomes active minus liquidity that becomes inactive when tick `t` is crossed upwards. -/
def netAt (h : List Entry) (t : Int) : Int := wsum (fun a b => (if a = t then 1 else 0) - (if b = t then 1 else 0)) h

/-- Liquidity of all ranges with a boundary at tick `t`. -/
def grossAt (h : List Entry) (t : Int) : Int := wsum (fun a b => (if a = t then 1 else 0) + (if b = t then 1 else 0)) h

/-- All liquidity. -/
def total (h : List Entry) : Int := wsum (fun _ _ => 1) h

/-- A ledger in which no range was ever overdrawn and the total liquidity fits in 128 bits. -/
def Covered : List Entry → Prop
  | [] => True
  | e :: h => Covered h ∧ e.lower < e.upper ∧ 0 ≤ outstanding (e :: h) e.lower e.upper ∧ total (e :: h) < 2 ^ 128

/-- Every boundary of a range that still holds liquidity is a multiple of the tick spacing. -/
def Aligned (spacing : Int) (h : List Entry) : Prop := ∀ t, grossAt h t ≠ 0 → spacing ∣ t

/-- The ticks at which the downward tick search is wrong (see C22): those less than one tick spacing below a
multiple of 256 spacings at or below zero. -/
def SearchBroken (spacing tick : Int) : Prop :=
  ∃ k : Int, k ≤ 0 ∧ 256 * k * spacing - spacing < tick ∧ tick < 256 * k * spacing

/-- If the downward tick search is wrong at `tick`, then no boundary of a range with liquidity lies strictly between
`tick` and the multiple of 256 spacings above it.  This holds at every tick for aligned ledgers, and for all ledgers at
every tick where the search works. -/
def ClearAbove (spacing tick : Int) (h : List Entry) : Prop :=
  ∀ k : Int, k ≤ 0 → 256 * k * spacing - spacing < tick → ∀ j, tick < j → j < 256 * k * spacing → grossAt h j = 0

end Spec
end Uni
