import Verif.Spec.Cash
import Verif.Spec.Pool
/-! # When calls on a pool can be carried out -/
namespace Uni
namespace Spec
open U256 TickData _root_.Uni.Pool

/-- A range of ticks the pool accepts. -/
def ValidRange (l u : Int) : Prop := l < u ∧ -887272 ≤ l ∧ u ≤ 887272

/-- The fee growths stored at the boundary `i`; for a boundary that is not stored, the values a new one starts with. -/
def outsideOf (p : Pool) (i : Int) : U256 × U256 :=
  match lookup p.ticks.ticks i with
  | some x => (x.out0, x.out1)
  | none => if i ≤ p.tick then (p.growth0, p.growth1) else (zero, zero)

/-- The fee growths below the boundary `i`. -/
def belowOf (p : Pool) (i : Int) : U256 × U256 :=
  if i ≤ p.tick then outsideOf p i else (sub p.growth0 (outsideOf p i).1, sub p.growth1 (outsideOf p i).2)

/-- The fee growths inside the range `[l, u)`, whether or not its boundaries are stored. -/
def insideOf (p : Pool) (l u : Int) : U256 × U256 :=
  (sub (belowOf p u).1 (belowOf p l).1, sub (belowOf p u).2 (belowOf p l).2)

/-- The share of the liquidity `L` in the growth `g` can be computed: the product is zero, or has at least two and at most
seven words. -/
def Payable (L g : U256) : Prop := L.toNat * g.toNat = 0 ∨ (2 ^ 64 ≤ L.toNat * g.toNat ∧ L.toNat * g.toNat < 2 ^ 448)

/-- The fees earned on the record of the range since it was last used can be computed. -/
def Creditable (p : Pool) (l u : Int) : Prop :=
  Payable (recordOf p (l, u)).liquidity (sub (insideOf p l u).1 (recordOf p (l, u)).inside0) ∧
  Payable (recordOf p (l, u)).liquidity (sub (insideOf p l u).2 (recordOf p (l, u)).inside1)

/-- The token0 amount of the liquidity `L` between the prices `A < B` cannot be computed: both prices are at least `2^32`
(as numbers, `2^128`) and the liquidity is so small that `L * 2^96 * (B - A) / B`, rounded up, fits in one word. -/
def Unpriceable (A B L : Nat) : Prop := 2 ^ 128 ≤ A ∧ A < B ∧ L * 2 ^ 96 * (B - A) ≤ (2 ^ 64 - 1) * B

end Spec
end Uni
