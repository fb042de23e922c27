import Verif.Spec.Value
/-! # Values in either token -/
namespace Uni
namespace Spec
open U256 Uni

/-- The value of `x0` of token0 and `x1` of token1 in token0, at the square root price `P / 2^96`. -/
def valueIn0 (P : Nat) (x0 x1 : ℚ) : ℚ := x0 + x1 / ((P : ℚ) / 2 ^ 96) ^ 2

/-- What the positions hold when the price is at or above all of them: all their liquidity in token1. -/
def allIn1 (ps : List StratPos) : ℚ := (ps.map (fun q => exact1 (tickPrice q.lower) (tickPrice q.upper) q.amount.toNat)).sum
/-- What the positions hold when the price is at or below all of them: all their liquidity in token0. -/
def allIn0 (ps : List StratPos) : ℚ := (ps.map (fun q => exact0 (tickPrice q.lower) (tickPrice q.upper) q.amount.toNat)).sum

end Spec
end Uni
