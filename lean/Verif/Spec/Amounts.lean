import Verif.Spec.Arith
import Mathlib.Algebra.Order.Field.Rat
import Mathlib.Data.Rat.Floor
/-! # Specification of token amounts between two sqrt prices (Uniswap v3, Q64.96)

For liquidity `L` and sqrt prices `p`, `q` (as integers times 2^96) the exact real amounts are
`L * 2^96 * |q - p| / (p * q)` of token0 and `L * |q - p| / 2^96` of token1. -/
namespace Uni
namespace Spec

/-- Exact token0 amount between two prices for signed liquidity `L`. -/
def exact0 (p q : Nat) (L : Int) : ℚ := L * 2 ^ 96 * |(q : ℚ) - p| / (p * q)
/-- Exact token1 amount between two prices for signed liquidity `L`. -/
def exact1 (p q : Nat) (L : Int) : ℚ := L * |(q : ℚ) - p| / 2 ^ 96

/-- Distance of two naturals. -/
def dist (p q : Nat) : Nat := max p q - min p q

/-- Token0 between two prices, rounded up. -/
def amount0Up (p q L : Nat) : Nat := ceilDiv (L * 2 ^ 96 * dist p q) (p * q)
/-- Token0 between two prices, rounded down. -/
def amount0Down (p q L : Nat) : Nat := L * 2 ^ 96 * dist p q / (p * q)
/-- Token1 between two prices, rounded up. -/
def amount1Up (p q L : Nat) : Nat := ceilDiv (L * dist p q) (2 ^ 96)
/-- Token1 between two prices, rounded down. -/
def amount1Down (p q L : Nat) : Nat := L * dist p q / 2 ^ 96

/-- The price `P` clamped into the range `[a, b]`. -/
def clamp (P a b : Nat) : Nat := max a (min P b)

/-- Input needed to move the price between `p` and `q`, rounded up.  Selling token0 (`zeroForOne`) puts token0
in, otherwise token1. -/
def inAmount (zeroForOne : Bool) (p q L : Nat) : Nat := if zeroForOne then amount0Up p q L else amount1Up p q L
/-- Output freed by a price move between `p` and `q`, rounded down. -/
def outAmount (zeroForOne : Bool) (p q L : Nat) : Nat := if zeroForOne then amount1Down p q L else amount0Down p q L

/-- What one swap step from price `C` towards price `T` must do.  `rem` is the remaining amount (positive: exact
input still to be spent; negative: exact output still to be delivered), `fee` the fee rate in millionths. -/
structure SwapStep (C T L : Nat) (rem : Int) (fee next amountIn amountOut feeAmount : Nat) : Prop where
  /-- the price stays between the current and the target price -/
  between : min C T ≤ next ∧ next ≤ max C T
  /-- the input charged is exactly the input needed for the price move, rounded up -/
  input : amountIn = inAmount (decide (T ≤ C)) C next L
  /-- exact input: the output paid is exactly the output of the price move, rounded down -/
  outputIn : 0 ≤ rem → amountOut = outAmount (decide (T ≤ C)) C next L
  /-- exact output: likewise, but capped by what was asked for -/
  outputOut : rem < 0 → (amountOut : Int) = min (outAmount (decide (T ≤ C)) C next L : Int) (-rem)
  /-- exact output is delivered in full unless the target is reached -/
  fullOut : rem < 0 → next ≠ T → (amountOut : Int) = -rem
  /-- exact input never spends more than remains -/
  budget : 0 ≤ rem → ((amountIn + feeAmount : Nat) : Int) ≤ rem
  /-- and spends all of it unless the target is reached -/
  fullIn : 0 ≤ rem → next ≠ T → ((amountIn + feeAmount : Nat) : Int) = rem
  /-- if the target is reached, or for exact output, the fee is the exact fee rounded up -/
  feeExact : rem < 0 ∨ next = T → feeAmount = ceilDiv (amountIn * fee) (1000000 - fee)
  /-- the fee is never below the fee rate -/
  feeRate : amountIn * fee ≤ feeAmount * (1000000 - fee)
  /-- without liquidity the step jumps to the target -/
  empty : L = 0 → next = T
  /-- the target is reached if the budget (after fees) suffices -/
  reachIn : 0 ≤ rem → (inAmount (decide (T ≤ C)) C T L : Int) ≤ rem * (1000000 - fee : Nat) / 1000000 → next = T
  /-- the target is reached if the whole output up to the target is asked for -/
  reachOut : rem < 0 → (outAmount (decide (T ≤ C)) C T L : Int) ≤ -rem → next = T
  /-- exact input that does not reach the target moves the price as far as the input left after the fee allows: every
  price further on needs at least that much input, -/
  farIn : 0 ≤ rem → next ≠ T → ∀ q, (T ≤ q ∧ q < next) ∨ (next < q ∧ q ≤ T) →
    rem * (1000000 - fee : Nat) / 1000000 ≤ inAmount (decide (T ≤ C)) C q L
  /-- and more, unless token0 is sold and the code's denominator `L * 2^96 + input * price` needs more than 256 bits -/
  farInStrict : 0 ≤ rem → next ≠ T → (T ≤ C → L * 2 ^ 96 + rem * (1000000 - fee : Nat) / 1000000 * C < 2 ^ 256) →
    ∀ q, (T ≤ q ∧ q < next) ∨ (next < q ∧ q ≤ T) →
    rem * (1000000 - fee : Nat) / 1000000 < inAmount (decide (T ≤ C)) C q L
  /-- exact output that needs less than the whole way to the target moves the price no further than needed: every price
  before frees less than what was asked for -/
  farOut : rem < 0 → -rem < (outAmount (decide (T ≤ C)) C T L : Int) → ∀ q, (next < q ∧ q ≤ C) ∨ (C ≤ q ∧ q < next) →
    (outAmount (decide (T ≤ C)) C q L : Int) < -rem

end Spec
end Uni
