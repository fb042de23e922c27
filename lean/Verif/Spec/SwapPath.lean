import Verif.Spec.Pool
import Verif.Spec.Amounts
import Verif.Spec.Arith
/-! # The path of a swap

A swap moves the price in legs.  During a leg the active liquidity is constant, so input and output of the leg follow
from its two end prices; the amounts of the swap are the sums over the legs. -/
namespace Uni
namespace Spec

/-- One leg of a swap: the prices at its ends, the active liquidity, the input without the fee, the fee and the output. -/
structure Leg where
  start : Nat
  stop : Nat
  liquidity : Nat
  input : Nat
  fee : Nat
  output : Nat

/-- At all ticks between two prices the active liquidity is `L`, and no range with liquidity begins or ends strictly
between them. -/
def LiquidityBetween (h : List Entry) (P Q L : Nat) : Prop :=
  ∃ a b : Int, -887272 ≤ a ∧ a < b ∧ b ≤ 887272 ∧ tickPrice a ≤ min P Q ∧ max P Q ≤ tickPrice b ∧
    (∀ t, a ≤ t → t < b → active h t = L) ∧ ∀ t, a < t → t < b → grossAt h t = 0

/-- The next price in the direction of the swap, and the one before. -/
def further (zeroForOne : Bool) (P : Nat) : Nat := if zeroForOne then P - 1 else P + 1
def before (zeroForOne : Bool) (P : Nat) : Nat := if zeroForOne then P + 1 else P - 1

/-- What remains after a leg: of the input (positive), or of the output asked for (negative). -/
def Leg.rest (l : Leg) (rem : Int) : Int := if 0 ≤ rem then rem - (l.input + l.fee : Nat) else rem + l.output

/-- The price belongs to a tick at which a range with liquidity ends or at which the search for such ticks ends: it
looks at 256 tick spacings at a time. -/
def AtTick (h : List Entry) (spacing : Int) (zeroForOne : Bool) (P : Nat) : Prop :=
  ∃ t : Int, -887272 ≤ t ∧ t ≤ 887272 ∧ P = tickPrice t ∧
    (grossAt h t ≠ 0 ∨ 256 * spacing ∣ (if zeroForOne then t else t + spacing))

/-- What a leg must look like.  `rate` is the fee rate in millionths, `rem` what remained before the leg. -/
structure Leg.Ok (h : List Entry) (spacing : Int) (z : Bool) (rate limit : Nat) (rem : Int) (l : Leg) : Prop where
  /-- the liquidity is the active liquidity on the whole way -/
  liquidity : LiquidityBetween h l.start l.stop l.liquidity
  /-- the price moves in the direction of the swap and not beyond the limit -/
  direction : if z then limit ≤ l.stop ∧ l.stop ≤ l.start else l.start ≤ l.stop ∧ l.stop ≤ limit
  /-- a leg ends when nothing remains, at the limit, or at a tick -/
  ends : l.rest rem = 0 ∨ l.stop = limit ∨ AtTick h spacing z l.stop
  /-- the input is the input needed for the price move, rounded up -/
  input : l.input = inAmount z l.start l.stop l.liquidity
  /-- the fee is at least the fee rate -/
  feeRate : l.input * rate ≤ l.fee * (1000000 - rate)
  /-- exact input: never spends more than remains, -/
  budget : 0 ≤ rem → ((l.input + l.fee : Nat) : Int) ≤ rem
  /-- pays out the output of the price move, rounded down, -/
  outputIn : 0 ≤ rem → l.output = outAmount z l.start l.stop l.liquidity
  /-- and takes the exact fee rounded up, or else spends all that remains; then a price one unit further on would need at
  least all that remains after the fee -/
  feeIn : 0 ≤ rem → l.fee = ceilDiv (l.input * rate) (1000000 - rate) ∨
    (((l.input + l.fee : Nat) : Int) = rem ∧
      rem * (1000000 - rate : Nat) / 1000000 ≤ inAmount z l.start (further z l.stop) l.liquidity)
  /-- exact output: takes the exact fee rounded up, -/
  feeOut : rem < 0 → l.fee = ceilDiv (l.input * rate) (1000000 - rate)
  /-- and pays out the output of the price move, rounded down, or else pays out all that was still asked for, and the
  price did not move further than needed for that -/
  outputOut : rem < 0 → (l.output = outAmount z l.start l.stop l.liquidity ∧ (l.output : Int) ≤ -rem) ∨
    ((l.output : Int) = -rem ∧ l.output ≤ outAmount z l.start l.stop l.liquidity ∧
      (l.stop ≠ l.start → outAmount z l.start (before z l.stop) l.liquidity < l.output))

/-- `Path … P rem legs P' rem'`: starting at price `P` with `rem` still to be swapped, the legs lead to the price `P'`
and leave `rem'`; the swap goes on until nothing remains or the limit is reached. -/
inductive Path (h : List Entry) (spacing : Int) (z : Bool) (rate limit : Nat) : Nat → Int → List Leg → Nat → Int → Prop
  | stop (P : Nat) (rem : Int) : rem = 0 ∨ P = limit → Path h spacing z rate limit P rem [] P rem
  | leg {l : Leg} {rem rem' : Int} {ls : List Leg} {P' : Nat} : rem ≠ 0 → l.start ≠ limit → l.Ok h spacing z rate limit rem →
      Path h spacing z rate limit l.stop (l.rest rem) ls P' rem' → Path h spacing z rate limit l.start rem (l :: ls) P' rem'

end Spec
end Uni
