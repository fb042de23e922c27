import Verif.Model.TickRound
/-! # float64 values

A float64 is NaN, an infinity or a finite number, modelled by the rational number it denotes.  Results are rounded
with `TickRound.rnd`: nearest, ties to even, 53-bit significand, exponent range not limited.  (The finite values here
are 0 or lie between 2^-300 and 2^300: nowhere near overflow or the subnormals.)  The sign of zero is not modelled.  C110 proves that both simplifications are harmless. -/
namespace Uni

/-- A float64. -/
inductive F64 where
  | nan
  | inf (neg : Bool)
  | fin (q : ℚ)
  deriving DecidableEq

namespace F64

/-- Conversion of an integer: `new(big.Float).SetInt(x).Float64()` (the big.Float is exact, the second conversion
rounds to nearest even).  `/repo/main.go:101-102,115,224-225` -/
def ofNat (n : Nat) : F64 := .fin (TickRound.rnd n)

/-- `-x`. -/
def neg : F64 → F64
  | nan => nan
  | inf s => inf (!s)
  | fin q => fin (-q)

/-- `x + y`. -/
def add : F64 → F64 → F64
  | nan, _ => nan
  | _, nan => nan
  | inf s, inf t => if s = t then inf s else nan
  | inf s, fin _ => inf s
  | fin _, inf t => inf t
  | fin x, fin y => fin (TickRound.rnd (x + y))

/-- `x - y`. -/
def sub (x y : F64) : F64 := add x (neg y)

/-- `x / y` (zeros are taken positive). -/
def div : F64 → F64 → F64
  | nan, _ => nan
  | _, nan => nan
  | inf _, inf _ => nan
  | inf s, fin y => inf (xor s (decide (y < 0)))
  | fin _, inf _ => fin 0
  | fin x, fin y => if y = 0 then (if x = 0 then nan else inf (decide (x < 0))) else fin (TickRound.rnd (x / y))

/-- `math.Max`: +Inf wins, then NaN. -/
def max : F64 → F64 → F64
  | inf false, _ => inf false
  | _, inf false => inf false
  | nan, _ => nan
  | _, nan => nan
  | inf true, y => y
  | x, inf true => x
  | fin x, fin y => fin (Max.max x y)

/-- `math.Min`: -Inf wins, then NaN. -/
def min : F64 → F64 → F64
  | inf true, _ => inf true
  | _, inf true => inf true
  | nan, _ => nan
  | _, nan => nan
  | inf false, y => y
  | x, inf false => x
  | fin x, fin y => fin (Min.min x y)

end F64
end Uni
