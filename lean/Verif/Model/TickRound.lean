import Mathlib.Data.Rat.Floor
import Mathlib.Data.Int.Log
/-! # Tick rounding through float64 (`lib/tickmath` Round, Ceil, Floor)

A finite float64 is modelled by the rational number it denotes.  `rnd` is IEEE-754 round-to-nearest, ties to
even, to a 53-bit significand; the exponent range is not limited (the values here lie between 2^-64 and 2^64, or
are 0, far from overflow and subnormals: C110).  NaN/Inf (unit 0) is not modelled. -/
namespace Uni
namespace TickRound

/-- Round a rational to the nearest integer, ties to even. -/
def roundEven (q : ℚ) : Int :=
  let f := ⌊q⌋
  if q - f < 1 / 2 then f
  else if 1 / 2 < q - f then f + 1
  else if f % 2 = 0 then f else f + 1

/-- IEEE-754 binary64 rounding (53-bit significand). -/
def rnd (q : ℚ) : ℚ :=
  let e := Int.log 2 |q| - 52
  roundEven (q / 2 ^ e) * 2 ^ e

/-- `math.Round`: nearest integer, ties away from zero (exact on floats). -/
def mathRound (x : ℚ) : ℚ := if 0 ≤ x then ⌊x + 1 / 2⌋ else -⌊-x + 1 / 2⌋
/-- `math.Ceil`. -/
def mathCeil (x : ℚ) : ℚ := ⌈x⌉
/-- `math.Floor`. -/
def mathFloor (x : ℚ) : ℚ := ⌊x⌋
/-- Conversion `float64(i)`. -/
def float64 (i : Int) : ℚ := rnd i
/-- Conversion `int(f)`: truncation towards zero. -/
def toIntTrunc (x : ℚ) : Int := if 0 ≤ x then ⌊x⌋ else ⌈x⌉

/-- `/repo/lib/tickmath/tickmath.go:39-43` `Round`. -/
def round (ix iunit : Int) : Int :=
  let x := float64 ix
  let unit := float64 iunit
  toIntTrunc (rnd (mathRound (rnd (x / unit)) * unit))

/-- `/repo/lib/tickmath/tickmath.go:45-49` `Ceil`. -/
def ceil (ix iunit : Int) : Int :=
  let x := float64 ix
  let unit := float64 iunit
  toIntTrunc (rnd (mathCeil (rnd (x / unit)) * unit))

/-- `/repo/lib/tickmath/tickmath.go:51-55` `Floor`. -/
def floor (ix iunit : Int) : Int :=
  let x := float64 ix
  let unit := float64 iunit
  toIntTrunc (rnd (mathFloor (rnd (x / unit)) * unit))

end TickRound
end Uni
