import Verif.Model.TickMath
/-! # `lib/tickmath`: the tick of a price computed from a logarithm

`getTickAtSqrtRatio` is the arithmetic the table search of `GetTickAtSqrtRatio` replaces.  No caller in the repository
is left; the model is here because the two functions are meant to be interchangeable. -/
namespace Uni
namespace TickMath
open U256

/-- `/repo/lib/tickmath/tickmath.go:175-180` one iteration of the loop: the state is the pair `(r, log2)`. -/
def logStep (i : Nat) (s : U256 × U256) : U256 × U256 :=
  let r := rsh (mul s.1 s.1) 127
  let f := rsh r 128
  let log2 := U256.or s.2 (lsh f (63 - i))
  (rsh r f.w0.toNat, log2)

/-- `/repo/lib/tickmath/tickmath.go:175-180` the loop `for i := 0; i < 14; i++`: `n` iterations from `i` on. -/
def logLoop : Nat → Nat → U256 × U256 → U256 × U256
  | 0, _, s => s
  | n + 1, i, s => logLoop n (i + 1) (logStep i s)

/-- `/repo/lib/tickmath/tickmath.go:166-171` the mantissa: the price shifted so that its highest bit is bit 127. -/
def logMantissa (x : U256) (msb : Nat) : U256 :=
  if cmp (ofNat msb) (ofNat 128) ≥ 0 then rsh x (msb - 127) else lsh x (127 - msb)

/-- `/repo/lib/tickmath/tickmath.go:182-183` `magicSqrt10001` (see `Props/Conversion` for the reading of the
hexadecimal strings). -/
def magicSqrt10001 : U256 := ofNat 0x3627A301D71055774C85
/-- `/repo/lib/tickmath/tickmath.go:185` `magicTickLow`. -/
def magicTickLow : U256 := ofNat 0x28F6481AB7F045A5AF012A19D003AAA
/-- `/repo/lib/tickmath/tickmath.go:187` `magicTickHigh`. -/
def magicTickHigh : U256 := ofNat 0xDB2DF09E81959A81455E260799A0632F

/-- `/repo/lib/tickmath/tickmath.go:164-183` `logSqrt10001`: the logarithm of the price to base `sqrt 1.0001`, scaled
by `2^128`. -/
def logSqrt10001 (p : U256) : U256 :=
  let x := lsh p 32
  let msb := mostSignificantBit x
  let s := logLoop 14 0 (logMantissa x msb, lsh (sub (ofNat msb) (ofNat 128)) 64)
  mul s.2 magicSqrt10001

/-- `/repo/lib/tickmath/tickmath.go:186` `int(z.Rsh(z, 128).Uint64())`: the low word read as a signed number. -/
def shiftedTick (z : U256) : Int := (rsh z 128).w0.toInt

/-- `/repo/lib/tickmath/tickmath.go:163-200` `getTickAtSqrtRatio`. -/
def getTickByLog (p : U256) : Go Int :=
  let l := logSqrt10001 p
  let tickLow := shiftedTick (sub l magicTickLow)
  let tickHigh := shiftedTick (add l magicTickHigh)
  if tickLow = tickHigh then .ok tickLow
  else do
    let sqrtRatio ← getSqrtRatioAtTick' tickHigh
    return if cmp sqrtRatio p ≤ 0 then tickHigh else tickLow

end TickMath
end Uni
