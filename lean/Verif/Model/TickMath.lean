import Verif.Model.FullMath
/-! # `lib/tickmath` -/
namespace Uni
namespace TickMath
open U256

/-- `/repo/lib/tickmath/tickmath.go:12` `MinTick`. -/
def minTick : Int := -887272
/-- `/repo/lib/tickmath/tickmath.go:13` `MaxTick`. -/
def maxTick : Int := -minTick
/-- `/repo/lib/tickmath/tickmath.go:14` `TotalTicks`. -/
def totalTicks : Int := maxTick - minTick + 1
/-- `/repo/lib/tickmath/tickmath.go:18` `Q32`. -/
def q32 : U256 := ofWord 4294967296
/-- `/repo/lib/tickmath/tickmath.go:19` `MinSqrtRatio`. -/
def minSqrtRatio : U256 := ofWord 4295128739
/-- `/repo/lib/tickmath/tickmath.go:20-21` `MaxSqrtRatio` (read from a decimal string through math/big). -/
def maxSqrtRatio : U256 := ofNat 1461446703485210103287273052203988822378723970342

/-- `/repo/lib/tickmath/tickmath.go:88-92` and the `mulShift` arguments of lines 93-149: the hexadecimal
constant multiplied in for bit `k` of `|tick|`, as a number (see `Props/Conversion` for the reading of the
hexadecimal strings). -/
def factors : List Nat := [
  0xfffcb933bd6fad37aa2d162d1a594001,
  0xfff97272373d413259a46990580e213a,
  0xfff2e50f5f656932ef12357cf3c7fdcc,
  0xffe5caca7e10e4e61c3624eaa0941cd0,
  0xffcb9843d60f6159c9db58835c926644,
  0xff973b41fa98c081472e6896dfb254c0,
  0xff2ea16466c96a3843ec78b326b52861,
  0xfe5dee046a99a2a811c461f1969c3053,
  0xfcbe86c7900a88aedcffc83b479aa3a4,
  0xf987a7253ac413176f2b074cf7815e54,
  0xf3392b0822b70005940c7a398e4b70f3,
  0xe7159475a2c29b7443b29c7fa6e889d9,
  0xd097f3bdfd2022b8845ad8f792aa5825,
  0xa9f746462d870fdf8a65dc1f90e061e5,
  0x70d869a156d2a1b890bb3df62baf32f7,
  0x31be135f97d08fd981231505542fcfa6,
  0x9aa508b5b7a84e1c677de54f3e99bc9,
  0x5d6af8dedb81196699c329225ee604,
  0x2216e584f5fa1ea926041bedfe98,
  0x48a170391f7dc42444e8fa2]

/-- `/repo/lib/tickmath/tickmath.go:214-218` `mulShift`; the second argument is the parsed constant. -/
def mulShift (v mulBy : U256) : U256 := rsh (mul v mulBy) 128

/-- `/repo/lib/tickmath/tickmath.go:93-149` the chain of `if absTick & bit != 0 { ratio = mulShift(ratio, c) }`.
`n` is `absTick` shifted right once per step. -/
def ratioChain : List Nat → Nat → U256 → U256
  | [], _, ratio => ratio
  | c :: cs, n, ratio => ratioChain cs (n / 2) (if n % 2 ≠ 0 then mulShift ratio (ofNat c) else ratio)

/-- `/repo/lib/tickmath/tickmath.go:150-152` the inversion for positive ticks. -/
def invertIfPos (tick : Int) (ratio : U256) : Go U256 :=
  if tick > 0 then div Cons.maxUint256 ratio else .ok ratio

/-- `/repo/lib/tickmath/tickmath.go:81-160` `getSqrtRatioAtTick`. -/
def getSqrtRatioAtTick' (tick : Int) : Go U256 := do
  let absTick := if tick < 0 then -tick else tick
  invariant (decide (absTick ≤ maxTick))
  let n := absTick.toNat
  let ratio0 := if n % 2 ≠ 0 then ofNat 0xfffcb933bd6fad37aa2d162d1a594001 else ofNat 0x100000000000000000000000000000000
  let ratio1 := ratioChain factors.tail (n / 2) ratio0
  let ratio ← invertIfPos tick ratio1
  let m ← smod ratio q32
  let q ← div ratio q32
  return if sign m > 0 then add q one else q

/-- `/repo/lib/tickmath/tickmath.go:30-37` `initTickMath`: entry `i` of the table.  An index outside the array
panics at the call sites. -/
def ticksAt (i : Int) : Go U256 :=
  if 0 ≤ i ∧ i < totalTicks then getSqrtRatioAtTick' (i + minTick) else .error .panic

/-- `/repo/lib/tickmath/tickmath.go:57-59` `GetSqrtRatioAtTick`. -/
def getSqrtRatioAtTick (tick : Int) : Go U256 := ticksAt (tick + maxTick)

/-- `/repo/lib/tickmath/tickmath.go:64-73` the binary search loop of `GetTickAtSqrtRatio`. -/
def tickSearch (p : U256) : Nat → Int → Int → Go Int
  | 0, _, _ => .error .fuel
  | fuel + 1, l, r =>
    if l < r then do
      let mid := (l + r + 1).tdiv 2
      let t ← ticksAt mid
      if cmp t p > 0 then tickSearch p fuel l (mid - 1) else tickSearch p fuel mid r
    else .ok l

/-- `/repo/lib/tickmath/tickmath.go:60-75` `GetTickAtSqrtRatio`.  The step budget is the table size; `C15`
shows that it is never used up. -/
def getTickAtSqrtRatio (p : U256) : Go Int := do
  invariant (decide (cmp p minSqrtRatio ≥ 0) && decide (cmp p maxSqrtRatio < 0))
  let l ← tickSearch p totalTicks.toNat 0 (totalTicks - 1)
  return l + minTick

/-- `/repo/lib/tickmath/tickmath.go:204` the shift amounts tried by `MostSignificantBit`. -/
def msbPowers : List Nat := [128, 64, 32, 16, 8, 4, 2, 1]

/-- `/repo/lib/tickmath/tickmath.go:202-212` `MostSignificantBit`. -/
def msbLoop : List Nat → U256 → Nat → Nat
  | [], _, msb => msb
  | p :: ps, x, msb =>
    if cmp x (exp (ofWord 2) (ofNat p)) ≥ 0 then msbLoop ps (rsh x p) (msb + p) else msbLoop ps x msb

/-- `/repo/lib/tickmath/tickmath.go:202-212` `MostSignificantBit`. -/
def mostSignificantBit (x : U256) : Nat := msbLoop msbPowers x 0

end TickMath
end Uni
