import Verif.Model.Word
/-!
# `uint256.Int`: arithmetic (uint256/uint256.go, uint256/div.go)

Methods `z.Op(x, y)` store into the receiver and return it; the model returns the stored value.  Every
method reads its operands before the corresponding limb of the receiver is written, or copies (`res`), so
aliasing of receiver and operands is not observable; the model has value semantics.
-/
namespace Uni

/-- `/repo/uint256/uint256.go:15-17` `type Int [4]uint64`, little-endian limbs. -/
structure U256 where
  w0 : Word
  w1 : Word
  w2 : Word
  w3 : Word
  deriving DecidableEq, Repr

namespace U256

/-- Numeric value of the four limbs (not a Go function: the abstraction function of the model). -/
def toNat (x : U256) : Nat :=
  x.w0.toNat + 2 ^ 64 * x.w1.toNat + 2 ^ 128 * x.w2.toNat + 2 ^ 192 * x.w3.toNat

/-- Limbs of a number, modulo 2^256 (not a Go function: used for literals such as the hex constants). -/
def ofNat (n : Nat) : U256 :=
  ⟨BitVec.ofNat 64 n, BitVec.ofNat 64 (n / 2 ^ 64), BitVec.ofNat 64 (n / 2 ^ 128), BitVec.ofNat 64 (n / 2 ^ 192)⟩

/-- Two's complement value (not a Go function). -/
def toInt (x : U256) : Int :=
  if x.toNat < 2 ^ 255 then (x.toNat : Int) else (x.toNat : Int) - 2 ^ 256

/-- The slice `x[:]`. -/
def limbs (x : U256) : List Word := [x.w0, x.w1, x.w2, x.w3]

/-- `/repo/uint256/uint256.go:846-849` `SetUint64`, `:19-24` `NewInt`. -/
def ofWord (w : Word) : U256 := ⟨w, 0, 0, 0⟩

/-- `/repo/uint256/uint256.go:898-901` `Clear` / `new(Int)`. -/
def zero : U256 := ⟨0, 0, 0, 0⟩

/-- `/repo/uint256/uint256.go:910-913` `SetOne`. -/
def one : U256 := ⟨1, 0, 0, 0⟩

/-- `/repo/uint256/uint256.go:904-907` `SetAllOne`. -/
def allOne : U256 := ⟨BitVec.allOnes 64, BitVec.allOnes 64, BitVec.allOnes 64, BitVec.allOnes 64⟩

/-- `/repo/uint256/uint256.go:161-163` `Uint64`. -/
def uint64 (x : U256) : Word := x.w0

/-- `/repo/uint256/uint256.go:166-168` `Uint64WithOverflow`. -/
def uint64WithOverflow (x : U256) : Word × Bool := (x.w0, (x.w1 ||| x.w2 ||| x.w3) != 0)

/-- `/repo/uint256/uint256.go:186-193` `AddOverflow`. -/
def addOverflow (x y : U256) : U256 × Bool :=
  let r0 := add64 x.w0 y.w0 0
  let r1 := add64 x.w1 y.w1 r0.2
  let r2 := add64 x.w2 y.w2 r1.2
  let r3 := add64 x.w3 y.w3 r2.2
  (⟨r0.1, r1.1, r2.1, r3.1⟩, r3.2 != 0)

/-- `/repo/uint256/uint256.go:176-183` `Add`. -/
def add (x y : U256) : U256 :=
  let r0 := add64 x.w0 y.w0 0
  let r1 := add64 x.w1 y.w1 r0.2
  let r2 := add64 x.w2 y.w2 r1.2
  let r3 := add64 x.w3 y.w3 r2.2
  ⟨r0.1, r1.1, r2.1, r3.1⟩

/-- `/repo/uint256/uint256.go:247-255` `AddUint64`. -/
def addUint64 (x : U256) (y : Word) : U256 :=
  let r0 := add64 x.w0 y 0
  let r1 := add64 x.w1 0 r0.2
  let r2 := add64 x.w2 0 r1.2
  let r3 := add64 x.w3 0 r2.2
  ⟨r0.1, r1.1, r2.1, r3.1⟩

/-- `/repo/uint256/uint256.go:270-277` `SubUint64`. -/
def subUint64 (x : U256) (y : Word) : U256 :=
  let r0 := sub64 x.w0 y 0
  let r1 := sub64 x.w1 0 r0.2
  let r2 := sub64 x.w2 0 r1.2
  let r3 := sub64 x.w3 0 r2.2
  ⟨r0.1, r1.1, r2.1, r3.1⟩

/-- `/repo/uint256/uint256.go:280-287` `SubOverflow`. -/
def subOverflow (x y : U256) : U256 × Bool :=
  let r0 := sub64 x.w0 y.w0 0
  let r1 := sub64 x.w1 y.w1 r0.2
  let r2 := sub64 x.w2 y.w2 r1.2
  let r3 := sub64 x.w3 y.w3 r2.2
  (⟨r0.1, r1.1, r2.1, r3.1⟩, r3.2 != 0)

/-- `/repo/uint256/uint256.go:290-297` `Sub`. -/
def sub (x y : U256) : U256 :=
  let r0 := sub64 x.w0 y.w0 0
  let r1 := sub64 x.w1 y.w1 r0.2
  let r2 := sub64 x.w2 y.w2 r1.2
  let r3 := sub64 x.w3 y.w3 r2.2
  ⟨r0.1, r1.1, r2.1, r3.1⟩

/-- `/repo/uint256/uint256.go:690-692` `Neg`. -/
def neg (x : U256) : U256 := sub zero x

/-- `/repo/uint256/uint256.go:300-307` `UmulStep`: (hi, lo) of z + x*y + carry. -/
def umulStep (z x y carry : Word) : Word × Word :=
  let p := mul64 x y
  let r0 := add64 p.2 carry 0
  let r1 := add64 p.1 0 r0.2
  let r2 := add64 r0.1 z 0
  let r3 := add64 r1.1 0 r2.2
  (r3.1, r2.1)

/-- `/repo/uint256/uint256.go:310-315` `UmulHop`: (hi, lo) of z + x*y. -/
def umulHop (z x y : Word) : Word × Word :=
  let p := mul64 x y
  let r0 := add64 p.2 z 0
  let r1 := add64 p.1 0 r0.2
  (r1.1, r0.1)

/-- `/repo/uint256/uint256.go:318-346` `Umul`: the eight words of the 512-bit product. -/
def umul (x y : U256) : List Word :=
  let a0 := mul64 x.w0 y.w0          -- carry, res[0]
  let a1 := umulHop a0.1 x.w1 y.w0   -- carry, res1
  let a2 := umulHop a1.1 x.w2 y.w0   -- carry, res2
  let a3 := umulHop a2.1 x.w3 y.w0   -- carry4, res3
  let b0 := umulHop a1.2 x.w0 y.w1   -- carry, res[1]
  let b1 := umulStep a2.2 x.w1 y.w1 b0.1   -- carry, res2
  let b2 := umulStep a3.2 x.w2 y.w1 b1.1   -- carry, res3
  let b3 := umulStep a3.1 x.w3 y.w1 b2.1   -- carry5, res4
  let c0 := umulHop b1.2 x.w0 y.w2   -- carry, res[2]
  let c1 := umulStep b2.2 x.w1 y.w2 c0.1   -- carry, res3
  let c2 := umulStep b3.2 x.w2 y.w2 c1.1   -- carry, res4
  let c3 := umulStep b3.1 x.w3 y.w2 c2.1   -- carry6, res5
  let d0 := umulHop c1.2 x.w0 y.w3   -- carry, res[3]
  let d1 := umulStep c2.2 x.w1 y.w3 d0.1   -- carry, res[4]
  let d2 := umulStep c3.2 x.w2 y.w3 d1.1   -- carry, res[5]
  let d3 := umulStep c3.1 x.w3 y.w3 d2.1   -- res[7], res[6]
  [a0.2, b0.2, c0.2, d0.2, d1.2, d2.2, d3.2, d3.1]

/-- `/repo/uint256/uint256.go:349-371` `Mul`. -/
def mul (x y : U256) : U256 :=
  let a0 := mul64 x.w0 y.w0          -- carry, res[0]
  let a1 := umulHop a0.1 x.w1 y.w0   -- carry, res1
  let a2 := umulHop a1.1 x.w2 y.w0   -- carry, res2
  let r3 := x.w3 * y.w0 + a2.1       -- res3
  let b0 := umulHop a1.2 x.w0 y.w1   -- carry, res[1]
  let b1 := umulStep a2.2 x.w1 y.w1 b0.1   -- carry, res2
  let r3 := r3 + x.w2 * y.w1 + b1.1
  let c0 := umulHop b1.2 x.w0 y.w2   -- carry, res[2]
  let r3 := r3 + x.w1 * y.w2 + c0.1
  ⟨a0.2, b0.2, c0.2, r3 + x.w0 * y.w3⟩

/-- `/repo/uint256/uint256.go:374-378` `MulOverflow`. -/
def mulOverflow (x y : U256) : U256 × Bool :=
  match umul x y with
  | [p0, p1, p2, p3, p4, p5, p6, p7] => (⟨p0, p1, p2, p3⟩, (p4 ||| p5 ||| p6 ||| p7) != 0)
  | _ => (zero, true)   -- unreachable: the array has exactly eight elements

/-- `/repo/uint256/uint256.go:380-399` `squared`. -/
def squared (z : U256) : U256 :=
  let a0 := mul64 z.w0 z.w0          -- carry0, res[0]
  let a1 := umulHop a0.1 z.w0 z.w1   -- carry0, res1
  let a2 := umulHop a1.1 z.w0 z.w2   -- carry0, res2
  let b0 := umulHop a1.2 z.w0 z.w1   -- carry1, res[1]
  let b1 := umulStep a2.2 z.w1 z.w1 b0.1   -- carry1, res2
  let c0 := umulHop b1.2 z.w0 z.w2   -- carry2, res[2]
  ⟨a0.2, b0.2, c0.2, 2 * (z.w0 * z.w3 + z.w1 * z.w2) + a2.1 + b1.1 + c0.1⟩

/-- `/repo/uint256/uint256.go:893-895` `IsZero`. -/
def isZero (x : U256) : Bool := (x.w0 ||| x.w1 ||| x.w2 ||| x.w3) == 0

/-- `/repo/uint256/uint256.go:888-890` `IsUint64`. -/
def isUint64 (x : U256) : Bool := (x.w1 ||| x.w2 ||| x.w3) == 0

/-- `/repo/uint256/uint256.go:836-843` `Lt`. -/
def lt (z x : U256) : Bool :=
  let r0 := sub64 z.w0 x.w0 0
  let r1 := sub64 z.w1 x.w1 r0.2
  let r2 := sub64 z.w2 x.w2 r1.2
  let r3 := sub64 z.w3 x.w3 r2.2
  r3.2 != 0

/-- `/repo/uint256/uint256.go:798-800` `Gt`. -/
def gt (z x : U256) : Bool := lt x z

/-- `/repo/uint256/uint256.go:852-854` `Eq`. -/
def eq (z x : U256) : Bool := z.w0 == x.w0 && z.w1 == x.w1 && z.w2 == x.w2 && z.w3 == x.w3

/-- `/repo/uint256/uint256.go:862-875` `Cmp`. -/
def cmp (z x : U256) : Int :=
  let r0 := sub64 z.w0 x.w0 0
  let r1 := sub64 z.w1 x.w1 r0.2
  let r2 := sub64 z.w2 x.w2 r1.2
  let r3 := sub64 z.w3 x.w3 r2.2
  if r3.2 == 1 then -1
  else if (r0.1 ||| r1.1 ||| r2.1 ||| r3.1) == 0 then 0
  else 1

/-- `/repo/uint256/uint256.go:878-880` `LtUint64`. -/
def ltUint64 (z : U256) (n : Word) : Bool := z.w0 < n && (z.w1 ||| z.w2 ||| z.w3) == 0

/-- `/repo/uint256/uint256.go:883-885` `GtUint64`. -/
def gtUint64 (z : U256) (n : Word) : Bool := n < z.w0 || (z.w1 ||| z.w2 ||| z.w3) != 0

/-- `/repo/uint256/uint256.go:725-733` `Sign` (two's complement). -/
def sign (z : U256) : Int :=
  if z.isZero then 0
  else if z.w3 < 0x8000000000000000#64 then 1
  else -1

/-- `/repo/uint256/uint256.go:804-817` `Slt`. -/
def slt (z x : U256) : Bool :=
  if 0 ≤ z.sign ∧ x.sign < 0 then false
  else if z.sign < 0 ∧ 0 ≤ x.sign then true
  else z.lt x

/-- `/repo/uint256/uint256.go:821-833` `Sgt`. -/
def sgt (z x : U256) : Bool :=
  if 0 ≤ z.sign ∧ x.sign < 0 then true
  else if z.sign < 0 ∧ 0 ≤ x.sign then false
  else z.gt x

/-- `/repo/uint256/uint256.go:682-687` `Abs`. -/
def abs (x : U256) : U256 :=
  if x.w3 < 0x8000000000000000#64 then x else sub zero x

/-- `/repo/uint256/uint256.go:736-747` `BitLen`. -/
def bitLen (z : U256) : Nat :=
  if z.w3 != 0 then 192 + len64 z.w3
  else if z.w2 != 0 then 128 + len64 z.w2
  else if z.w1 != 0 then 64 + len64 z.w1
  else len64 z.w0

/-- `/repo/uint256/uint256.go:750-752` `ByteLen`. -/
def byteLen (z : U256) : Nat := (z.bitLen + 7) / 8

/-- `/repo/uint256/uint256.go:792-795` `Not`. -/
def not (x : U256) : U256 := ⟨~~~x.w0, ~~~x.w1, ~~~x.w2, ~~~x.w3⟩

/-- `/repo/uint256/uint256.go:1101-1107` `Or`. -/
def or (x y : U256) : U256 := ⟨x.w0 ||| y.w0, x.w1 ||| y.w1, x.w2 ||| y.w2, x.w3 ||| y.w3⟩

/-- `/repo/uint256/uint256.go:1110-1116` `And`. -/
def and (x y : U256) : U256 := ⟨x.w0 &&& y.w0, x.w1 &&& y.w1, x.w2 &&& y.w2, x.w3 &&& y.w3⟩

/-- `/repo/uint256/uint256.go:1119-1125` `Xor`. -/
def xor (x y : U256) : U256 := ⟨x.w0 ^^^ y.w0, x.w1 ^^^ y.w1, x.w2 ^^^ y.w2, x.w3 ^^^ y.w3⟩

/-- `/repo/uint256/uint256.go:754-757` `lsh64`. -/
def lsh64 (x : U256) : U256 := ⟨0, x.w0, x.w1, x.w2⟩
/-- `/repo/uint256/uint256.go:758-761` `lsh128`. -/
def lsh128 (x : U256) : U256 := ⟨0, 0, x.w0, x.w1⟩
/-- `/repo/uint256/uint256.go:762-765` `lsh192`. -/
def lsh192 (x : U256) : U256 := ⟨0, 0, 0, x.w0⟩
/-- `/repo/uint256/uint256.go:766-769` `rsh64`. -/
def rsh64 (x : U256) : U256 := ⟨x.w1, x.w2, x.w3, 0⟩
/-- `/repo/uint256/uint256.go:770-773` `rsh128`. -/
def rsh128 (x : U256) : U256 := ⟨x.w2, x.w3, 0, 0⟩
/-- `/repo/uint256/uint256.go:774-777` `rsh192`. -/
def rsh192 (x : U256) : U256 := ⟨x.w3, 0, 0, 0⟩
/-- `/repo/uint256/uint256.go:778-781` `srsh64`. -/
def srsh64 (x : U256) : U256 := ⟨x.w1, x.w2, x.w3, BitVec.allOnes 64⟩
/-- `/repo/uint256/uint256.go:782-785` `srsh128`. -/
def srsh128 (x : U256) : U256 := ⟨x.w2, x.w3, BitVec.allOnes 64, BitVec.allOnes 64⟩
/-- `/repo/uint256/uint256.go:786-789` `srsh192`. -/
def srsh192 (x : U256) : U256 := ⟨x.w3, BitVec.allOnes 64, BitVec.allOnes 64, BitVec.allOnes 64⟩

/-- `/repo/uint256/uint256.go:916-972` `Lsh`.  The gotos `sh64/sh128/sh192` skip the limb updates above them;
the entry values of `a`, `b` are 0. -/
def lsh (x : U256) (n : Nat) : U256 :=
  if n % 64 = 0 then
    if n = 0 then x
    else if n = 64 then lsh64 x
    else if n = 128 then lsh128 x
    else if n = 192 then lsh192 x
    else zero
  else if 192 < n then
    if 256 < n then zero
    else
      let z := lsh192 x
      let n := n - 192
      ⟨z.w0, z.w1, z.w2, (z.w3 <<< n) ||| 0⟩
  else if 128 < n then
    let z := lsh128 x
    let n := n - 128
    let a := z.w2 >>> (64 - n)
    ⟨z.w0, z.w1, (z.w2 <<< n) ||| 0, (z.w3 <<< n) ||| a⟩
  else if 64 < n then
    let z := lsh64 x
    let n := n - 64
    let b := z.w1 >>> (64 - n)
    let a := z.w2 >>> (64 - n)
    ⟨z.w0, (z.w1 <<< n) ||| 0, (z.w2 <<< n) ||| b, (z.w3 <<< n) ||| a⟩
  else
    let a := x.w0 >>> (64 - n)
    let b := x.w1 >>> (64 - n)
    let a' := x.w2 >>> (64 - n)
    ⟨x.w0 <<< n, (x.w1 <<< n) ||| a, (x.w2 <<< n) ||| b, (x.w3 <<< n) ||| a'⟩

/-- `/repo/uint256/uint256.go:975-1031` `Rsh`. -/
def rsh (x : U256) (n : Nat) : U256 :=
  if n % 64 = 0 then
    if n = 0 then x
    else if n = 64 then rsh64 x
    else if n = 128 then rsh128 x
    else if n = 192 then rsh192 x
    else zero
  else if 192 < n then
    if 256 < n then zero
    else
      let z := rsh192 x
      let n := n - 192
      ⟨(z.w0 >>> n) ||| 0, z.w1, z.w2, z.w3⟩
  else if 128 < n then
    let z := rsh128 x
    let n := n - 128
    let a := z.w1 <<< (64 - n)
    ⟨(z.w0 >>> n) ||| a, (z.w1 >>> n) ||| 0, z.w2, z.w3⟩
  else if 64 < n then
    let z := rsh64 x
    let n := n - 64
    let b := z.w2 <<< (64 - n)
    let a := z.w1 <<< (64 - n)
    ⟨(z.w0 >>> n) ||| a, (z.w1 >>> n) ||| b, (z.w2 >>> n) ||| 0, z.w3⟩
  else
    let a := x.w3 <<< (64 - n)
    let b := x.w2 <<< (64 - n)
    let a' := x.w1 <<< (64 - n)
    ⟨(x.w0 >>> n) ||| a', (x.w1 >>> n) ||| b, (x.w2 >>> n) ||| a, x.w3 >>> n⟩

/-- `/repo/uint256/uint256.go:403-405` `isBitSet` (n ≤ 255). -/
def isBitSet (z : U256) (n : Nat) : Bool :=
  let w := if n / 64 = 0 then z.w0 else if n / 64 = 1 then z.w1 else if n / 64 = 2 then z.w2 else z.w3
  (w &&& (1#64 <<< (n % 64))) != 0

/-- `/repo/uint256/uint256.go:1036-1092` `SRsh`. -/
def srsh (x : U256) (n : Nat) : U256 :=
  if !x.isBitSet 255 then rsh x n
  else if n % 64 = 0 then
    if n = 0 then x
    else if n = 64 then srsh64 x
    else if n = 128 then srsh128 x
    else if n = 192 then srsh192 x
    else allOne
  else
    let a := BitVec.allOnes 64 <<< (64 - n % 64)
    if 192 < n then
      if 256 < n then allOne
      else
        let z := srsh192 x
        let n := n - 192
        ⟨(z.w0 >>> n) ||| a, z.w1, z.w2, z.w3⟩
    else if 128 < n then
      let z := srsh128 x
      let n := n - 128
      ⟨(z.w0 >>> n) ||| (z.w1 <<< (64 - n)), (z.w1 >>> n) ||| a, z.w2, z.w3⟩
    else if 64 < n then
      let z := srsh64 x
      let n := n - 64
      ⟨(z.w0 >>> n) ||| (z.w1 <<< (64 - n)), (z.w1 >>> n) ||| (z.w2 <<< (64 - n)), (z.w2 >>> n) ||| a, z.w3⟩
    else
      ⟨(x.w0 >>> n) ||| (x.w1 <<< (64 - n)), (x.w1 >>> n) ||| (x.w2 <<< (64 - n)),
        (x.w2 >>> n) ||| (x.w3 <<< (64 - n)), (x.w3 >>> n) ||| a⟩

/-! ## Division -/

/-- `/repo/uint256/div.go:10-13` `reciprocal2by1`. -/
def reciprocal2by1 (d : Word) : Go Word := do
  let r ← div64 (~~~d) (BitVec.allOnes 64) d
  return r.1

/-- `/repo/uint256/div.go:19-38` `udivrem2by1`: (quot, rem). -/
def udivrem2by1 (uh ul d reciprocal : Word) : Word × Word :=
  let p := mul64 reciprocal uh
  let r0 := add64 p.2 ul 0
  let ql := r0.1
  let r1 := add64 p.1 uh r0.2
  let qh := r1.1 + 1
  let r := ul - qh * d
  let s := if ql < r then (qh - 1, r + d) else (qh, r)
  if d ≤ s.2 then (s.1 + 1, s.2 - d) else s

/-- `/repo/uint256/uint256.go:409-415` `addTo`: returns the updated slice and the carry.  Requires
`len(x) ≥ len(y)` as documented in the code (where it fails Go panics; the model returns what is left). -/
def addTo : List Word → List Word → Word → List Word × Word
  | x :: xs, y :: ys, c =>
    let s := add64 x y c
    let r := addTo xs ys s.2
    (s.1 :: r.1, r.2)
  | xs, _, c => (xs, c)

/-- `/repo/uint256/uint256.go:419-430` `subMulTo`: x -= y*multiplier, returns the slice and the borrow.
Same precondition as `addTo`. -/
def subMulTo : List Word → List Word → Word → Word → List Word × Word
  | x :: xs, y :: ys, m, borrow =>
    let s := sub64 x borrow 0
    let p := mul64 y m
    let t := sub64 s.1 p.2 0
    let r := subMulTo xs ys m (p.1 + s.2 + t.2)
    (t.1 :: r.1, r.2)
  | xs, _, _, borrow => (xs, borrow)

/-- Loop of `/repo/uint256/uint256.go:434-441` `udivremBy1`; `j` is the loop variable plus one. -/
def udivremBy1Loop (u : List Word) (d reciprocal : Word) : Nat → List Word → Word → Go (List Word × Word)
  | 0, quot, rem => .ok (quot, rem)
  | j + 1, quot, rem => do
    let uj ← idx u j
    let r := udivrem2by1 rem uj d reciprocal
    let quot ← setIdx quot j r.1
    udivremBy1Loop u d reciprocal j quot r.2

/-- `/repo/uint256/uint256.go:434-441` `udivremBy1`. -/
def udivremBy1 (quot u : List Word) (d : Word) : Go (List Word × Word) := do
  let reciprocal ← reciprocal2by1 d
  let rem ← idx u (u.length - 1)
  udivremBy1Loop u d reciprocal (u.length - 1) quot rem

/-- Quotient digit estimate, `/repo/uint256/uint256.go:456-468`. -/
def qhatEstimate (u2 u1 u0 dh dl reciprocal : Word) : Word :=
  if dh ≤ u2 then BitVec.allOnes 64
  else
    let qr := udivrem2by1 u2 u1 dh reciprocal
    let p := mul64 qr.1 dl
    if qr.2 < p.1 ∨ (p.1 = qr.2 ∧ u0 < p.2) then qr.1 - 1 else qr.1

/-- Loop body of `/repo/uint256/uint256.go:451-478` for one quotient digit, acting on the window
`w = u[j:]`: returns the quotient digit and the new window. -/
def knuthStep (w d : List Word) (dh dl reciprocal : Word) : Go (Word × List Word) := do
  let n := d.length
  let u2 ← idx w n
  let u1 ← idx w (n - 1)
  let u0 ← idx w (n - 2)
  let qhat := qhatEstimate u2 u1 u0 dh dl reciprocal
  -- subMulTo and addTo touch the first n words only
  let sm := subMulTo w d qhat 0
  let borrow := sm.2
  let w1 ← setIdx sm.1 n (u2 - borrow)
  if u2 < borrow then
    let ad := addTo w1 d 0
    let top ← idx ad.1 n
    let w2 ← setIdx ad.1 n (top + ad.2)
    return (qhat - 1, w2)
  else
    return (qhat, w1)

/-- Loop of `/repo/uint256/uint256.go:446-479` `udivremKnuth`; the first argument is the loop variable plus one. -/
def knuthLoop (d : List Word) (dh dl reciprocal : Word) : Nat → List Word → List Word → Go (List Word × List Word)
  | 0, quot, u => .ok (quot, u)
  | j + 1, quot, u => do
    let r ← knuthStep (u.drop j) d dh dl reciprocal
    let quot ← setIdx quot j r.1
    knuthLoop d dh dl reciprocal j quot (u.take j ++ r.2)

/-- `/repo/uint256/uint256.go:446-479` `udivremKnuth`: returns quot and the remainder left in u. -/
def udivremKnuth (quot u d : List Word) : Go (List Word × List Word) := do
  let dh ← idx d (d.length - 1)
  let dl ← idx d (d.length - 2)
  let reciprocal ← reciprocal2by1 dh
  knuthLoop d dh dl reciprocal (u.length - d.length) quot u

/-- Number of significant words, the loops `/repo/uint256/uint256.go:486-492` and `:503-509`. -/
def sigLen (u : List Word) : Nat :=
  match u with
  | [] => 0
  | w :: ws => if sigLen ws = 0 then (if w = 0 then 0 else 1) else sigLen ws + 1

/-- Left shift of the significant words of a slice, `/repo/uint256/uint256.go:496-501` (and `:511-517` for
`un`, which has one extra word): word i is `(x[i] << shift) | (x[i-1] >> (64-shift))`, word 0 is `x[0] << shift`.
`prev` is `x[i-1]`. -/
def shlWords (shift : Nat) : Word → List Word → List Word
  | _, [] => []
  | prev, x :: xs => ((x <<< shift) ||| (prev >>> (64 - shift))) :: shlWords shift x xs

/-- Right shift back of the remainder, `/repo/uint256/uint256.go:529-532`: words 0..dLen-2 read `un[i+1]`,
the last one does not.  Index panics of Go are reproduced. -/
def remWords (un : List Word) (shift : Nat) (dLen : Nat) : Nat → Go (List Word)
  | 0 => .ok []
  | k + 1 => do
    -- word i = dLen - (k+1)
    let i := dLen - (k + 1)
    let lo ← idx un i
    if k = 0 then return [lo >>> shift]
    else
      let hi ← idx un (i + 1)
      let rest ← remWords un shift dLen k
      return ((lo >>> shift) ||| (hi <<< (64 - shift))) :: rest

/-- Build an `Int` from at most four words. -/
def ofWords (ws : List Word) : U256 := ⟨ws.getD 0 0, ws.getD 1 0, ws.getD 2 0, ws.getD 3 0⟩

/-- `/repo/uint256/uint256.go:485-535` `Udivrem`: returns the contents of `quot` and the remainder.
`quot` is the caller's slice (its length matters for the bounds checks).  `d[dLen-1]` with `dLen = 0` and
`u[uLen-1]` with `uLen = 0` panic. -/
def udivrem (quot u : List Word) (d : U256) : Go (List Word × U256) := do
  let dLen := sigLen d.limbs
  if dLen = 0 then goPanic
  else
  let dTop ← idx d.limbs (dLen - 1)
  let shift := leadingZeros64 dTop
  let dn := shlWords shift 0 (d.limbs.take dLen)
  let uLen := sigLen u
  if uLen = 0 then goPanic
  else
  let uTop ← idx u (uLen - 1)
  let un := shlWords shift 0 (u.take uLen) ++ [uTop >>> (64 - shift)]
  if dLen = 1 then
    let d0 ← idx dn 0
    let r ← udivremBy1 quot un d0
    return (r.1, ofWord (r.2 >>> shift))
  else
    let r ← udivremKnuth quot un dn
    let rem ← remWords r.2 shift dLen dLen
    return (r.1, ofWords rem)

/-- `/repo/uint256/uint256.go:539-557` `Div`. -/
def div (x y : U256) : Go U256 :=
  if y.isZero || y.gt x then .ok zero
  else if x.eq y then .ok one
  else if x.isUint64 then .ok (ofWord (BitVec.ofNat 64 (x.w0.toNat / y.w0.toNat)))
  else do
    let r ← udivrem [0, 0, 0, 0] x.limbs y
    return ofWords r.1

/-- `/repo/uint256/uint256.go:561-588` `Mod`. -/
def mod (x y : U256) : Go U256 :=
  if x.isZero || y.isZero then .ok zero
  else if x.cmp y = -1 then .ok x
  else if x.cmp y = 0 then .ok zero
  else if x.isUint64 then .ok (ofWord (BitVec.ofNat 64 (x.w0.toNat % y.w0.toNat)))
  else do
    let r ← udivrem [0, 0, 0, 0] x.limbs y
    return r.2

/-- `/repo/uint256/uint256.go:593-610` `SMod`. -/
def smod (x y : U256) : Go U256 := do
  let ys := y.sign
  let xs := x.sign
  let x' := if xs = -1 then neg x else x
  let y' := if ys = -1 then neg y else y
  let z ← mod x' y'
  return if xs = -1 then neg z else z

/-- `/repo/uint256/uint256.go:697-718` `SDiv`. -/
def sdiv (n d : U256) : Go U256 :=
  if 0 < n.sign then
    if 0 < d.sign then div n d
    else do
      let z ← div n (neg d)
      return neg z
  else if d.sign < 0 then div (neg n) (neg d)
  else do
    let z ← div (neg n) d
    return neg z

/-- `/repo/uint256/uint256.go:197-244` `AddMod`. -/
def addMod (x y m : U256) : Go U256 :=
  if m.w3 ≠ 0 ∧ x.w3 ≤ m.w3 ∧ y.w3 ≤ m.w3 then
    let s := if (subOverflow x m).2 then x else (subOverflow x m).1
    let t := if (subOverflow y m).2 then y else (subOverflow y m).1
    let a := addOverflow s t
    let s := if a.2 then sub a.1 m else a.1
    let r := subOverflow s m
    .ok (if r.2 then s else r.1)
  else if m.isZero then .ok zero
  else
    let a := addOverflow x y
    if a.2 then do
      let r ← udivrem [0, 0, 0, 0, 0] [a.1.w0, a.1.w1, a.1.w2, a.1.w3, 1] m
      return r.2
    else mod a.1 m

/-! ## Exponentiation and square root -/

/-- One of the four word loops of `/repo/uint256/uint256.go:1147-1189` `Exp`: `k` iterations remain. -/
def expLoop : Nat → Word → U256 → U256 → U256 × U256
  | 0, _, res, multiplier => (res, multiplier)
  | k + 1, word, res, multiplier =>
    expLoop k (word >>> 1) (if word &&& 1 == 1 then mul res multiplier else res) (squared multiplier)

/-- `/repo/uint256/uint256.go:1147-1189` `Exp`.  The loop over bits `64*i .. 64*i+63` runs
`min(bitLen, 64*(i+1)) - 64*i` times (zero times once `curBit` has reached the bit length). -/
def exp (base exponent : U256) : U256 :=
  let n := exponent.bitLen
  let r := expLoop (min n 64) exponent.w0 one base
  let r := expLoop (min n 128 - 64) exponent.w1 r.1 r.2
  let r := expLoop (min n 192 - 128) exponent.w2 r.1 r.2
  let r := expLoop (min n 256 - 192) exponent.w3 r.1 r.2
  r.1

/-- The inlined one-bit right shift of `/repo/uint256/uint256.go:1228-1236`. -/
def rsh1 (z : U256) : U256 :=
  let a := z.w3 <<< 63
  let b := z.w2 <<< 63
  let a' := z.w1 <<< 63
  ⟨(z.w0 >>> 1) ||| a', (z.w1 >>> 1) ||| b, (z.w2 >>> 1) ||| a, z.w3 >>> 1⟩

/-- Loop of `/repo/uint256/uint256.go:1225-1244` with fuel. -/
def sqrtLoop (x : U256) : Nat → U256 → Go U256
  | 0, _ => .error .fuel
  | fuel + 1, z1 => do
    let q ← div x z1
    let z2 := rsh1 (add q z1)
    if 0 ≤ cmp z2 z1 then return z1 else sqrtLoop x fuel z2

/-- `/repo/uint256/uint256.go:1214-1245` `Sqrt` with fuel. -/
def sqrtFuel (fuel : Nat) (x : U256) : Go U256 :=
  if x.ltUint64 2 then .ok x
  else sqrtLoop x fuel (lsh one ((x.bitLen + 1) / 2))

/-- `Sqrt` with a fuel that is proved sufficient (`Props`): the Go loop has no bound. -/
def sqrt (x : U256) : Go U256 := sqrtFuel 300 x

/-- `/repo/uint256/uint256.go:1131-1144` `Byte`. -/
def byte (z n : U256) : U256 :=
  let nu := n.uint64WithOverflow
  if !nu.2 ∧ nu.1.toNat < 32 then
    let k := 3 - nu.1.toNat / 8
    let number := if k = 0 then z.w0 else if k = 1 then z.w1 else if k = 2 then z.w2 else z.w3
    let offset := (n.w0 &&& 7) <<< 3
    ofWord ((number &&& (0xff00000000000000#64 >>> offset.toNat)) >>> (56 - offset.toNat))
  else zero

/-- `/repo/uint256/uint256.go:1196-1211` `ExtendSign`. -/
def extendSign (x byteNum : U256) : U256 :=
  if byteNum.gtUint64 31 then x
  else
    let bit := byteNum.w0.toNat * 8 + 7
    let mask := subUint64 (lsh one bit) 1
    if x.isBitSet bit then or x (not mask) else and x mask

end U256
end Uni
