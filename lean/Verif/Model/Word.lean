import Verif.Model.Go
/-!
# 64-bit words and the `math/bits` primitives

The uint256 package is written in terms of `uint64` and the functions of Go's `math/bits`.
`uint64` is `BitVec 64`; `+ - *`, `&&& ||| ~~~` wrap exactly as in Go, `<<<` and `>>>` by a `Nat` give 0 for
shift counts ≥ 64 exactly as in Go.
-/
namespace Uni

/-- Go `uint64`. -/
abbrev Word := BitVec 64

/-- Go `math/bits.Add64(x, y, carry)`: sum and carry out (the carry argument is 0 or 1 at every call site). -/
def add64 (x y c : Word) : Word × Word :=
  let s := x.toNat + y.toNat + c.toNat
  (BitVec.ofNat 64 s, BitVec.ofNat 64 (s / 2 ^ 64))

/-- Go `math/bits.Sub64(x, y, borrow)`: difference and borrow out (the borrow argument is 0 or 1). -/
def sub64 (x y b : Word) : Word × Word :=
  (x - y - b, if x.toNat < y.toNat + b.toNat then 1 else 0)

/-- Go `math/bits.Mul64(x, y)`: the 128-bit product as (hi, lo). -/
def mul64 (x y : Word) : Word × Word :=
  let p := x.toNat * y.toNat
  (BitVec.ofNat 64 (p / 2 ^ 64), BitVec.ofNat 64 p)

/-- Go `math/bits.Div64(hi, lo, y)`: quotient and remainder; panics for y = 0 or y ≤ hi. -/
def div64 (hi lo y : Word) : Go (Word × Word) :=
  if y.toNat ≤ hi.toNat then goPanic
  else
    let n := hi.toNat * 2 ^ 64 + lo.toNat
    .ok (BitVec.ofNat 64 (n / y.toNat), BitVec.ofNat 64 (n % y.toNat))

/-- Go `math/bits.Len64(x)`: number of bits needed to represent x, 0 for x = 0. -/
def len64 (x : Word) : Nat := if x.toNat = 0 then 0 else Nat.log2 x.toNat + 1

/-- Go `math/bits.LeadingZeros64(x)`. -/
def leadingZeros64 (x : Word) : Nat := 64 - len64 x

/-- Value of a little-endian word slice. -/
def val : List Word → Nat
  | [] => 0
  | w :: ws => w.toNat + 2 ^ 64 * val ws

end Uni
