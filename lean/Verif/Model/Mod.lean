import Verif.Model.U256
/-! # Modular multiplication (`uint256/mod.go`, `MulMod`)

The Go functions assign to their variables again and again; here every assignment has its own name: `p`, `s`, `d`
followed by the number of the statement, for `bits.Mul64`, `bits.Add64` and `bits.Sub64`. -/
namespace Uni

/-- 2 words, least significant first (variables of `/repo/uint256/mod.go:28-481`). -/
structure Words2 where
  w0 : Word
  w1 : Word
  deriving DecidableEq, Repr

/-- The number the words stand for. -/
def Words2.toNat (x : Words2) : Nat :=
  x.w0.toNat + 2 ^ 64 * x.w1.toNat

/-- 3 words, least significant first (variables of `/repo/uint256/mod.go:28-481`). -/
structure Words3 where
  w0 : Word
  w1 : Word
  w2 : Word
  deriving DecidableEq, Repr

/-- The number the words stand for. -/
def Words3.toNat (x : Words3) : Nat :=
  x.w0.toNat + 2 ^ 64 * x.w1.toNat + 2 ^ 128 * x.w2.toNat

/-- 5 words, least significant first (variables of `/repo/uint256/mod.go:28-481`). -/
structure Words5 where
  w0 : Word
  w1 : Word
  w2 : Word
  w3 : Word
  w4 : Word
  deriving DecidableEq, Repr

/-- The number the words stand for. -/
def Words5.toNat (x : Words5) : Nat :=
  x.w0.toNat + 2 ^ 64 * x.w1.toNat + 2 ^ 128 * x.w2.toNat + 2 ^ 192 * x.w3.toNat + 2 ^ 256 * x.w4.toNat

/-- 6 words, least significant first (variables of `/repo/uint256/mod.go:28-481`). -/
structure Words6 where
  w0 : Word
  w1 : Word
  w2 : Word
  w3 : Word
  w4 : Word
  w5 : Word
  deriving DecidableEq, Repr

/-- The number the words stand for. -/
def Words6.toNat (x : Words6) : Nat :=
  x.w0.toNat + 2 ^ 64 * x.w1.toNat + 2 ^ 128 * x.w2.toNat + 2 ^ 192 * x.w3.toNat + 2 ^ 256 * x.w4.toNat + 2 ^ 320 * x.w5.toNat

/-- 7 words, least significant first (variables of `/repo/uint256/mod.go:28-481`). -/
structure Words7 where
  w0 : Word
  w1 : Word
  w2 : Word
  w3 : Word
  w4 : Word
  w5 : Word
  w6 : Word
  deriving DecidableEq, Repr

/-- The number the words stand for. -/
def Words7.toNat (x : Words7) : Nat :=
  x.w0.toNat + 2 ^ 64 * x.w1.toNat + 2 ^ 128 * x.w2.toNat + 2 ^ 192 * x.w3.toNat + 2 ^ 256 * x.w4.toNat + 2 ^ 320 * x.w5.toNat + 2 ^ 384 * x.w6.toNat

/-- 9 words, least significant first (variables of `/repo/uint256/mod.go:28-481`). -/
structure Words9 where
  w0 : Word
  w1 : Word
  w2 : Word
  w3 : Word
  w4 : Word
  w5 : Word
  w6 : Word
  w7 : Word
  w8 : Word
  deriving DecidableEq, Repr

/-- The number the words stand for. -/
def Words9.toNat (x : Words9) : Nat :=
  x.w0.toNat + 2 ^ 64 * x.w1.toNat + 2 ^ 128 * x.w2.toNat + 2 ^ 192 * x.w3.toNat + 2 ^ 256 * x.w4.toNat + 2 ^ 320 * x.w5.toNat + 2 ^ 384 * x.w6.toNat + 2 ^ 448 * x.w7.toNat + 2 ^ 512 * x.w8.toNat

namespace U256

/-- `/repo/uint256/mod.go:13-20` `leadingZeros`. -/
def leadingZeros (x : U256) : Nat :=
  let z := leadingZeros64 x.w3
  let z := if z = 64 then leadingZeros64 x.w2 + 64 else z
  let z := if z = 128 then leadingZeros64 x.w1 + 128 else z
  if z = 192 then leadingZeros64 x.w0 + 192 else z

/-- Go `math/bits.Div32(hi, lo, y)`: quotient and remainder; panics for y = 0 or y ≤ hi. -/
def div32 (hi lo y : BitVec 32) : Go (BitVec 32 × BitVec 32) :=
  if y.toNat ≤ hi.toNat then goPanic
  else
    let n := hi.toNat * 2 ^ 32 + lo.toNat
    .ok (BitVec.ofNat 32 (n / y.toNat), BitVec.ofNat 32 (n % y.toNat))

/-- `/repo/uint256/mod.go:63-71` the first estimate `r0`, from the upper 32 bits of the divisor. -/
def recip0 (yh : BitVec 32) : Go (BitVec 32) :=
  if yh = 0x80000000 then .ok 0xffffffff
  else do
    let r ← div32 0x80000000 0 yh
    return r.1

/-- `/repo/uint256/mod.go:73-85` the first iteration: 32 to 64 bits. -/
def recip1 (r0 : BitVec 32) (y3 : Word) : Word :=
  let t := r0.setWidth 64 * r0.setWidth 64
  let t1 := (mul64 t y3).1
  let r1 := ((r0.setWidth 64 <<< 32) - t1) * 2
  if (r1 ||| (y3 <<< 1)) = 0 then BitVec.allOnes 64 else r1

/-- `/repo/uint256/mod.go:89-104` the second iteration of `Reciprocal`: the upper words of the product of the square of `r1` with `y`. -/
def recipMul2 (r1 : Word) (y : U256) : Words2 :=
  let p1 := mul64 r1 r1
  let p2 := mul64 p1.2 y.w2
  let p3 := mul64 p1.2 y.w3
  let p4 := mul64 p1.1 y.w2
  let p5 := mul64 p1.1 y.w3
  let s6 := add64 p2.1 p3.2 0
  let s7 := add64 p5.2 p3.1 s6.2
  let s8 := add64 p5.1 0 s7.2
  let s9 := add64 s6.1 p4.2 0
  let s10 := add64 s7.1 p4.1 s9.2
  let s11 := add64 s8.1 0 s10.2
  ⟨s10.1, s11.1⟩

/-- `/repo/uint256/mod.go:106-112` subtract and double. -/
def recipSub2 (r1 : Word) (e : Words2) : Words2 :=
  let d1 := sub64 0 e.w0 0
  let d2 := sub64 r1 e.w1 d1.2
  let s3 := add64 d1.1 d1.1 0
  let s4 := add64 d2.1 d2.1 s3.2
  ⟨s3.1, s4.1⟩

/-- `/repo/uint256/mod.go:121-132` the square of `r2`. -/
def recipSq2 (r2 : Words2) : U256 :=
  let p1 := mul64 r2.w0 r2.w0
  let p2 := mul64 r2.w0 r2.w1
  let p3 := mul64 r2.w1 r2.w1
  let s4 := add64 p1.1 p2.2 0
  let s5 := add64 p3.2 p2.1 s4.2
  let s6 := add64 p3.1 0 s5.2
  let s7 := add64 s4.1 p2.2 0
  let s8 := add64 s5.1 p2.1 s7.2
  let s9 := add64 s6.1 0 s8.2
  ⟨p1.2, s7.1, s8.1, s9.1⟩

/-- `/repo/uint256/mod.go:134-164` the upper words of the product with `y`. -/
def recipMul3 (x y : U256) : Words5 :=
  let p1 := mul64 x.w2 y.w0
  let p2 := mul64 x.w3 y.w0
  let s3 := add64 p1.1 p2.2 0
  let s4 := add64 p2.1 0 s3.2
  let p5 := mul64 x.w1 y.w1
  let s6 := add64 s3.1 p5.1 0
  let p7 := mul64 x.w3 y.w1
  let s8 := add64 s4.1 p7.2 s6.2
  let s9 := add64 p7.1 0 s8.2
  let p10 := mul64 x.w2 y.w1
  let s11 := add64 s6.1 p10.2 0
  let s12 := add64 s8.1 p10.1 s11.2
  let s13 := add64 s9.1 0 s12.2
  let p14 := mul64 x.w1 y.w2
  let s15 := add64 s11.1 p14.2 0
  let s16 := add64 s12.1 p14.1 s15.2
  let p17 := mul64 x.w3 y.w2
  let s18 := add64 s13.1 p17.2 s16.2
  let s19 := add64 p17.1 0 s18.2
  let p20 := mul64 x.w0 y.w2
  let s21 := add64 s15.1 p20.1 0
  let p22 := mul64 x.w2 y.w2
  let s23 := add64 s16.1 p22.2 s21.2
  let s24 := add64 s18.1 p22.1 s23.2
  let s25 := add64 s19.1 0 s24.2
  let p26 := mul64 x.w1 y.w3
  let s27 := add64 s23.1 p26.2 0
  let s28 := add64 s24.1 p26.1 s27.2
  let p29 := mul64 x.w3 y.w3
  let s30 := add64 s25.1 p29.2 s28.2
  let s31 := add64 p29.1 0 s30.2
  let p32 := mul64 x.w0 y.w3
  let s33 := add64 s21.1 p32.2 0
  let s34 := add64 s27.1 p32.1 s33.2
  let p35 := mul64 x.w2 y.w3
  let s36 := add64 s28.1 p35.2 s34.2
  let s37 := add64 s30.1 p35.1 s36.2
  let s38 := add64 s31.1 0 s37.2
  ⟨s33.1, s34.1, s36.1, s37.1, s38.1⟩

/-- `/repo/uint256/mod.go:166-176` subtract and double. -/
def recipSub3 (r2 : Words2) (q : Words5) : Words3 :=
  let d1 := sub64 0 q.w0 0
  let d2 := sub64 0 q.w1 d1.2
  let d3 := sub64 0 q.w2 d2.2
  let d4 := sub64 r2.w0 q.w3 d3.2
  let d5 := sub64 r2.w1 q.w4 d4.2
  let s6 := add64 d3.1 d3.1 0
  let s7 := add64 d4.1 d4.1 s6.2
  let s8 := add64 d5.1 d5.1 s7.2
  ⟨s6.1, s7.1, s8.1⟩

/-- `/repo/uint256/mod.go:180-203` the square of `r3`. -/
def recipSq3 (r3 : Words3) : Words6 :=
  let p1 := mul64 r3.w0 r3.w0
  let p2 := mul64 r3.w0 r3.w1
  let p3 := mul64 r3.w0 r3.w2
  let p4 := mul64 r3.w1 r3.w1
  let p5 := mul64 r3.w1 r3.w2
  let p6 := mul64 r3.w2 r3.w2
  let s7 := add64 p2.1 p3.2 0
  let s8 := add64 p5.2 p3.1 s7.2
  let s9 := add64 p5.1 0 s8.2
  let s10 := add64 p1.1 p2.2 0
  let s11 := add64 p4.2 s7.1 s10.2
  let s12 := add64 p4.1 s8.1 s11.2
  let s13 := add64 p6.2 s9.1 s12.2
  let s14 := add64 p6.1 0 s13.2
  let s15 := add64 s10.1 p2.2 0
  let s16 := add64 s11.1 s7.1 s15.2
  let s17 := add64 s12.1 s8.1 s16.2
  let s18 := add64 s13.1 s9.1 s17.2
  let s19 := add64 s14.1 0 s18.2
  ⟨p1.2, s15.1, s16.1, s17.1, s18.1, s19.1⟩

/-- `/repo/uint256/mod.go:205-231` the upper words of the product with `y`. -/
def recipMul4 (a : Words6) (y : U256) : Words7 :=
  let p1 := mul64 a.w3 y.w0
  let p2 := mul64 a.w5 y.w0
  let p3 := mul64 a.w4 y.w0
  let s4 := add64 p1.1 p3.2 0
  let s5 := add64 p2.2 p3.1 s4.2
  let s6 := add64 p2.1 0 s5.2
  let p7 := mul64 a.w3 y.w1
  let s8 := add64 s4.1 p7.2 0
  let s9 := add64 s5.1 p7.1 s8.2
  let p10 := mul64 a.w5 y.w1
  let s11 := add64 s6.1 p10.2 s9.2
  let s12 := add64 p10.1 0 s11.2
  let p13 := mul64 a.w2 y.w1
  let s14 := add64 p1.2 p13.2 0
  let s15 := add64 s8.1 p13.1 s14.2
  let p16 := mul64 a.w4 y.w1
  let s17 := add64 s9.1 p16.2 s15.2
  let s18 := add64 s11.1 p16.1 s17.2
  let s19 := add64 s12.1 0 s18.2
  let p20 := mul64 a.w1 y.w2
  let s21 := add64 s14.1 p20.2 0
  let s22 := add64 s15.1 p20.1 s21.2
  let p23 := mul64 a.w3 y.w2
  let s24 := add64 s17.1 p23.2 s22.2
  let s25 := add64 s18.1 p23.1 s24.2
  let p26 := mul64 a.w5 y.w2
  let s27 := add64 s19.1 p26.2 s25.2
  let s28 := add64 p26.1 0 s27.2
  let p29 := mul64 a.w2 y.w2
  let s30 := add64 s22.1 p29.2 0
  let s31 := add64 s24.1 p29.1 s30.2
  let p32 := mul64 a.w4 y.w2
  let s33 := add64 s25.1 p32.2 s31.2
  let s34 := add64 s27.1 p32.1 s33.2
  let s35 := add64 s28.1 0 s34.2
  let p36 := mul64 a.w1 y.w3
  let s37 := add64 s30.1 p36.2 0
  let s38 := add64 s31.1 p36.1 s37.2
  let p39 := mul64 a.w3 y.w3
  let s40 := add64 s33.1 p39.2 s38.2
  let s41 := add64 s34.1 p39.1 s40.2
  let p42 := mul64 a.w5 y.w3
  let s43 := add64 s35.1 p42.2 s41.2
  let s44 := add64 p42.1 0 s43.2
  let p45 := mul64 a.w0 y.w3
  let s46 := add64 s21.1 p45.2 0
  let s47 := add64 s37.1 p45.1 s46.2
  let p48 := mul64 a.w2 y.w3
  let s49 := add64 s38.1 p48.2 s47.2
  let s50 := add64 s40.1 p48.1 s49.2
  let p51 := mul64 a.w4 y.w3
  let s52 := add64 s41.1 p51.2 s50.2
  let s53 := add64 s43.1 p51.1 s52.2
  let s54 := add64 s44.1 0 s53.2
  ⟨s46.1, s47.1, s49.1, s50.1, s52.1, s53.1, s54.1⟩

/-- `/repo/uint256/mod.go:233-240` subtract. -/
def recipSub4 (r3 : Words3) (x : Words7) : Words5 :=
  let d1 := sub64 0 x.w0 0
  let d2 := sub64 0 x.w1 d1.2
  let d3 := sub64 0 x.w2 d2.2
  let d4 := sub64 0 x.w3 d3.2
  let d5 := sub64 r3.w0 x.w4 d4.2
  let d6 := sub64 r3.w1 x.w5 d5.2
  let d7 := sub64 r3.w2 x.w6 d6.2
  ⟨d3.1, d4.1, d5.1, d6.1, d7.1⟩

/-- `/repo/uint256/mod.go:242-276` the product of the candidate with `y`. -/
def recipMul5 (x : Words5) (y : U256) : Words9 :=
  let p1 := mul64 x.w0 y.w0
  let p2 := mul64 x.w2 y.w0
  let p3 := mul64 x.w4 y.w0
  let p4 := mul64 x.w1 y.w0
  let s5 := add64 p1.1 p4.2 0
  let s6 := add64 p2.2 p4.1 s5.2
  let p7 := mul64 x.w3 y.w0
  let s8 := add64 p2.1 p7.2 s6.2
  let s9 := add64 p3.2 p7.1 s8.2
  let s10 := add64 p3.1 0 s9.2
  let p11 := mul64 x.w0 y.w1
  let s12 := add64 s5.1 p11.2 0
  let s13 := add64 s6.1 p11.1 s12.2
  let p14 := mul64 x.w2 y.w1
  let s15 := add64 s8.1 p14.2 s13.2
  let s16 := add64 s9.1 p14.1 s15.2
  let p17 := mul64 x.w4 y.w1
  let s18 := add64 s10.1 p17.2 s16.2
  let s19 := add64 p17.1 0 s18.2
  let p20 := mul64 x.w1 y.w1
  let s21 := add64 s13.1 p20.2 0
  let s22 := add64 s15.1 p20.1 s21.2
  let p23 := mul64 x.w3 y.w1
  let s24 := add64 s16.1 p23.2 s22.2
  let s25 := add64 s18.1 p23.1 s24.2
  let s26 := add64 s19.1 0 s25.2
  let p27 := mul64 x.w0 y.w2
  let s28 := add64 s21.1 p27.2 0
  let s29 := add64 s22.1 p27.1 s28.2
  let p30 := mul64 x.w2 y.w2
  let s31 := add64 s24.1 p30.2 s29.2
  let s32 := add64 s25.1 p30.1 s31.2
  let p33 := mul64 x.w4 y.w2
  let s34 := add64 s26.1 p33.2 s32.2
  let s35 := add64 p33.1 0 s34.2
  let p36 := mul64 x.w1 y.w2
  let s37 := add64 s29.1 p36.2 0
  let s38 := add64 s31.1 p36.1 s37.2
  let p39 := mul64 x.w3 y.w2
  let s40 := add64 s32.1 p39.2 s38.2
  let s41 := add64 s34.1 p39.1 s40.2
  let s42 := add64 s35.1 0 s41.2
  let p43 := mul64 x.w0 y.w3
  let s44 := add64 s37.1 p43.2 0
  let s45 := add64 s38.1 p43.1 s44.2
  let p46 := mul64 x.w2 y.w3
  let s47 := add64 s40.1 p46.2 s45.2
  let s48 := add64 s41.1 p46.1 s47.2
  let p49 := mul64 x.w4 y.w3
  let s50 := add64 s42.1 p49.2 s48.2
  let s51 := add64 p49.1 0 s50.2
  let p52 := mul64 x.w1 y.w3
  let s53 := add64 s45.1 p52.2 0
  let s54 := add64 s47.1 p52.1 s53.2
  let p55 := mul64 x.w3 y.w3
  let s56 := add64 s48.1 p55.2 s54.2
  let s57 := add64 s50.1 p55.1 s56.2
  let s58 := add64 s51.1 0 s57.2
  ⟨p1.2, s12.1, s28.1, s44.1, s53.1, s54.1, s56.1, s57.1, s58.1⟩

/-- `/repo/uint256/mod.go:291-296` the candidate minus one. -/
def recipDec (r : Words5) : Words5 :=
  let d1 := sub64 r.w0 1 0
  let d2 := sub64 r.w1 0 d1.2
  let d3 := sub64 r.w2 0 d2.2
  let d4 := sub64 r.w3 0 d3.2
  let d5 := sub64 r.w4 0 d4.2
  ⟨d1.1, d2.1, d3.1, d4.1, d5.1⟩

/-- `/repo/uint256/mod.go:307-311` twice the candidate. -/
def recipDouble (r : Words5) : Words5 :=
  let s1 := add64 r.w0 r.w0 0
  let s2 := add64 r.w1 r.w1 s1.2
  let s3 := add64 r.w2 r.w2 s2.2
  let s4 := add64 r.w3 r.w3 s3.2
  let s5 := add64 r.w4 r.w4 s4.2
  ⟨s1.1, s2.1, s3.1, s4.1, s5.1⟩

/-- `/repo/uint256/mod.go:114-117` the result of the second iteration after the correction. -/
def recip2 (r1 : Word) (y : U256) : Words2 :=
  let r2 := recipSub2 r1 (recipMul2 r1 y)
  if (r2.w1 ||| r2.w0 ||| (y.w3 <<< 1)) = 0 then ⟨BitVec.allOnes 64, BitVec.allOnes 64⟩ else r2

/-- `/repo/uint256/mod.go:119-176` the third iteration: 128 to 192 bits. -/
def recip3 (r2 : Words2) (y : U256) : Words3 := recipSub3 r2 (recipMul3 (recipSq2 r2) y)

/-- `/repo/uint256/mod.go:178-240` the fourth iteration: 192 to 320 bits. -/
def recip4 (r3 : Words3) (y : U256) : Words5 := recipSub4 r3 (recipMul4 (recipSq3 r3) y)

/-- `/repo/uint256/mod.go:280-289` the borrow of 1/4 minus the product. -/
def recipBorrow (q : Words9) : Word :=
  let d0 := sub64 0 q.w0 0
  let d1 := sub64 0 q.w1 d0.2
  let d2 := sub64 0 q.w2 d1.2
  let d3 := sub64 0 q.w3 d2.2
  let d4 := sub64 0 q.w4 d3.2
  let d5 := sub64 0 q.w5 d4.2
  let d6 := sub64 0 q.w6 d5.2
  let d7 := sub64 0 q.w7 d6.2
  let d8 := sub64 0x4000000000000000 q.w8 d7.2
  d8.2

/-- `/repo/uint256/mod.go:278-301` the final adjustment. -/
def recipAdjust (r : Words5) (y : U256) : Words5 := if recipBorrow (recipMul5 r y) ≠ 0 then recipDec r else r

/-- `/repo/uint256/mod.go:318-327` shift to the right by `p` bits (`p < 64`). -/
def recipShift (r : Words5) (p : Nat) : Words5 :=
  ⟨(r.w0 >>> p) ||| (r.w1 <<< (64 - p)), (r.w1 >>> p) ||| (r.w2 <<< (64 - p)), (r.w2 >>> p) ||| (r.w3 <<< (64 - p)),
   (r.w3 >>> p) ||| (r.w4 <<< (64 - p)), r.w4 >>> p⟩

/-- `/repo/uint256/mod.go:303-331` the alignment; `p` is the value computed in line 305. -/
def recipAlign (r : Words5) (p : Int) : Words5 :=
  if p < 0 then recipDouble r
  else if 0 < p then recipShift r p.toNat
  else r

/-- `/repo/uint256/mod.go:52-339` the general case of `Reciprocal`; `s` is the number of leading zeros. -/
def recipNewton (m : U256) (s : Nat) : Go Words5 := do
  let y := lsh m s
  let r0 ← recip0 ((y.w3 >>> 32).setWidth 32)
  let r1 := recip1 r0 y.w3
  let r2 := recip2 r1 y
  let r3 := recip3 r2 y
  let r4 := recipAdjust (recip4 r3 y) y
  return recipAlign r4 (((255 - s) % 64 : Nat) - 1)

/-- `/repo/uint256/mod.go:28-340` `Reciprocal`. -/
def reciprocal (m : U256) : Go Words5 :=
  if m.w3 = 0 then .ok ⟨0, 0, 0, 0, 0⟩
  else
    let s := leadingZeros64 m.w3
    if (m.w0 ||| m.w1 ||| m.w2 ||| (m.w3 &&& (m.w3 - 1))) = 0 then
      .ok ⟨BitVec.allOnes 64, BitVec.allOnes 64, BitVec.allOnes 64, BitVec.allOnes 64, BitVec.allOnes 64 >>> ((255 - s) % 64)⟩
    else recipNewton m s

/-- `/repo/uint256/mod.go:348-400` the estimate of the quotient: the words from 2^320 on of (x / 2^192) * mu. -/
def barrettQ (x mu : Words5) : Words5 :=
  let p1 := mul64 x.w3 mu.w0
  let p2 := mul64 x.w4 mu.w0
  let s3 := add64 p1.1 p2.2 0
  let s4 := add64 p2.1 0 s3.2
  let p5 := mul64 x.w2 mu.w1
  let s6 := add64 s3.1 p5.1 0
  let p7 := mul64 x.w4 mu.w1
  let s8 := add64 s4.1 p7.2 s6.2
  let s9 := add64 p7.1 0 s8.2
  let p10 := mul64 x.w3 mu.w1
  let s11 := add64 s6.1 p10.2 0
  let s12 := add64 s8.1 p10.1 s11.2
  let s13 := add64 s9.1 0 s12.2
  let p14 := mul64 x.w2 mu.w2
  let s15 := add64 s11.1 p14.2 0
  let s16 := add64 s12.1 p14.1 s15.2
  let p17 := mul64 x.w4 mu.w2
  let s18 := add64 s13.1 p17.2 s16.2
  let s19 := add64 p17.1 0 s18.2
  let p20 := mul64 x.w1 mu.w2
  let s21 := add64 s15.1 p20.1 0
  let p22 := mul64 x.w3 mu.w2
  let s23 := add64 s16.1 p22.2 s21.2
  let s24 := add64 s18.1 p22.1 s23.2
  let s25 := add64 s19.1 0 s24.2
  let p26 := mul64 x.w0 mu.w3
  let s27 := add64 s21.1 p26.1 0
  let p28 := mul64 x.w2 mu.w3
  let s29 := add64 s23.1 p28.2 s27.2
  let s30 := add64 s24.1 p28.1 s29.2
  let p31 := mul64 x.w4 mu.w3
  let s32 := add64 s25.1 p31.2 s30.2
  let s33 := add64 p31.1 0 s32.2
  let p34 := mul64 x.w1 mu.w3
  let s35 := add64 s27.1 p34.2 0
  let s36 := add64 s29.1 p34.1 s35.2
  let p37 := mul64 x.w3 mu.w3
  let s38 := add64 s30.1 p37.2 s36.2
  let s39 := add64 s32.1 p37.1 s38.2
  let s40 := add64 s33.1 0 s39.2
  let p41 := mul64 x.w0 mu.w4
  let s42 := add64 s35.1 p41.2 0
  let s43 := add64 s36.1 p41.1 s42.2
  let p44 := mul64 x.w2 mu.w4
  let s45 := add64 s38.1 p44.2 s43.2
  let s46 := add64 s39.1 p44.1 s45.2
  let p47 := mul64 x.w4 mu.w4
  let s48 := add64 s40.1 p47.2 s46.2
  let s49 := add64 p47.1 0 s48.2
  let p50 := mul64 x.w1 mu.w4
  let s51 := add64 s43.1 p50.2 0
  let s52 := add64 s45.1 p50.1 s51.2
  let p53 := mul64 x.w3 mu.w4
  let s54 := add64 s46.1 p53.2 s52.2
  let s55 := add64 s48.1 p53.1 s54.2
  let s56 := add64 s49.1 0 s55.2
  ⟨s51.1, s52.1, s54.1, s55.1, s56.1⟩

/-- `/repo/uint256/mod.go:410-437` the product with `m` modulo 2^320. -/
def barrettR (q : Words5) (m : U256) : Words5 :=
  let p1 := mul64 q.w0 m.w3
  let p2 := mul64 q.w1 m.w3
  let s3 := add64 p1.1 p2.2 0
  let p4 := mul64 q.w0 m.w2
  let s5 := add64 p1.2 p4.1 0
  let p6 := mul64 q.w2 m.w2
  let s7 := add64 s3.1 p6.2 s5.2
  let p8 := mul64 q.w1 m.w2
  let s9 := add64 s5.1 p8.2 0
  let s10 := add64 s7.1 p8.1 s9.2
  let p11 := mul64 q.w0 m.w1
  let s12 := add64 p4.2 p11.1 0
  let p13 := mul64 q.w2 m.w1
  let s14 := add64 s9.1 p13.2 s12.2
  let s15 := add64 s10.1 p13.1 s14.2
  let p16 := mul64 q.w1 m.w1
  let s17 := add64 s12.1 p16.2 0
  let s18 := add64 s14.1 p16.1 s17.2
  let p19 := mul64 q.w3 m.w1
  let s20 := add64 s15.1 p19.2 s18.2
  let p21 := mul64 q.w0 m.w0
  let s22 := add64 p11.2 p21.1 0
  let p23 := mul64 q.w2 m.w0
  let s24 := add64 s17.1 p23.2 s22.2
  let s25 := add64 s18.1 p23.1 s24.2
  let p26 := mul64 q.w4 m.w0
  let s27 := add64 s20.1 p26.2 s25.2
  let p28 := mul64 q.w1 m.w0
  let s29 := add64 s22.1 p28.2 0
  let s30 := add64 s24.1 p28.1 s29.2
  let p31 := mul64 q.w3 m.w0
  let s32 := add64 s25.1 p31.2 s30.2
  let s33 := add64 s27.1 p31.1 s32.2
  ⟨p21.2, s29.1, s30.1, s32.1, s33.1⟩

/-- `/repo/uint256/mod.go:452-456` add `m`. -/
def reduceFix (r : Words5) (m : U256) : Words5 :=
  let s1 := add64 r.w0 m.w0 0
  let s2 := add64 r.w1 m.w1 s1.2
  let s3 := add64 r.w2 m.w2 s2.2
  let s4 := add64 r.w3 m.w3 s3.2
  let s5 := add64 r.w4 0 s4.2
  ⟨s1.1, s2.1, s3.1, s4.1, s5.1⟩

/-- `/repo/uint256/mod.go:443-447` (and 463-467 with the words of `m`) five-word subtraction: difference and borrow. -/
def sub320 (x r : Words5) : Words5 × Word :=
  let d0 := sub64 x.w0 r.w0 0
  let d1 := sub64 x.w1 r.w1 d0.2
  let d2 := sub64 x.w2 r.w2 d1.2
  let d3 := sub64 x.w3 r.w3 d2.2
  let d4 := sub64 x.w4 r.w4 d3.2
  (⟨d0.1, d1.1, d2.1, d3.1, d4.1⟩, d4.2)

/-- `/repo/uint256/mod.go:459-478` the loop of `reduce4`, with fuel. -/
def reduceLoop (m : U256) : Nat → Words5 → Go U256
  | 0, _ => .error .fuel
  | fuel + 1, r =>
    let q := sub320 r ⟨m.w0, m.w1, m.w2, m.w3, 0⟩
    if q.2 ≠ 0 then .ok ⟨r.w0, r.w1, r.w2, r.w3⟩ else reduceLoop m fuel q.1

/-- `/repo/uint256/mod.go:345-481` `reduce4`; `x` are the eight words. -/
def reduce4 (fuel : Nat) (x : List Word) (m : U256) (mu : Words5) : Go U256 :=
  let q := barrettQ ⟨x.getD 3 0, x.getD 4 0, x.getD 5 0, x.getD 6 0, x.getD 7 0⟩ mu
  let r := sub320 ⟨x.getD 0 0, x.getD 1 0, x.getD 2 0, x.getD 3 0, x.getD 4 0⟩ (barrettR q m)
  reduceLoop m fuel (if r.2 ≠ 0 then reduceFix r.1 m else r.1)

/-- `/repo/uint256/uint256.go:628-642,659-673` the case of a modulus below 2^192; `p` are the eight words of the product. -/
def mulModSmall (p : List Word) (m : U256) : Go U256 :=
  if (ofWords (p.drop 4)).isZero then mod (ofWords (p.take 4)) m
  else do
    let r ← udivrem [0, 0, 0, 0, 0, 0, 0, 0] p m
    return r.2

/-- `/repo/uint256/uint256.go:616-642` `MulModWithReciprocal`.  The loop of `reduce4` runs with the given fuel; `Err.fuel`
means that it has not finished after that many iterations. -/
def mulModWithReciprocal (fuel : Nat) (x y m : U256) (mu : Words5) : Go U256 :=
  if x.isZero || y.isZero || m.isZero then .ok zero
  else if m.w3 ≠ 0 then reduce4 fuel (umul x y) m mu
  else mulModSmall (umul x y) m

/-- `/repo/uint256/uint256.go:647-673` `MulMod`. -/
def mulMod (fuel : Nat) (x y m : U256) : Go U256 :=
  if x.isZero || y.isZero || m.isZero then .ok zero
  else if m.w3 ≠ 0 then do
    let mu ← reciprocal m
    reduce4 fuel (umul x y) m mu
  else mulModSmall (umul x y) m

end U256
end Uni
