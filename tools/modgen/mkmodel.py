from gen import BL
order=['recipMul2','recipSub2','recipSq2','recipMul3','recipSub3','recipSq3','recipMul4','recipSub4','recipMul5','recipDec','recipDouble','barrettQ','barrettR','reduceFix']
H='''import Verif.Model.U256
/-! # Modular multiplication (`uint256/mod.go`, `MulMod`)

The Go functions assign to their variables again and again; here every assignment has its own name: `p`, `s`, `d`
followed by the number of the statement, for `bits.Mul64`, `bits.Add64` and `bits.Sub64`. -/
namespace Uni

'''
def st(n):
    t='/-- %d words, least significant first (variables of `/repo/uint256/mod.go:28-481`). -/\nstructure Words%d where\n'%(n,n)
    for i in range(n): t+='  w%d : Word\n'%i
    t+='  deriving DecidableEq, Repr\n\n'
    t+='/-- The number the words stand for. -/\ndef Words%d.toNat (x : Words%d) : Nat :=\n  '%(n,n)+' + '.join(('x.w%d.toNat'%i) if i==0 else '2 ^ %d * x.w%d.toNat'%(64*i,i) for i in range(n))+'\n\n'
    return t
H+=''.join(st(n) for n in (2,3,5,6,7,9))
H+='''namespace U256

/-- `/repo/uint256/mod.go:13-20` `leadingZeros`. -/
def leadingZeros (x : U256) : Nat :=
  let z := leadingZeros64 x.w3
  let z := if z = 64 then leadingZeros64 x.w2 + 64 else z
  let z := if z = 128 then leadingZeros64 x.w1 + 128 else z
  if z = 192 then leadingZeros64 x.w0 + 192 else z

/-- Go `math/bits.Div32(hi, lo, y)`: quotient and remainder; panics for y = 0 or y ≤ hi. -/
def div32 (hi lo y : BitVec 32) : Go (BitVec 32 × BitVec 32) :=
  if y.toNat ≤ hi.toNat then goPanic
  else
    let n := hi.toNat * 2 ^ 32 + lo.toNat
    .ok (BitVec.ofNat 32 (n / y.toNat), BitVec.ofNat 32 (n % y.toNat))

/-- `/repo/uint256/mod.go:63-71` the first estimate `r0`, from the upper 32 bits of the divisor. -/
def recip0 (yh : BitVec 32) : Go (BitVec 32) :=
  if yh = 0x80000000 then .ok 0xffffffff
  else do
    let r ← div32 0x80000000 0 yh
    return r.1

/-- `/repo/uint256/mod.go:73-85` the first iteration: 32 to 64 bits. -/
def recip1 (r0 : BitVec 32) (y3 : Word) : Word :=
  let t := r0.setWidth 64 * r0.setWidth 64
  let t1 := (mul64 t y3).1
  let r1 := ((r0.setWidth 64 <<< 32) - t1) * 2
  if (r1 ||| (y3 <<< 1)) = 0 then BitVec.allOnes 64 else r1

'''
M1='''/-- `/repo/uint256/mod.go:114-117` the result of the second iteration after the correction. -/
def recip2 (r1 : Word) (y : U256) : Words2 :=
  let r2 := recipSub2 r1 (recipMul2 r1 y)
  if (r2.w1 ||| r2.w0 ||| (y.w3 <<< 1)) = 0 then ⟨BitVec.allOnes 64, BitVec.allOnes 64⟩ else r2

/-- `/repo/uint256/mod.go:119-176` the third iteration: 128 to 192 bits. -/
def recip3 (r2 : Words2) (y : U256) : Words3 := recipSub3 r2 (recipMul3 (recipSq2 r2) y)

/-- `/repo/uint256/mod.go:178-240` the fourth iteration: 192 to 320 bits. -/
def recip4 (r3 : Words3) (y : U256) : Words5 := recipSub4 r3 (recipMul4 (recipSq3 r3) y)

/-- `/repo/uint256/mod.go:280-289` the borrow of 1/4 minus the product. -/
def recipBorrow (q : Words9) : Word :=
  let d0 := sub64 0 q.w0 0
  let d1 := sub64 0 q.w1 d0.2
  let d2 := sub64 0 q.w2 d1.2
  let d3 := sub64 0 q.w3 d2.2
  let d4 := sub64 0 q.w4 d3.2
  let d5 := sub64 0 q.w5 d4.2
  let d6 := sub64 0 q.w6 d5.2
  let d7 := sub64 0 q.w7 d6.2
  let d8 := sub64 0x4000000000000000 q.w8 d7.2
  d8.2

/-- `/repo/uint256/mod.go:278-301` the final adjustment. -/
def recipAdjust (r : Words5) (y : U256) : Words5 := if recipBorrow (recipMul5 r y) ≠ 0 then recipDec r else r

/-- `/repo/uint256/mod.go:318-327` shift to the right by `p` bits (`p < 64`). -/
def recipShift (r : Words5) (p : Nat) : Words5 :=
  ⟨(r.w0 >>> p) ||| (r.w1 <<< (64 - p)), (r.w1 >>> p) ||| (r.w2 <<< (64 - p)), (r.w2 >>> p) ||| (r.w3 <<< (64 - p)),
   (r.w3 >>> p) ||| (r.w4 <<< (64 - p)), r.w4 >>> p⟩

/-- `/repo/uint256/mod.go:303-331` the alignment; `p` is the value computed in line 305. -/
def recipAlign (r : Words5) (p : Int) : Words5 :=
  if p < 0 then recipDouble r
  else if 0 < p then recipShift r p.toNat
  else r

/-- `/repo/uint256/mod.go:52-339` the general case of `Reciprocal`; `s` is the number of leading zeros. -/
def recipNewton (m : U256) (s : Nat) : Go Words5 := do
  let y := lsh m s
  let r0 ← recip0 ((y.w3 >>> 32).setWidth 32)
  let r1 := recip1 r0 y.w3
  let r2 := recip2 r1 y
  let r3 := recip3 r2 y
  let r4 := recipAdjust (recip4 r3 y) y
  return recipAlign r4 (((255 - s) % 64 : Nat) - 1)

/-- `/repo/uint256/mod.go:28-340` `Reciprocal`. -/
def reciprocal (m : U256) : Go Words5 :=
  if m.w3 = 0 then .ok ⟨0, 0, 0, 0, 0⟩
  else
    let s := leadingZeros64 m.w3
    if (m.w0 ||| m.w1 ||| m.w2 ||| (m.w3 &&& (m.w3 - 1))) = 0 then
      .ok ⟨BitVec.allOnes 64, BitVec.allOnes 64, BitVec.allOnes 64, BitVec.allOnes 64, BitVec.allOnes 64 >>> ((255 - s) % 64)⟩
    else recipNewton m s

'''
M2='''/-- `/repo/uint256/mod.go:443-447` (and 463-467 with the words of `m`) five-word subtraction: difference and borrow. -/
def sub320 (x r : Words5) : Words5 × Word :=
  let d0 := sub64 x.w0 r.w0 0
  let d1 := sub64 x.w1 r.w1 d0.2
  let d2 := sub64 x.w2 r.w2 d1.2
  let d3 := sub64 x.w3 r.w3 d2.2
  let d4 := sub64 x.w4 r.w4 d3.2
  (⟨d0.1, d1.1, d2.1, d3.1, d4.1⟩, d4.2)

/-- `/repo/uint256/mod.go:459-478` the loop of `reduce4`, with fuel. -/
def reduceLoop (m : U256) : Nat → Words5 → Go U256
  | 0, _ => .error .fuel
  | fuel + 1, r =>
    let q := sub320 r ⟨m.w0, m.w1, m.w2, m.w3, 0⟩
    if q.2 ≠ 0 then .ok ⟨r.w0, r.w1, r.w2, r.w3⟩ else reduceLoop m fuel q.1

/-- `/repo/uint256/mod.go:345-481` `reduce4`; `x` are the eight words. -/
def reduce4 (fuel : Nat) (x : List Word) (m : U256) (mu : Words5) : Go U256 :=
  let q := barrettQ ⟨x.getD 3 0, x.getD 4 0, x.getD 5 0, x.getD 6 0, x.getD 7 0⟩ mu
  let r := sub320 ⟨x.getD 0 0, x.getD 1 0, x.getD 2 0, x.getD 3 0, x.getD 4 0⟩ (barrettR q m)
  reduceLoop m fuel (if r.2 ≠ 0 then reduceFix r.1 m else r.1)

/-- `/repo/uint256/uint256.go:628-642,659-673` the case of a modulus below 2^192; `p` are the eight words of the product. -/
def mulModSmall (p : List Word) (m : U256) : Go U256 :=
  if (ofWords (p.drop 4)).isZero then mod (ofWords (p.take 4)) m
  else do
    let r ← udivrem [0, 0, 0, 0, 0, 0, 0, 0] p m
    return r.2

/-- `/repo/uint256/uint256.go:616-642` `MulModWithReciprocal`.  The loop of `reduce4` runs with the given fuel; `Err.fuel`
means that it has not finished after that many iterations. -/
def mulModWithReciprocal (fuel : Nat) (x y m : U256) (mu : Words5) : Go U256 :=
  if x.isZero || y.isZero || m.isZero then .ok zero
  else if m.w3 ≠ 0 then reduce4 fuel (umul x y) m mu
  else mulModSmall (umul x y) m

/-- `/repo/uint256/uint256.go:647-673` `MulMod`. -/
def mulMod (fuel : Nat) (x y m : U256) : Go U256 :=
  if x.isZero || y.isZero || m.isZero then .ok zero
  else if m.w3 ≠ 0 then do
    let mu ← reciprocal m
    reduce4 fuel (umul x y) m mu
  else mulModSmall (umul x y) m

end U256
end Uni
'''
t=H+''.join(BL[k][0] for k in order[:11])+M1+''.join(BL[k][0] for k in order[11:])+M2
open('/verif/lean/Verif/Model/Mod.lean','w').write(t.replace('\n\n\n','\n\n'))
