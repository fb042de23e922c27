import Verif.Model.U256
/-! # Conversions: math/big, hexadecimal text, byte strings (`uint256/conversion.go`, parts of `uint256/uint256.go`)

`math/big` integers are modelled as `Int`; their little-endian word lists are `natWords`.  Go strings and byte slices are
lists of bytes. -/
namespace Uni
namespace U256

/-- Go `byte`. -/
abbrev Byte := BitVec 8

/-- `uint64(b)` for a byte. -/
def zext (b : Byte) : Word := b.setWidth 64

/-! ## math/big -/

/-- `big.Int.Bits` of a non-negative number on a 64-bit machine: little-endian words without leading zero words. -/
def natWords (n : Nat) : List Word :=
  if h : n = 0 then [] else BitVec.ofNat 64 n :: natWords (n / 2 ^ 64)
termination_by n
decreasing_by exact Nat.div_lt_self (Nat.pos_of_ne_zero h) (by decide)

/-- `/repo/uint256/conversion.go:47-63` `ToBig` (64-bit branch); `big.Int.SetBits` is the value of the words. -/
def toBig (z : U256) : Int := (val [z.w0, z.w1, z.w2, z.w3] : Nat)

/-- `/repo/uint256/conversion.go:27-44` `SToBig`. -/
def sToBig (z : U256) : Int :=
  if z.sign < 0 then
    let bitMap : U256 := ⟨0xffffffffffffffff#64, 0xffffffffffffffff#64, 0xffffffffffffffff#64, 0xffffffffffffffff#64⟩
    toBig (add (xor bitMap z) (ofWord 1)) * (-1)
  else toBig z

/-- `/repo/uint256/conversion.go:119-156` `SetFromBig` (64-bit branch).  The receiver is cleared first, so the result
does not depend on it. -/
def setFromBig (b : Int) : U256 × Bool :=
  let words := natWords b.natAbs
  let overflow := decide (words.length > 4)
  let z : U256 := ⟨words.getD 0 0, words.getD 1 0, words.getD 2 0, words.getD 3 0⟩
  (if b < 0 then neg z else z, overflow)

/-- `/repo/uint256/conversion.go:67-71` `FromBig`. -/
def fromBig (b : Int) : U256 × Bool := setFromBig b

/-! ## Hexadecimal text -/

/-- `/repo/uint256/conversion.go:542-549` the error values. -/
inductive HexErr where
  | emptyString | syntax | missingPrefix | emptyNumber | leadingZero | big256Range | nonString
  deriving DecidableEq, Repr

/-- `/repo/uint256/conversion.go:507` `bintable`: the digit value of every byte, 0xff for other bytes. -/
def bintable : List Byte :=
  List.replicate 48 0xff ++ [0, 1, 2, 3, 4, 5, 6, 7, 8, 9] ++ List.replicate 7 0xff ++ [10, 11, 12, 13, 14, 15] ++
  List.replicate 26 0xff ++ [10, 11, 12, 13, 14, 15] ++ List.replicate 153 0xff

/-- `/repo/uint256/conversion.go:506` `hextable`: "0123456789abcdef". -/
def hextable : List Byte := [48, 49, 50, 51, 52, 53, 54, 55, 56, 57, 97, 98, 99, 100, 101, 102]

/-- `/repo/uint256/conversion.go:557-573` `checkNumberS`. -/
def checkNumberS (input : List Byte) : Option HexErr :=
  let l := input.length
  if l = 0 then some .emptyString
  else if l < 2 ∨ input.getD 0 0 ≠ 48 ∨ (input.getD 1 0 ≠ 120 ∧ input.getD 1 0 ≠ 88) then some .missingPrefix
  else if l = 2 then some .emptyNumber
  else if l > 3 ∧ input.getD 2 0 = 48 then some .leadingZero
  else none

/-- `/repo/uint256/conversion.go:88-96` the inner loop of `fromHex` over the digits of one limb: new limb, and whether
a bad digit stopped the loop. -/
def hexLimb (w : Word) : List Byte → Word × Bool
  | [] => (w, true)
  | c :: cs =>
    let nib := bintable.getD c.toNat 0
    if nib = 0xff then (w, false) else hexLimb ((w <<< 4) + zext nib) cs

/-- `/repo/uint256/conversion.go:84-87` the start of the digits of a limb that ends at `e`. -/
def hexStart (e : Nat) : Nat := if e < 18 then 2 else e - 16

/-- `hex[start:end]`. -/
def hexSlice (hex : List Byte) (s e : Nat) : List Byte := (hex.drop s).take (e - s)

/-- `/repo/uint256/conversion.go:74-99` `fromHex`: the receiver after the call, and the error.  The receiver is not
cleared first. -/
def fromHex (z : U256) (hex : List Byte) : U256 × Option HexErr :=
  match checkNumberS hex with
  | some e => (z, some e)
  | none =>
    if hex.length > 66 then (z, some .big256Range)
    else
      let e0 := hex.length
      let s0 := hexStart e0
      let r0 := hexLimb z.w0 (hexSlice hex s0 e0)
      if r0.2 = false then ({ z with w0 := r0.1 }, some .syntax)
      else
        let s1 := hexStart s0
        let r1 := hexLimb z.w1 (hexSlice hex s1 s0)
        if r1.2 = false then ({ z with w0 := r0.1, w1 := r1.1 }, some .syntax)
        else
          let s2 := hexStart s1
          let r2 := hexLimb z.w2 (hexSlice hex s2 s1)
          if r2.2 = false then ({ z with w0 := r0.1, w1 := r1.1, w2 := r2.1 }, some .syntax)
          else
            let s3 := hexStart s2
            let r3 := hexLimb z.w3 (hexSlice hex s3 s2)
            if r3.2 = false then (⟨r0.1, r1.1, r2.1, r3.1⟩, some .syntax)
            else (⟨r0.1, r1.1, r2.1, r3.1⟩, none)

/-- `/repo/uint256/conversion.go:104-110` `FromHex`. -/
def fromHexNew (hex : List Byte) : Except HexErr U256 :=
  match fromHex zero hex with
  | (z, none) => .ok z
  | (_, some e) => .error e

/-- `/repo/uint256/conversion.go:113-115` `UnmarshalText`. -/
def unmarshalText (z : U256) (input : List Byte) : U256 × Option HexErr := fromHex z input

/-- `/repo/uint256/conversion.go:493-498` `UnmarshalJSON`; 34 is the quote character. -/
def unmarshalJSON (z : U256) (input : List Byte) : U256 × Option HexErr :=
  if input.length < 2 ∨ input.getD 0 0 ≠ 34 ∨ input.getD (input.length - 1) 0 ≠ 34 then (z, some .nonString)
  else unmarshalText z ((input.drop 1).take (input.length - 2))

/-- `/repo/uint256/conversion.go:525-540` the sixteen characters of one limb. -/
def hexWord (w : Word) : List Byte :=
  [60, 56, 52, 48, 44, 40, 36, 32, 28, 24, 20, 16, 12, 8, 4, 0].map fun k =>
    hextable.getD (((w >>> k).setWidth 8 &&& 0xf : Byte).toNat) 0

/-- Overwrites `bs` into `out` at position `off`. -/
def writeAt (out : List Byte) (off : Nat) (bs : List Byte) : List Byte := out.take off ++ bs ++ out.drop (off + bs.length)

/-- Limb `i`. -/
def limb (z : U256) (i : Nat) : Word := [z.w0, z.w1, z.w2, z.w3].getD i 0

/-- `/repo/uint256/conversion.go:523-541` the loop of `Hex` from limb `i` down to limb 0. -/
def hexLoop (z : U256) : Nat → List Byte → List Byte
  | 0, out => writeAt out ((3 - 0) * 16 + 2) (hexWord (limb z 0))
  | i + 1, out => hexLoop z i (writeAt out ((3 - (i + 1)) * 16 + 2) (hexWord (limb z (i + 1))))

/-- `/repo/uint256/conversion.go:516-519` the number of hexadecimal digits. -/
def nibbles (z : U256) : Nat := if (z.bitLen + 3) / 4 = 0 then 1 else (z.bitLen + 3) / 4

/-- `/repo/uint256/conversion.go:512-545` `Hex`. -/
def hex (z : U256) : List Byte :=
  let n := nibbles z
  let out := hexLoop z ((n - 1) / 16) (List.replicate 66 0)
  ((out.set (64 - n) 48).set (65 - n) 120).drop (64 - n)

/-! ## Byte strings -/

/-- `binary.BigEndian.Uint16`, `Uint32`, `Uint64` of a slice of exactly that length. -/
def be (l : List Byte) : Word := l.foldl (fun w b => (w <<< 8) ||| zext b) 0

/-- `/repo/uint256/conversion.go:442-446` `bigEndianUint40` of a slice of five bytes. -/
def be40 (b : List Byte) : Word :=
  zext (b.getD 4 0) ||| zext (b.getD 3 0) <<< 8 ||| zext (b.getD 2 0) <<< 16 ||| zext (b.getD 1 0) <<< 24 |||
    zext (b.getD 0 0) <<< 32

/-- `/repo/uint256/conversion.go:448-452` `bigEndianUint48` of a slice of six bytes. -/
def be48 (b : List Byte) : Word :=
  zext (b.getD 5 0) ||| zext (b.getD 4 0) <<< 8 ||| zext (b.getD 3 0) <<< 16 ||| zext (b.getD 2 0) <<< 24 |||
    zext (b.getD 1 0) <<< 32 ||| zext (b.getD 0 0) <<< 40

/-- `/repo/uint256/conversion.go:454-458` `bigEndianUint56` of a slice of seven bytes. -/
def be56 (b : List Byte) : Word :=
  zext (b.getD 6 0) ||| zext (b.getD 5 0) <<< 8 ||| zext (b.getD 4 0) <<< 16 ||| zext (b.getD 3 0) <<< 24 |||
    zext (b.getD 2 0) <<< 32 ||| zext (b.getD 1 0) <<< 40 ||| zext (b.getD 0 0) <<< 48

/-- `_ = in[k]`: a bounds check. -/
def need (b : List Byte) (k : Nat) : Go Unit := if k < b.length then .ok () else .error .panic

/-- `in[i:j]` (lengths stand for capacities: the slices passed in are not resliced beyond their length). -/
def sl (b : List Byte) (i j : Nat) : Go (List Byte) := if j ≤ b.length then .ok ((b.drop i).take (j - i)) else .error .panic

/-- `in[i]`. -/
def byteAtIdx (b : List Byte) (i : Nat) : Go Byte := if i < b.length then .ok (b.getD i 0) else .error .panic

/-- `/repo/uint256/conversion.go:210-214` `SetBytes1`. -/
def setBytes1 (b : List Byte) : Go U256 := do
  let x0 ← byteAtIdx b 0
  return ⟨zext x0, 0, 0, 0⟩

/-- `/repo/uint256/conversion.go:242-247` `SetBytes2`. -/
def setBytes2 (b : List Byte) : Go U256 := do
  need b 1
  let x0 ← sl b 0 2
  return ⟨be x0, 0, 0, 0⟩

/-- `/repo/uint256/conversion.go:275-280` `SetBytes3`. -/
def setBytes3 (b : List Byte) : Go U256 := do
  need b 2
  let x0 ← sl b 1 3
  let x0h ← byteAtIdx b 0
  return ⟨be x0 ||| zext x0h <<< 16, 0, 0, 0⟩

/-- `/repo/uint256/conversion.go:308-313` `SetBytes4`. -/
def setBytes4 (b : List Byte) : Go U256 := do
  need b 3
  let x0 ← sl b 0 4
  return ⟨be x0, 0, 0, 0⟩

/-- `/repo/uint256/conversion.go:341-346` `SetBytes5`. -/
def setBytes5 (b : List Byte) : Go U256 := do
  need b 4
  let x0 ← sl b 0 5
  return ⟨be40 x0, 0, 0, 0⟩

/-- `/repo/uint256/conversion.go:374-379` `SetBytes6`. -/
def setBytes6 (b : List Byte) : Go U256 := do
  need b 5
  let x0 ← sl b 0 6
  return ⟨be48 x0, 0, 0, 0⟩

/-- `/repo/uint256/conversion.go:407-412` `SetBytes7`. -/
def setBytes7 (b : List Byte) : Go U256 := do
  need b 6
  let x0 ← sl b 0 7
  return ⟨be56 x0, 0, 0, 0⟩

/-- `/repo/uint256/conversion.go:175-180` `SetBytes8`. -/
def setBytes8 (b : List Byte) : Go U256 := do
  need b 7
  let x0 ← sl b 0 8
  return ⟨be x0, 0, 0, 0⟩

/-- `/repo/uint256/conversion.go:216-222` `SetBytes9`. -/
def setBytes9 (b : List Byte) : Go U256 := do
  need b 8
  let x1 ← byteAtIdx b 0
  let x0 ← sl b 1 9
  return ⟨be x0, zext x1, 0, 0⟩

/-- `/repo/uint256/conversion.go:249-255` `SetBytes10`. -/
def setBytes10 (b : List Byte) : Go U256 := do
  need b 9
  let x1 ← sl b 0 2
  let x0 ← sl b 2 10
  return ⟨be x0, be x1, 0, 0⟩

/-- `/repo/uint256/conversion.go:282-288` `SetBytes11`. -/
def setBytes11 (b : List Byte) : Go U256 := do
  need b 10
  let x1 ← sl b 1 3
  let x1h ← byteAtIdx b 0
  let x0 ← sl b 3 11
  return ⟨be x0, be x1 ||| zext x1h <<< 16, 0, 0⟩

/-- `/repo/uint256/conversion.go:315-321` `SetBytes12`. -/
def setBytes12 (b : List Byte) : Go U256 := do
  need b 11
  let x1 ← sl b 0 4
  let x0 ← sl b 4 12
  return ⟨be x0, be x1, 0, 0⟩

/-- `/repo/uint256/conversion.go:348-354` `SetBytes13`. -/
def setBytes13 (b : List Byte) : Go U256 := do
  need b 12
  let x1 ← sl b 0 5
  let x0 ← sl b 5 13
  return ⟨be x0, be40 x1, 0, 0⟩

/-- `/repo/uint256/conversion.go:381-387` `SetBytes14`. -/
def setBytes14 (b : List Byte) : Go U256 := do
  need b 13
  let x1 ← sl b 0 6
  let x0 ← sl b 6 14
  return ⟨be x0, be48 x1, 0, 0⟩

/-- `/repo/uint256/conversion.go:414-420` `SetBytes15`. -/
def setBytes15 (b : List Byte) : Go U256 := do
  need b 14
  let x1 ← sl b 0 7
  let x0 ← sl b 7 15
  return ⟨be x0, be56 x1, 0, 0⟩

/-- `/repo/uint256/conversion.go:183-189` `SetBytes16`. -/
def setBytes16 (b : List Byte) : Go U256 := do
  need b 15
  let x1 ← sl b 0 8
  let x0 ← sl b 8 16
  return ⟨be x0, be x1, 0, 0⟩

/-- `/repo/uint256/conversion.go:224-231` `SetBytes17`. -/
def setBytes17 (b : List Byte) : Go U256 := do
  need b 16
  let x2 ← byteAtIdx b 0
  let x1 ← sl b 1 9
  let x0 ← sl b 9 17
  return ⟨be x0, be x1, zext x2, 0⟩

/-- `/repo/uint256/conversion.go:257-264` `SetBytes18`. -/
def setBytes18 (b : List Byte) : Go U256 := do
  need b 17
  let x2 ← sl b 0 2
  let x1 ← sl b 2 10
  let x0 ← sl b 10 18
  return ⟨be x0, be x1, be x2, 0⟩

/-- `/repo/uint256/conversion.go:290-297` `SetBytes19`. -/
def setBytes19 (b : List Byte) : Go U256 := do
  need b 18
  let x2 ← sl b 1 3
  let x2h ← byteAtIdx b 0
  let x1 ← sl b 3 11
  let x0 ← sl b 11 19
  return ⟨be x0, be x1, be x2 ||| zext x2h <<< 16, 0⟩

/-- `/repo/uint256/conversion.go:323-330` `SetBytes20`. -/
def setBytes20 (b : List Byte) : Go U256 := do
  need b 19
  let x2 ← sl b 0 4
  let x1 ← sl b 4 12
  let x0 ← sl b 12 20
  return ⟨be x0, be x1, be x2, 0⟩

/-- `/repo/uint256/conversion.go:356-363` `SetBytes21`. -/
def setBytes21 (b : List Byte) : Go U256 := do
  need b 20
  let x2 ← sl b 0 5
  let x1 ← sl b 5 13
  let x0 ← sl b 13 21
  return ⟨be x0, be x1, be40 x2, 0⟩

/-- `/repo/uint256/conversion.go:389-396` `SetBytes22`. -/
def setBytes22 (b : List Byte) : Go U256 := do
  need b 21
  let x2 ← sl b 0 6
  let x1 ← sl b 6 14
  let x0 ← sl b 14 22
  return ⟨be x0, be x1, be48 x2, 0⟩

/-- `/repo/uint256/conversion.go:422-429` `SetBytes23`. -/
def setBytes23 (b : List Byte) : Go U256 := do
  need b 22
  let x2 ← sl b 0 7
  let x1 ← sl b 7 15
  let x0 ← sl b 15 23
  return ⟨be x0, be x1, be56 x2, 0⟩

/-- `/repo/uint256/conversion.go:192-199` `SetBytes24`. -/
def setBytes24 (b : List Byte) : Go U256 := do
  need b 23
  let x2 ← sl b 0 8
  let x1 ← sl b 8 16
  let x0 ← sl b 16 24
  return ⟨be x0, be x1, be x2, 0⟩

/-- `/repo/uint256/conversion.go:233-240` `SetBytes25`. -/
def setBytes25 (b : List Byte) : Go U256 := do
  need b 24
  let x3 ← byteAtIdx b 0
  let x2 ← sl b 1 9
  let x1 ← sl b 9 17
  let x0 ← sl b 17 25
  return ⟨be x0, be x1, be x2, zext x3⟩

/-- `/repo/uint256/conversion.go:266-273` `SetBytes26`. -/
def setBytes26 (b : List Byte) : Go U256 := do
  need b 25
  let x3 ← sl b 0 2
  let x2 ← sl b 2 10
  let x1 ← sl b 10 18
  let x0 ← sl b 18 26
  return ⟨be x0, be x1, be x2, be x3⟩

/-- `/repo/uint256/conversion.go:299-306` `SetBytes27`. -/
def setBytes27 (b : List Byte) : Go U256 := do
  need b 26
  let x3 ← sl b 1 3
  let x3h ← byteAtIdx b 0
  let x2 ← sl b 3 11
  let x1 ← sl b 11 19
  let x0 ← sl b 19 27
  return ⟨be x0, be x1, be x2, be x3 ||| zext x3h <<< 16⟩

/-- `/repo/uint256/conversion.go:332-339` `SetBytes28`. -/
def setBytes28 (b : List Byte) : Go U256 := do
  need b 27
  let x3 ← sl b 0 4
  let x2 ← sl b 4 12
  let x1 ← sl b 12 20
  let x0 ← sl b 20 28
  return ⟨be x0, be x1, be x2, be x3⟩

/-- `/repo/uint256/conversion.go:365-372` `SetBytes29`. -/
def setBytes29 (b : List Byte) : Go U256 := do
  need b 23
  let x3 ← sl b 0 5
  let x2 ← sl b 5 13
  let x1 ← sl b 13 21
  let x0 ← sl b 21 29
  return ⟨be x0, be x1, be x2, be40 x3⟩

/-- `/repo/uint256/conversion.go:398-405` `SetBytes30`. -/
def setBytes30 (b : List Byte) : Go U256 := do
  need b 29
  let x3 ← sl b 0 6
  let x2 ← sl b 6 14
  let x1 ← sl b 14 22
  let x0 ← sl b 22 30
  return ⟨be x0, be x1, be x2, be48 x3⟩

/-- `/repo/uint256/conversion.go:431-438` `SetBytes31`. -/
def setBytes31 (b : List Byte) : Go U256 := do
  need b 30
  let x3 ← sl b 0 7
  let x2 ← sl b 7 15
  let x1 ← sl b 15 23
  let x0 ← sl b 23 31
  return ⟨be x0, be x1, be x2, be56 x3⟩

/-- `/repo/uint256/conversion.go:201-208` `SetBytes32`. -/
def setBytes32 (b : List Byte) : Go U256 := do
  need b 31
  let x3 ← sl b 0 8
  let x2 ← sl b 8 16
  let x1 ← sl b 16 24
  let x0 ← sl b 24 32
  return ⟨be x0, be x1, be x2, be x3⟩

/-- `/repo/uint256/uint256.go:30-100` `SetBytes`. -/
def setBytes (b : List Byte) : Go U256 :=
  match b.length with
  | 0 => .ok zero
  | 1 => setBytes1 b
  | 2 => setBytes2 b
  | 3 => setBytes3 b
  | 4 => setBytes4 b
  | 5 => setBytes5 b
  | 6 => setBytes6 b
  | 7 => setBytes7 b
  | 8 => setBytes8 b
  | 9 => setBytes9 b
  | 10 => setBytes10 b
  | 11 => setBytes11 b
  | 12 => setBytes12 b
  | 13 => setBytes13 b
  | 14 => setBytes14 b
  | 15 => setBytes15 b
  | 16 => setBytes16 b
  | 17 => setBytes17 b
  | 18 => setBytes18 b
  | 19 => setBytes19 b
  | 20 => setBytes20 b
  | 21 => setBytes21 b
  | 22 => setBytes22 b
  | 23 => setBytes23 b
  | 24 => setBytes24 b
  | 25 => setBytes25 b
  | 26 => setBytes26 b
  | 27 => setBytes27 b
  | 28 => setBytes28 b
  | 29 => setBytes29 b
  | 30 => setBytes30 b
  | 31 => setBytes31 b
  | l => setBytes32 (b.drop (l - 32))

/-- `binary.BigEndian.PutUint32` and `PutUint64`: the lowest `n` bytes of a word, most significant first. -/
def put (n : Nat) (w : Word) : List Byte := (List.range n).map fun j => (w >>> (8 * (n - 1 - j))).setWidth 8

/-- `/repo/uint256/uint256.go:103-111` `Bytes32`. -/
def bytes32 (z : U256) : List Byte := put 8 z.w3 ++ put 8 z.w2 ++ put 8 z.w1 ++ put 8 z.w0

/-- `/repo/uint256/uint256.go:114-121` `Bytes20`. -/
def bytes20 (z : U256) : List Byte := put 4 z.w2 ++ put 8 z.w1 ++ put 8 z.w0

/-- `/repo/uint256/uint256.go:124-127` `Bytes`. -/
def bytes (z : U256) : List Byte := (bytes32 z).drop (32 - z.byteLen)

/-- `byte(z[i/8] >> uint64(8*(i%8)))`, the expression of the write loops. -/
def byteOf (z : U256) (i : Nat) : Byte := (limb z (i / 8) >>> (8 * (i % 8))).setWidth 8

/-- `/repo/uint256/uint256.go:134-144` `WriteToSlice`: the slice after the call.  The loop writes distinct positions. -/
def writeToSlice (z : U256) (dest : List Byte) : List Byte :=
  let m := min dest.length 32
  ((List.range m).map fun j => byteOf z (m - 1 - j)) ++ dest.drop m

/-- `/repo/uint256/uint256.go:147-151` `WriteToArray32`. -/
def writeToArray32 (z : U256) : List Byte := (List.range 32).map fun j => byteOf z (31 - j)

/-- `/repo/uint256/uint256.go:154-158` `WriteToArray20`. -/
def writeToArray20 (z : U256) : List Byte := (List.range 20).map fun j => byteOf z (19 - j)

/-- `/repo/uint256/uint256.go:260-267` `PaddedBytes`: `n` bytes, position `n-1-i` is byte `i` for `i < 32`, zero otherwise. -/
def paddedBytes (z : U256) (n : Nat) : List Byte :=
  (List.range n).map fun j => if n - 1 - j < 32 then byteOf z (n - 1 - j) else 0

/-- `/repo/uint256/conversion.go:462-485` `EncodeRLP`: the bytes written for a non-nil number. -/
def encodeRLP (z : U256) : List Byte :=
  let nBits := z.bitLen
  if nBits = 0 then [0x80]
  else if nBits ≤ 7 then [z.w0.setWidth 8]
  else
    let nBytes := (nBits + 7) / 8
    let b := 0 :: bytes32 z
    (b.set (32 - nBytes) (BitVec.ofNat 8 (0x80 + nBytes))).drop (32 - nBytes)

end U256
end Uni
