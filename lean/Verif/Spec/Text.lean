/-! Specifications for byte strings and hexadecimal text. -/
namespace Uni
namespace Spec

/-- The value of a big-endian byte string. -/
def beVal (l : List (BitVec 8)) : Nat := l.foldl (fun a b => 256 * a + b.toNat) 0

/-- The `n` byte big-endian encoding of `v` (of its lowest `8 n` bits). -/
def beBytes (n v : Nat) : List (BitVec 8) := (List.range n).map fun j => BitVec.ofNat 8 (v / 256 ^ (n - 1 - j))

/-- `l` is the shortest big-endian byte string with value `v`: no leading zero byte (empty for zero). -/
def Minimal (l : List (BitVec 8)) (v : Nat) : Prop := beVal l = v ∧ l.head? ≠ some 0

/-- RLP encoding of a byte string of at most 55 bytes: a single byte below 0x80 is its own encoding, anything else is
preceded by a byte 0x80 + length. -/
def rlpString (l : List (BitVec 8)) : List (BitVec 8) :=
  if l.length = 1 ∧ (l.headD 0).toNat < 128 then l else BitVec.ofNat 8 (0x80 + l.length) :: l

/-- Digit value of an ASCII character: `0-9`, `a-f`, `A-F`. -/
def hexDigit (c : BitVec 8) : Option Nat :=
  if 48 ≤ c.toNat ∧ c.toNat ≤ 57 then some (c.toNat - 48)
  else if 97 ≤ c.toNat ∧ c.toNat ≤ 102 then some (c.toNat - 87)
  else if 65 ≤ c.toNat ∧ c.toNat ≤ 70 then some (c.toNat - 55)
  else none

/-- The value of a string of hexadecimal digits; `none` if some character is not a digit. -/
def hexVal (ds : List (BitVec 8)) : Option Nat :=
  ds.foldl (fun a c => a.bind fun v => (hexDigit c).map fun d => 16 * v + d) (some 0)

/-- The texts `FromHex` is documented to accept, with their values: `0x` or `0X`, then 1 to 64 hexadecimal digits,
the first of which is `0` only if it is the only one. -/
def HexText (s : List (BitVec 8)) (v : Nat) : Prop :=
  ∃ x ds, s = 48 :: x :: ds ∧ (x = 120 ∨ x = 88) ∧ 1 ≤ ds.length ∧ ds.length ≤ 64 ∧
    (1 < ds.length → ds.head? ≠ some 48) ∧ hexVal ds = some v

/-- The lower-case character of a digit value. -/
def digitChar (d : Nat) : BitVec 8 := if d < 10 then BitVec.ofNat 8 (48 + d) else BitVec.ofNat 8 (87 + d)

/-- The lowest `n` hexadecimal digits of `v`, in lower case, most significant first. -/
def hexDigits (n v : Nat) : List (BitVec 8) := (List.range n).map fun j => digitChar (v / 16 ^ (n - 1 - j) % 16)

/-- The text of a string literal. -/
def ascii (s : String) : List (BitVec 8) := s.toList.map fun c => BitVec.ofNat 8 c.toNat

end Spec
end Uni
