/-! # Decimal texts of `math/big` -/
namespace Uni

namespace Dec

/-- The character of a decimal digit (library `math/big`, used by `/repo/lib/transaction/transaction.go:37-72` and
`/repo/main.go:222,317-322`). -/
def digit (d : Nat) : Char := Char.ofNat (48 + d)

/-- Decimal text of a natural number (same use). -/
def digits (n : Nat) : List Char := if n < 10 then [digit n] else digits (n / 10) ++ [digit (n % 10)]
termination_by n
decreasing_by omega

/-- `(*big.Int).String()`, called at `/repo/lib/transaction/transaction.go:42-61` and `/repo/main.go:222`. -/
def bigString (b : Int) : String :=
  String.ofList (if b < 0 then '-' :: digits b.natAbs else digits b.natAbs)

/-- The digits of a number in base 10: at least one, no other characters (part of `SetString`, `/repo/main.go:319`). -/
def scanDigits : List Char → Option Nat
  | [] => none
  | cs => cs.foldl (fun acc c => acc.bind fun a => if '0' ≤ c ∧ c ≤ '9' then some (10 * a + (c.toNat - 48)) else none) (some 0)

/-- `(*big.Int).SetString(s, 10)`: an optional sign, then decimal digits; `none` if it fails
(`/repo/main.go:319`). -/
def setString (s : String) : Option Int :=
  match s.toList with
  | '-' :: cs => (scanDigits cs).map fun n => -Int.ofNat n
  | '+' :: cs => (scanDigits cs).map Int.ofNat
  | cs => (scanDigits cs).map Int.ofNat

end Dec

end Uni
