/-! Specification of decimal texts. -/
namespace Uni
namespace Spec

/-- Positional value of a string of decimal digits. -/
def decSum : List Char → Nat
  | [] => 0
  | c :: cs => (c.toNat - '0'.toNat) * 10 ^ cs.length + decSum cs

/-- `ds` is a non-empty string of the characters `0` to `9` and its value is `n`. -/
def DecDigits (ds : List Char) (n : Nat) : Prop :=
  ds ≠ [] ∧ (∀ c ∈ ds, '0'.toNat ≤ c.toNat ∧ c.toNat ≤ '9'.toNat) ∧ decSum ds = n

/-- `s` is a decimal text, perhaps with a sign, and its value is `b`. -/
def DecText (s : String) (b : Int) : Prop :=
  ∃ ds n, DecDigits ds n ∧
    ((s.toList = ds ∧ b = n) ∨ (s.toList = '+' :: ds ∧ b = n) ∨ (s.toList = '-' :: ds ∧ b = -n))

/-- `s` is the usual decimal text of `b`: a minus sign exactly when `b` is negative, no leading zeros. -/
def DecCanonical (s : String) (b : Int) : Prop :=
  ∃ ds, DecDigits ds b.natAbs ∧ s.toList = (if b < 0 then '-' :: ds else ds) ∧ (1 < ds.length → ds.head? ≠ some '0')

end Spec
end Uni
