/-! # Specification vocabulary: plain natural-number arithmetic (no model definitions) -/
namespace Uni
namespace Spec

/-- Ceiling division; `ceilDiv n 0 = 0`. -/
def ceilDiv (n d : Nat) : Nat := (n + d - 1) / d

/-- Number of 64-bit words needed to write `n` (0 for 0). -/
def words (n : Nat) : Nat := if n = 0 then 0 else Nat.log2 n / 64 + 1

end Spec
end Uni
