import Verif.Spec.Value
/-! # The loss of a position against its tokens -/
namespace Uni
namespace Spec
open U256 Uni

/-- What a range with liquidity `L` between the square root prices `A / 2^96` and `B / 2^96` is worth less than the tokens it
consisted of at the price `P`, when the price is `Q`, in token1.  With `c` and `d` the points of the range next to `P` and
`Q`, this is `L * (c - d) * (c * d - Q^2) / (c * d)`, in units of `2^96`. -/
def divergence (A B L P Q : Nat) : ℚ :=
  L * (((clamp P A B : Nat) - (clamp Q A B : Nat) : ℚ) * ((clamp P A B : Nat) * (clamp Q A B : Nat) - (Q : ℚ) ^ 2)) /
    ((clamp P A B : Nat) * (clamp Q A B : Nat) * 2 ^ 96)

/-- The same for all positions of a strategy together. -/
def divergences (ps : List StratPos) (P Q : Nat) : ℚ :=
  (ps.map (fun q => divergence (tickPrice q.lower) (tickPrice q.upper) q.amount.toNat P Q)).sum

/-- The value of one unit of each token. -/
def unitPair (P : Nat) : ℚ := value P 1 1

end Spec
end Uni
