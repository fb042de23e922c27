import Verif.Spec.Invest
/-! # Vocabulary for purchases with more money -/
namespace Uni
namespace Spec
open U256 Uni

/-- The liquidity that the amounts `x0` and `x1` buy at the price `p` in the range between the prices `a` and `b` fits in
256 bits, token by token: `P` is the price clamped into the range, token0 is needed between `P` and the upper end, token1
between the lower end and `P`. -/
structure Room (p a b x0 x1 : Nat) : Prop where
  price : clamp p (min a b) (max a b) * max a b / 2 ^ 96 < 2 ^ 256
  token0 : x0 * (clamp p (min a b) (max a b) * max a b / 2 ^ 96) / (max a b - clamp p (min a b) (max a b)) < 2 ^ 256
  token1 : x1 * 2 ^ 96 / (clamp p (min a b) (max a b) - min a b) < 2 ^ 256

/-- `Init` put everything the strategy `s` owned into the range `r` first, which bought the liquidity `L`. -/
def OpensFirst (s s' : Strat) (r : Int × Int) (L : U256) : Prop :=
  if L.toNat = 0 then True else ∃ more, s'.positions = s.positions ++ ⟨L, r.1, r.2⟩ :: more

end Spec
end Uni
