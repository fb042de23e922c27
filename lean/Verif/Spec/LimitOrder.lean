import Verif.Spec.Invest
/-! # What the limit order strategy reports -/
namespace Uni
namespace Spec
open U256 Uni LiquidityAmounts

/-- The state before, the balances `x` to invest, the new positions `ps`, the balances left over `y`, and the limit tick and
direction reported before (`t`, `d`) and after (`t'`, `d'`).  First everything goes into the range around the tick, which
leaves `z1`.  With token0 left, an order above the tick follows, which leaves `z2`; with token1 left after that, an order
below the tick.  The reported tick is the far end of the last order placed, the direction says on which side it is. -/
def LimitReport (s : Strat) (w : Int) (x : U256 × U256) (ps : List StratPos) (y : U256 × U256) (t t' : Int) (d d' : Bool) : Prop :=
  ∃ r c f ps1 ps2 ps3 z1 z2, Centred s.pool.spacing s.pool.tick w r ∧ NextUp s.pool.spacing s.pool.tick c ∧
    NextDown s.pool.spacing s.pool.tick f ∧ ps = ps1 ++ ps2 ++ ps3 ∧
    Buys s.pool.price [all r] x ps1 z1 ∧
    Buys s.pool.price [⟨c, c + 10, true, .token0⟩] z1 ps2 z2 ∧
    Buys s.pool.price [⟨f - 10, f, true, .token1⟩] z2 ps3 y ∧
    (z2.2.toNat ≠ 0 → t' = f - 10 ∧ d' = false) ∧
    (z2.2.toNat = 0 → z1.1.toNat ≠ 0 → t' = c + 10 ∧ d' = true) ∧
    (z2.2.toNat = 0 → z1.1.toNat = 0 → t' = t ∧ d' = d)

end Spec
end Uni
