import Verif.Spec.Narrow
/-! # A range and its parts -/
namespace Uni
namespace Spec

/-- Three positions with the same liquidity `L` in one pool: in the pool `p` (ledger `h`) somebody opens a position on the range
from `l` to `u`, then one on its lower part from `l` to `m` and one on its upper part from `m` to `u`, none of which has been
used before.  After that anybody does anything, except that nobody touches the three positions.  This leads to the pool `p'`. -/
def WholeAndParts (h : List Entry) (p : Pool) (l m u : Int) (L : U256) (p' : Pool) : Prop :=
  p.positions (Pool.posKey l u) = none ∧ p.positions (Pool.posKey l m) = none ∧ p.positions (Pool.posKey m u) = none ∧
  Pool.posKey l u ≠ Pool.posKey l m ∧ Pool.posKey l u ≠ Pool.posKey m u ∧ Pool.posKey l m ≠ Pool.posKey m u ∧
  total h + 3 * L.toNat < 2 ^ 128 ∧
  ∃ a0 a1 b0 b1 c0 c1 p1 p2 p3 log h', p.mintStrategy l u L = .ok (a0, a1, p1) ∧ p1.mintStrategy l m L = .ok (b0, b1, p2) ∧
    p2.mintStrategy m u L = .ok (c0, c1, p3) ∧
    Evolves (fun op => op.LeavesAlone l u ∧ op.LeavesAlone l m ∧ op.LeavesAlone m u) (fun _ => True)
      (⟨m, u, L.toNat⟩ :: ⟨l, m, L.toNat⟩ :: ⟨l, u, L.toNat⟩ :: h) p3 log h' p'

end Spec
end Uni
