import Verif.Spec.Growth
/-! # What a position has earned -/
namespace Uni
namespace Spec

/-- Closing the position, that is burning its liquidity `L` and collecting, pays the fees `f0` and `f1` on top of the
burned principal. -/
def Earns (p : Pool) (l u : Int) (L f0 f1 : U256) : Prop :=
  ∃ b0 b1 q c0 c1 q', p.burnStrategy l u L = .ok (b0, b1, q) ∧ q.collectStrategy l u = .ok (c0, c1, q') ∧
    c0 = U256.add b0 f0 ∧ c1 = U256.add b1 f1

/-- The tick of the pool is in the range from `l` to `u`. -/
def TickIn (l u : Int) (p : Pool) : Prop := l ≤ p.tick ∧ p.tick < u

/-- Two positions side by side: in the pool `p` (ledger `h`) somebody opens a position with liquidity `L` on the range from `l` to
`u`, then one with liquidity `M` on the range from `m` to `v`, neither of which has been used before.  After that anybody does
anything, except that nobody touches the two positions, and the tick stays in both ranges.  This leads to the pool `p'`; `g0` and
`g1` are the increases of the fee growths of the pool since the positions are open. -/
def SideBySide (h : List Entry) (p : Pool) (l u : Int) (L : U256) (m v : Int) (M : U256) (p' : Pool) (g0 g1 : U256) : Prop :=
  p.positions (Pool.posKey l u) = none ∧ p.positions (Pool.posKey m v) = none ∧ Pool.posKey l u ≠ Pool.posKey m v ∧
  total h + L.toNat + M.toNat < 2 ^ 128 ∧
  ∃ a0 a1 b0 b1 p1 p2 log h', p.mintStrategy l u L = .ok (a0, a1, p1) ∧ p1.mintStrategy m v M = .ok (b0, b1, p2) ∧
    Evolves (fun op => op.LeavesAlone l u ∧ op.LeavesAlone m v) (fun q => TickIn l u q ∧ TickIn m v q)
      (⟨m, v, M.toNat⟩ :: ⟨l, u, L.toNat⟩ :: h) p2 log h' p' ∧
    g0 = U256.sub p'.growth0 p.growth0 ∧ g1 = U256.sub p'.growth1 p.growth1

end Spec
end Uni
