import Verif.Proofs.Solvency
import Verif.Props.Pool
/-! # C37: solvency -/
namespace Uni
namespace Props
open U256 Spec TickData TickMath FullMath Pool

/-- C37: after any history of admissible operations, none of which sells token0 at a tick where the downward tick search
is broken, the tokens paid in minus the tokens paid out cover the principal of all outstanding positions at the current
price, for both tokens; in particular they are never negative. -/
theorem C37_solvent (a b : String) (fee : Int) (price : U256) (p0 : Pool) (hf : fee = 500 ∨ fee = 3000 ∨ fee = 10000)
    (hn : Pool.new a b fee price = .ok p0) (h : List Entry) (p : Pool) (b0 b1 : Int) (hb : Books p0 h p b0 b1) :
    principal0 h p.price.toNat ≤ b0 ∧ principal1 h p.price.toNat ≤ b1 ∧ 0 ≤ b0 ∧ 0 ≤ b1 := by
  obtain ⟨hi, _, e0, e1⟩ := books_inv (new_inv hf hn).1 hb
  have n0 : 0 ≤ principal0 h p.price.toNat := wsum_nonneg hi.cov.nonneg (fun _ _ _ => holding_nonneg.1)
  have n1 : 0 ≤ principal1 h p.price.toNat := wsum_nonneg hi.cov.nonneg (fun _ _ _ => holding_nonneg.2)
  exact ⟨e0, e1, by exact_mod_cast n0.trans e0, by exact_mod_cast n1.trans e1⟩

/-- Two mints, a swap of token1 that crosses a tick and a swap of token0 back: 26852 and 6009 tokens are left; the
principal of token1 is above 5981. -/
theorem demo_books : Books Demo.p0 Demo.h3 Demo.p4 26852 6009 := by
  have k1 := Books.step 10 Demo.op1 .start Demo.a1 trivial
    (demo_mintStrategy (p := Demo.p0) (q := Demo.p1) (i := ⟨ofNat 1000000, zero, zero, zero, zero⟩) (by decide +kernel) (by decide +kernel) rfl)
  have k2 := Books.step 10 Demo.op2 k1 Demo.a2 trivial (demo_mint (q := Demo.p2) (by decide +kernel) rfl)
  have k3 := Books.step 10 Demo.op3 k2 Demo.a3 (fun h => absurd h (by decide +kernel)) (demo_swap (q := Demo.p3) (by decide +kernel) rfl)
  have k4 := Books.step 10 Demo.op4 k3 Demo.a4 (fun _ => Demo.good93) (demo_swap (q := Demo.p4) (by decide +kernel) rfl)
  have e0 : (0 : Int) + (PoolOp.flow 10 Demo.p0 Demo.op1).1 + (PoolOp.flow 10 Demo.p1 Demo.op2).1 + (PoolOp.flow 10 Demo.p2 Demo.op3).1 +
    (PoolOp.flow 10 Demo.p3 Demo.op4).1 = 26852 := by decide +kernel
  have e1 : (0 : Int) + (PoolOp.flow 10 Demo.p0 Demo.op1).2 + (PoolOp.flow 10 Demo.p1 Demo.op2).2 + (PoolOp.flow 10 Demo.p2 Demo.op3).2 +
    (PoolOp.flow 10 Demo.p3 Demo.op4).2 = 6009 := by decide +kernel
  rw [e0, e1] at k4
  exact k4

example : Books Demo.p0 Demo.h3 Demo.p4 26852 6009 ∧ 5981 < principal1 Demo.h3 Demo.p4.price.toNat :=
  ⟨demo_books, by decide +kernel⟩

private theorem demo_broken : isOk (PoolOp.exec 10 Demo.b1 (.exactInput (ofNat 100) "WETH" zero)) = true := by decide +kernel

/-- C37: without that restriction the claim is false: selling 100 token0 at tick -8 (spacing 60) raises the price, so the
positions need more token1, but 99 token1 are paid out. -/
theorem C37_broken : ∃ (p0 : Pool) (h : List Entry) (p p' : Pool) (b0 b1 : Int) (op : PoolOp),
    Pool.new "WETH" "USDC" 3000 (ofNat 79200000000000000000000000000) = .ok p0 ∧ Books p0 h p b0 b1 ∧
    op.Admissible p h ∧ op.exec 10 p = .ok p' ∧
    ((b1 + (op.flow 10 p).2 : Int) : ℚ) + 190 < principal1 (op.ledger h) p'.price.toNat := by
  have k1 := Books.step 10 Demo.op1 .start Demo.a1 trivial
    (demo_mintStrategy (p := Demo.b0) (q := Demo.b1) (i := ⟨ofNat 1000000, zero, zero, zero, zero⟩) (by decide +kernel) (by decide +kernel) rfl)
  refine ⟨Demo.b0, _, Demo.b1, getOk _ demo_broken, _, _, .exactInput (ofNat 100) "WETH" zero, Demo.nb, k1,
    ⟨by decide +kernel, fun _ => clear_aligned (by decide +kernel) Demo.aligned1⟩, eq_getOk _ _, ?_⟩
  decide +kernel

end Props
end Uni
