import Verif.Spec.Invest
import Verif.Spec.Total
/-! # When the strategies can open their positions -/
namespace Uni
namespace Spec
open U256 Uni LiquidityAmounts _root_.Uni.Pool

/-- The liquidity and the fee growths of the record used for the range `[l, u)` after positions have been opened in the
pool `p`, the last one first.  A record is shared by all ranges with the same key; opening a position adds its liquidity
to the record and stores the growths inside the range of the position. -/
def recordAfter (p : Pool) (l u : Int) : List StratPos → U256 × U256 × U256
  | [] => ((recordOf p (l, u)).liquidity, (recordOf p (l, u)).inside0, (recordOf p (l, u)).inside1)
  | q :: earlier =>
    if posKey q.lower q.upper = posKey l u then (add (recordAfter p l u earlier).1 q.amount, insideOf p q.lower q.upper)
    else recordAfter p l u earlier

/-- One more position can be opened in the pool `p` after the positions `done`, the last one first: its range is valid, its
token0 amount can be computed, and so can the fees earned on the record. -/
def OpensNext (p : Pool) (done : List StratPos) (q : StratPos) : Prop :=
  ValidRange q.lower q.upper ∧
  ¬ Unpriceable (clamp p.price.toNat (tickPrice q.lower) (tickPrice q.upper)) (tickPrice q.upper) q.amount.toNat ∧
  Payable (recordAfter p q.lower q.upper done).1 (sub (insideOf p q.lower q.upper).1 (recordAfter p q.lower q.upper done).2.1) ∧
  Payable (recordAfter p q.lower q.upper done).1 (sub (insideOf p q.lower q.upper).2 (recordAfter p q.lower q.upper done).2.2)

/-- The positions can be opened one after another. -/
def OpensAfter (p : Pool) : List StratPos → List StratPos → Prop
  | _, [] => True
  | done, q :: qs => OpensNext p done q ∧ OpensAfter p (q :: done) qs

def Openable (p : Pool) (ps : List StratPos) : Prop := OpensAfter p [] ps

/-- Everything in the pool of the strategy, with `ps` in addition, is less than `2^128`. -/
def FitsWith (m : List Entry) (s : Strat) (ps : List StratPos) : Prop := total (entries (s.positions ++ ps) ++ m) < 2 ^ 128

/-- `Init` of these two strategies panics if there is nothing to open. -/
def MustOpen (k : Kind) : Prop := (∃ w, k = .constantInterval w) ∨ (∃ w, k = .aroundPrice w)

/-- The quotient of `n` and `d` cannot be computed: `n` is at least five words longer than `d`. -/
def TooLong (n d : Nat) : Prop := ∃ k, d < 2 ^ (64 * k) ∧ 2 ^ (64 * (k + 4)) ≤ n

/-- The liquidity that the amounts `x0` and `x1` buy at the price `P` between the prices `A < B` can be computed. -/
def Fundable (P A B x0 x1 : Nat) : Prop :=
  if P ≤ A then ¬ TooLong (x0 * (A * B / 2 ^ 96)) (B - A)
  else if P < B then ¬ TooLong (x0 * (P * B / 2 ^ 96)) (B - P) ∧ ¬ TooLong (x1 * 2 ^ 96) (P - A)
  else ¬ TooLong (x1 * 2 ^ 96) (B - A)

end Spec
end Uni
