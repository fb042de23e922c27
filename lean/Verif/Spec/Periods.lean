import Verif.Spec.Divergence
import Verif.Spec.Mark
import Verif.Spec.Executor
/-! # The periods between the rebalances of a strategy -/
namespace Uni
namespace Spec
open U256 Uni

/-- The time between two rebalances: what the strategy held and invested at the beginning, the square root prices at the beginning
and at the end, the positions it kept, and the fees they earned. -/
structure Period where
  capital : U256 × U256
  start : U256
  stop : U256
  positions : List StratPos
  fees0 : Nat
  fees1 : Nat

/-- What the capital would have gained by the change of the price alone, in token1. -/
def Period.drift (d : Period) : ℚ := valueOf d.stop d.capital - valueOf d.start d.capital
/-- The value of the fees at the end. -/
def Period.income (d : Period) : ℚ := value d.stop.toNat d.fees0 d.fees1
/-- The divergence loss of the positions. -/
def Period.loss (d : Period) : ℚ := divergences d.positions d.start.toNat d.stop.toNat
/-- The value of two units of each token per position. -/
def Period.rounding (d : Period) : ℚ := 2 * d.positions.length * unitPair d.stop.toNat

/-- A strategy that does not swap opens its positions with `c0` at the price `P0` and rebalances any number of times, with any
trades of others and price records in between: `ds` are the periods that are over, `m` is the ledger of the others, `s` the
strategy after its last investment and `c` what it held just before.  The amounts are below `2^255`, and no two positions share
a record. -/
inductive Periods (c0 : U256 × U256) (P0 : U256) : List Period → List Entry → Strat → U256 × U256 → Prop
  | first {m : List Entry} {s s' : Strat} (fuel : Nat) (hr : Runs m s) (hns : ∀ w, s.kind ≠ .swapHalf w)
      (hx : Invests fuel s c0 s') (hf : Fits m s') (hb : c0.1.toNat < 2 ^ 255 ∧ c0.2.toNat < 2 ^ 255) (hp : s'.pool.price = P0) :
      Periods c0 P0 [] m s' c0
  | next {ds : List Period} {m m' : List Entry} {s t s' : Strat} {c c' g : U256 × U256} (fuel : Nat) (h : Periods c0 P0 ds m s c)
      (hl : Later m s m' t) (hns : ∀ w, t.kind ≠ .swapHalf w) (hx : t.rebalance fuel = .ok (some c', s')) (hf : Fits m' s')
      (hb : c'.1.toNat < 2 ^ 255 ∧ c'.2.toNat < 2 ^ 255) (hg : t.getAmounts = .ok g)
      (ho : g.1.toNat + fees0 t.pool t.positions < 2 ^ 256 ∧ g.2.toNat + fees1 t.pool t.positions < 2 ^ 256)
      (hd : t.positions.Pairwise (fun q q' => Pool.posKey q.lower q.upper ≠ Pool.posKey q'.lower q'.upper)) :
      Periods c0 P0 (ds ++ [⟨c, s.pool.price, t.pool.price, s.positions, fees0 t.pool t.positions, fees1 t.pool t.positions⟩]) m' s' c'

/-- Market movement, plus fees, minus divergence losses. -/
def explained (ds : List Period) : ℚ := (ds.map (fun d => d.drift + d.income - d.loss)).sum
def slack (ds : List Period) : ℚ := (ds.map Period.rounding).sum

/-- The same in token0, the unit of the values a run records: what is worth `x` in token1 at the end of the period is worth
`x` divided by the price of that time. -/
def rate (P : U256) : ℚ := ((P.toNat : ℚ) / 2 ^ 96) ^ 2
def valueOf0 (P : U256) (c : U256 × U256) : ℚ := valueIn0 P.toNat c.1.toNat c.2.toNat
def Period.drift0 (d : Period) : ℚ := valueOf0 d.stop d.capital - valueOf0 d.start d.capital
def explained0 (ds : List Period) : ℚ := (ds.map (fun d => d.drift0 + d.income / rate d.stop - d.loss / rate d.stop)).sum
def slack0 (ds : List Period) : ℚ := (ds.map (fun d => d.rounding / rate d.stop)).sum

/-- At every rebalance among the events the strategy does not swap, its positions do not share a record, and the amounts are in
bounds. -/
def Ordinary (fuel : Nat) (s : Strat) (es : List Event) : Prop :=
  ∀ pre ev post s1 ws, es = pre ++ ev :: post → Trace fuel pre s ws s1 → ev = .rebalance →
    (∀ w, s1.kind ≠ .swapHalf w) ∧
    s1.positions.Pairwise (fun q q' => Pool.posKey q.lower q.upper ≠ Pool.posKey q'.lower q'.upper) ∧
    (∀ c s', s1.rebalance fuel = .ok (some c, s') → c.1.toNat < 2 ^ 255 ∧ c.2.toNat < 2 ^ 255) ∧
    (∀ g, s1.getAmounts = .ok g → g.1.toNat + fees0 s1.pool s1.positions < 2 ^ 256 ∧ g.2.toNat + fees1 s1.pool s1.positions < 2 ^ 256)

/-- The strategies that keep at most one position. -/
def OneRange : Kind → Prop
  | .constantInterval _ | .aroundPrice _ | .aroundAverage _ _ | .bollinger _ _ | .volatilitySized _ _ | .v2 | .noProvision => True
  | _ => False

end Spec
end Uni
