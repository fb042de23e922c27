import Verif.Model.Strategy
import Verif.Spec.Solvency
import Verif.Spec.Growth
/-! # Vocabulary of the strategy properties -/
namespace Uni
namespace Spec
open U256 Uni

/-- Open positions as ledger entries. -/
def entries (ps : List StratPos) : List Entry := ps.map (fun q => ⟨q.lower, q.upper, q.amount.toNat⟩)

/-- All liquidity in the pool of a strategy: its own positions and the liquidity `m` of everybody else. -/
def book (m : List Entry) (s : Strat) : List Entry := entries s.positions ++ m

/-- What opening the positions costs at the price `P`: for each position the exact amount rounded up. -/
def cost0 (P : Nat) (ps : List StratPos) : Int := (ps.map (fun q => ⌈q.amount.toNat * holding0 P q.lower q.upper⌉)).sum
def cost1 (P : Nat) (ps : List StratPos) : Int := (ps.map (fun q => ⌈q.amount.toNat * holding1 P q.lower q.upper⌉)).sum

/-- What closing the positions pays at the price `P`, without fees: for each position the exact amount rounded down. -/
def worth0 (P : Nat) (ps : List StratPos) : Int := (ps.map (fun q => ⌊q.amount.toNat * holding0 P q.lower q.upper⌋)).sum
def worth1 (P : Nat) (ps : List StratPos) : Int := (ps.map (fun q => ⌊q.amount.toNat * holding1 P q.lower q.upper⌋)).sum

/-- The fees a position of the strategy has earned and not yet collected: what its record says is owed, and its share
of the growth inside its range since the record was last updated. -/
def pending0 (p : Pool) (l u : Int) : U256 :=
  match p.positions (Uni.Pool.posKey l u), p.ticks.getFeeGrowthInside l u p.tick p.growth0 p.growth1 with
  | some i, .ok g => add i.owed0 (share i.liquidity (sub g.1 i.inside0))
  | _, _ => zero
def pending1 (p : Pool) (l u : Int) : U256 :=
  match p.positions (Uni.Pool.posKey l u), p.ticks.getFeeGrowthInside l u p.tick p.growth0 p.growth1 with
  | some i, .ok g => add i.owed1 (share i.liquidity (sub g.2 i.inside1))
  | _, _ => zero
def fees0 (p : Pool) (ps : List StratPos) : Nat := (ps.map (fun q => (pending0 p q.lower q.upper).toNat)).sum
def fees1 (p : Pool) (ps : List StratPos) : Nat := (ps.map (fun q => (pending1 p q.lower q.upper).toNat)).sum

/-- One exact-input swap without price limit, or none, leads from the pool `p` to the pool `p'`; it takes `x0` and `x1`
(negative: pays out). -/
def SwapOf (p p' : Pool) (x0 x1 : Int) : Prop :=
  (x0 = 0 ∧ x1 = 0 ∧ p' = p) ∨
  ∃ fuel a t r0 r1, p.exactInputSwap fuel a t zero = .ok (r0, r1, p') ∧ x0 = r0.toInt ∧ x1 = r1.toInt

/-! ### Ranges -/

/-- `t` is the multiple of `unit` nearest to `x`; of two at the same distance, the one farther from zero. -/
def Nearest (unit x t : Int) : Prop := unit ∣ t ∧ 2 * |x - t| ≤ unit ∧ (2 * |x - t| = unit → |x| < |t|)
/-- `t` is the smallest multiple of `unit` not below `x`. -/
def NextUp (unit x t : Int) : Prop := unit ∣ t ∧ x ≤ t ∧ t < x + unit
/-- `t` is the largest multiple of `unit` not above `x`. -/
def NextDown (unit x t : Int) : Prop := unit ∣ t ∧ t ≤ x ∧ x < t + unit

/-- The range from `tick - width` to `tick + width`, both ends moved to the nearest multiple of `unit`. -/
def Centred (unit tick width : Int) (r : Int × Int) : Prop := Nearest unit (tick - width) r.1 ∧ Nearest unit (tick + width) r.2

/-- `t` is the tick of the price `P`. -/
def TickOf (P : Nat) (t : Int) : Prop := -887272 ≤ t ∧ t < 887272 ∧ tickPrice t ≤ P ∧ P < tickPrice (t + 1)

/-- The ticks of the prices `C - W` and `C + W`, cut off at the ends of the global range. -/
def BandOf (C W : Nat) (r : Int × Int) : Prop :=
  (if C < minPrice + W then r.1 = -887272 else TickOf (C - W) r.1) ∧
  (if maxPrice < C + W then r.2 = 887272 else TickOf (C + W) r.2)

/-- The half width of a band: the square root of `multiplier` times the volatility, scaled by `2^-10`. -/
def bandHalf (vol : U256) (multiplier : Int) : Nat := Nat.sqrt (vol.toNat * multiplier.toNat % 2 ^ 256 / 2 ^ 10)

/-- The band of the Bollinger strategies, around the square root of the average of the recorded squared prices. -/
def AverageBand (s : Strat) (multiplier : Int) (r : Int × Int) : Prop :=
  ∃ avg vol, s.history.average = .ok avg ∧ s.history.volatility = .ok vol ∧
    BandOf (Nat.sqrt avg.toNat) (bandHalf vol multiplier) r

/-- A range and what the fill-up strategies may add to it: the part above or the part below the current tick. -/
def Filled (unit tick : Int) (r : Int × Int) (rs : List (Int × Int)) : Prop :=
  rs = [r] ∨ (∃ c, NextUp unit tick c ∧ c < r.2 ∧ rs = [r, (c, r.2)]) ∨ (∃ f, NextDown unit tick f ∧ r.1 < f ∧ rs = [r, (r.1, f)])

/-- The ranges `Init` opens, as documented, at the current tick and with the current price history. -/
def InitRanges (s : Strat) (rs : List (Int × Int)) : Prop :=
  match s.kind with
  | .constantInterval w => ∃ r, Centred s.pool.spacing s.pool.tick w r ∧ rs = [r]
  | .aroundPrice w => ∃ r, Centred s.pool.spacing s.pool.tick w r ∧ rs = [r]
  | .twoInterval a b => ∃ r c f, Centred s.pool.spacing s.pool.tick a r ∧ NextUp s.pool.spacing s.pool.tick c ∧
      NextDown s.pool.spacing s.pool.tick f ∧ rs = [r, (c, c + b), (f - b, f)]
  | .aroundAverage w _ => ∃ avg t r, s.history.average = .ok avg ∧ TickOf (Nat.sqrt avg.toNat) t ∧ Centred s.pool.spacing t w r ∧ rs = [r]
  | .bollinger _ k => ∃ r, AverageBand s k r ∧ rs = [r]
  | .bollingerFillUp _ k => ∃ r, AverageBand s k r ∧ rs = [r]
  | .volatilitySized _ k => ∃ vol r, s.history.volatility = .ok vol ∧ BandOf s.pool.price.toNat (bandHalf vol k) r ∧ rs = [r]
  | .fillUp w => ∃ r, Centred s.pool.spacing s.pool.tick w r ∧ Filled s.pool.spacing s.pool.tick r rs
  | .limitOrder w => ∃ r c f, Centred s.pool.spacing s.pool.tick w r ∧ NextUp s.pool.spacing s.pool.tick c ∧
      NextDown s.pool.spacing s.pool.tick f ∧ rs = [r, (c, c + 10), (f - 10, f)]
  | .swapHalf w => ∃ r, Centred s.pool.spacing s.pool.tick w r ∧ rs = [r]
  | .v2 => rs = [(-887270, 887270)]
  | .noProvision => rs = []

/-- The ranges `Rebalance` opens: the same, except that the constant interval is the one recorded by `Init` and the
Bollinger fill-up strategy fills up. -/
def RebalanceRanges (s : Strat) (rs : List (Int × Int)) : Prop :=
  match s.kind with
  | .constantInterval _ => rs = [(s.tickLower, s.tickUpper)]
  | .bollingerFillUp _ k => ∃ r, AverageBand s k r ∧ Filled s.pool.spacing s.pool.tick r rs
  | _ => InitRanges s rs

/-- Parameters for which the tick rounding is exact and the multiplier fits in 64 bits. -/
def Kind.Sane : Kind → Prop
  | .constantInterval w => |w| ≤ 2 ^ 30
  | .aroundPrice w => |w| ≤ 2 ^ 30
  | .twoInterval a _ => |a| ≤ 2 ^ 30
  | .aroundAverage w _ => |w| ≤ 2 ^ 30
  | .bollinger _ k => 0 ≤ k ∧ k < 2 ^ 64
  | .bollingerFillUp _ k => 0 ≤ k ∧ k < 2 ^ 64
  | .volatilitySized _ k => 0 ≤ k ∧ k < 2 ^ 64
  | .fillUp w => |w| ≤ 2 ^ 30
  | .limitOrder w => |w| ≤ 2 ^ 30
  | .swapHalf w => |w| ≤ 2 ^ 30
  | .v2 => True
  | .noProvision => True

/-- The ranges of positions. -/
def ranges (ps : List StratPos) : List (Int × Int) := ps.map (fun q => (q.lower, q.upper))

/-- The total liquidity fits in 128 bits. -/
def Fits (m : List Entry) (s : Strat) : Prop := total (book m s) < 2 ^ 128

/-- What others may do to the pool of the strategy: mint, burn what they have minted, flash and swap, within the
limits of `PoolOp.Admissible`. -/
def PoolOp.ByOthers (m : List Entry) (s : Strat) : PoolOp → Prop
  | .mint _ _ a => total (book m s) + a.toNat < 2 ^ 128
  | .burn l u a => (a.toNat : Int) ≤ outstanding m l u ∧ 0 < outstanding m l u
  | .flash _ _ => True
  | .exactInput a t _ => a.toInt < 2 ^ 160 ∧ (t = s.pool.token0 → ClearAbove s.pool.spacing s.pool.tick (book m s))
  | .exactOutput a t _ => a.toInt < 2 ^ 160 ∧ (t = s.pool.token1 → ClearAbove s.pool.spacing s.pool.tick (book m s))
  | _ => False

/-- The swapping strategy only: the two tokens have different names, the balances it can swap are below `2^160` and the
downward tick search works in a pool with liquidity `h`. -/
def MaySwap (s : Strat) (c : U256 × U256) (h : List Entry) : Prop :=
  ∀ w, s.kind = .swapHalf w → s.pool.token0 ≠ s.pool.token1 ∧ c.1.toNat < 2 ^ 160 ∧ c.2.toNat < 2 ^ 160 ∧
    ClearAbove s.pool.spacing s.pool.tick h

/-- `Runs m s`: the strategy state `s` is reached from a new strategy on a new pool by calls of the strategy and by
operations of others on its pool, none of which panicked; `m` is the ledger of the others. -/
inductive Runs : List Entry → Strat → Prop
  | start {a b : String} {fee : Int} {price x0 x1 : U256} {p0 : Pool} {kind : Kind} {s : Strat}
      (hf : fee = 500 ∨ fee = 3000 ∨ fee = 10000) (hn : Pool.new a b fee price = .ok p0)
      (hs : Strat.new kind x0 x1 p0 = .ok s) : Runs [] s
  | trade {m : List Entry} {s : Strat} {p' : Pool} (fuel : Nat) (op : PoolOp) (hr : Runs m s)
      (ho : op.ByOthers m s) (hx : op.exec fuel s.pool = .ok p') : Runs (op.ledger m) { s with pool := p' }
  | snapshot {m : List Entry} {s s' : Strat} (hr : Runs m s) (hx : s.makeSnapshot = .ok s') : Runs m s'
  | init {m : List Entry} {s s' : Strat} {c : U256 × U256} (fuel : Nat) (hr : Runs m s)
      (hx : s.init fuel = .ok (c, s')) (hf : Fits m s') (hw : MaySwap s c (book m s)) : Runs m s'
  | rebalance {m : List Entry} {s s' : Strat} {c : Option (U256 × U256)} (fuel : Nat) (hr : Runs m s)
      (hx : s.rebalance fuel = .ok (c, s')) (hf : Fits m s') (hw : ∀ x, c = some x → MaySwap s x m) : Runs m s'
  | burnAll {m : List Entry} {s s' : Strat} {c : U256 × U256} (hr : Runs m s)
      (hx : s.burnAll = .ok (c, s')) (he : s'.positions = []) : Runs m s'

end Spec
end Uni
