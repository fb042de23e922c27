import Verif.Spec.Strategy
/-! # What the strategies buy -/
namespace Uni
namespace Spec
open U256 Uni LiquidityAmounts

/-- What a purchase needs: nothing in particular, a balance of token0, or a balance of token1. -/
inductive Needs where
  | nothing
  | token0
  | token1

/-- One step of a plan: put everything into the range from `lower` to `upper`, or one half of the liquidity that buys
(`half`); the step is left out if the balance it needs is zero. -/
structure Purchase where
  lower : Int
  upper : Int
  half : Bool
  needs : Needs

/-- The step is left out with the balances `x`. -/
def Purchase.Skipped (o : Purchase) (x : U256 × U256) : Prop :=
  match o.needs with
  | .nothing => False
  | .token0 => x.1.toNat = 0
  | .token1 => x.2.toNat = 0

def all (r : Int × Int) : Purchase := ⟨r.1, r.2, false, .nothing⟩

/-- `Buys P plan x ps y`: following the plan at the price `P` turns the balances `x` into the positions `ps` and leaves the
balances `y`.  The ends of a range are ticks of the global range, the liquidity is what `GetLiquidityForAmount` returns for the balances of the moment, a position of
liquidity zero is not opened, and a position costs its exact value rounded up. -/
inductive Buys (P : U256) : List Purchase → U256 × U256 → List StratPos → U256 × U256 → Prop
  | done (x : U256 × U256) : Buys P [] x [] x
  | skip {o : Purchase} {plan : List Purchase} {x y : U256 × U256} {ps : List StratPos}
      (hs : o.Skipped x) (h : Buys P plan x ps y) : Buys P (o :: plan) x ps y
  | step {o : Purchase} {plan : List Purchase} {x z y : U256 × U256} {ps : List StratPos} {a b A L : U256}
      (hs : ¬ o.Skipped x)
      (hv : (-887272 ≤ o.lower ∧ o.lower ≤ 887272) ∧ (-887272 ≤ o.upper ∧ o.upper ≤ 887272)) (ha : a.toNat = tickPrice o.lower) (hb : b.toNat = tickPrice o.upper)
      (hA : getLiquidityForAmount P a b x.1 x.2 = .ok A) (hL : L.toNat = if o.half then A.toNat / 2 else A.toNat)
      (h0 : (x.1.toNat : Int) = z.1.toNat + ⌈L.toNat * holding0 P.toNat o.lower o.upper⌉)
      (h1 : (x.2.toNat : Int) = z.2.toNat + ⌈L.toNat * holding1 P.toNat o.lower o.upper⌉)
      (h : Buys P plan z ps y) :
      Buys P (o :: plan) x ((if L.toNat = 0 then [] else [⟨L, o.lower, o.upper⟩]) ++ ps) y

/-- The two fill-up strategies: everything into the range; then what is left of token0 into the part of the range above
the tick, or, if no token0 is left, what is left of token1 into the part below. -/
def FillBuys (P : U256) (unit tick : Int) (r : Int × Int) (x : U256 × U256) (ps : List StratPos) (y : U256 × U256) : Prop :=
  ∃ c f ps1 ps2 z, NextUp unit tick c ∧ NextDown unit tick f ∧ ps = ps1 ++ ps2 ∧ Buys P [all r] x ps1 z ∧
    Buys P (if z.1.toNat ≠ 0 then (if c < r.2 then [all (c, r.2)] else [])
      else if z.2.toNat ≠ 0 then (if r.1 < f then [all (r.1, f)] else []) else []) z ps2 y

/-- What `Init` of the eleven strategies that do not swap buys with the balances `x`. -/
def InitBuys (s : Strat) (x : U256 × U256) (ps : List StratPos) (y : U256 × U256) : Prop :=
  match s.kind with
  | .twoInterval a b => ∃ r c f, Centred s.pool.spacing s.pool.tick a r ∧ NextUp s.pool.spacing s.pool.tick c ∧
      NextDown s.pool.spacing s.pool.tick f ∧
      Buys s.pool.price [all r, ⟨c, c + b, false, .token0⟩, ⟨f - b, f, false, .token1⟩] x ps y
  | .fillUp w => ∃ r, Centred s.pool.spacing s.pool.tick w r ∧ FillBuys s.pool.price s.pool.spacing s.pool.tick r x ps y
  | .limitOrder w => ∃ r c f, Centred s.pool.spacing s.pool.tick w r ∧ NextUp s.pool.spacing s.pool.tick c ∧
      NextDown s.pool.spacing s.pool.tick f ∧
      Buys s.pool.price [all r, ⟨c, c + 10, true, .token0⟩, ⟨f - 10, f, true, .token1⟩] x ps y
  | .noProvision => ps = [] ∧ y = x
  | _ => ∃ r, InitRanges s [r] ∧ Buys s.pool.price [all r] x ps y

/-- What `Rebalance` buys: the same, except that the constant interval is the one recorded by `Init` and the Bollinger
fill-up strategy fills up if the tick is in the band. -/
def RebalanceBuys (s : Strat) (x : U256 × U256) (ps : List StratPos) (y : U256 × U256) : Prop :=
  match s.kind with
  | .constantInterval _ => Buys s.pool.price [all (s.tickLower, s.tickUpper)] x ps y
  | .bollingerFillUp _ k => ∃ r, AverageBand s k r ∧
      if r.1 ≤ s.pool.tick ∧ s.pool.tick ≤ r.2 then FillBuys s.pool.price s.pool.spacing s.pool.tick r x ps y
      else Buys s.pool.price [all r] x ps y
  | _ => InitBuys s x ps y

/-- `n` of the token `t` are sold, if `n` is not zero: the pool `p` and the balances `x` become `p'` and `z`. -/
def Sells (fuel : Nat) (p p' : Pool) (n : Nat) (t : String) (x z : U256 × U256) : Prop :=
  if n = 0 then p' = p ∧ z = x
  else ∃ a r0 r1 : U256, a.toNat = n ∧ p.exactInputSwap fuel a t zero = .ok (r0, r1, p') ∧
    (x.1.toNat : Int) = z.1.toNat + r0.toInt ∧ (x.2.toNat : Int) = z.2.toNat + r1.toInt

/-- The swapping strategy: `d0` and `d1` are what a position in the range around the tick would leave of the balances; one
half of `d0` is sold if `512 * d0` exceeds `d1`, one half of `d1` otherwise; then everything goes into the range, at the
new price.  `p'` is the pool after the swap. -/
def SwapBuys (fuel : Nat) (s : Strat) (w : Int) (p' : Pool) (x : U256 × U256) (ps : List StratPos) (y : U256 × U256) : Prop :=
  ∃ r a b L u z, ∃ d0 d1 : Nat, Centred s.pool.spacing s.pool.tick w r ∧ a.toNat = tickPrice r.1 ∧ b.toNat = tickPrice r.2 ∧
    getLiquidityForAmount s.pool.price a b x.1 x.2 = .ok L ∧ getAmountsForLiquidity s.pool.price a b L = .ok u ∧
    x.1.toNat = d0 + u.1.toNat ∧ x.2.toNat = d1 + u.2.toNat ∧
    (if d1 < 512 * d0 then Sells fuel s.pool p' (d0 / 2) s.pool.token0 x z else Sells fuel s.pool p' (d1 / 2) s.pool.token1 x z) ∧
    Buys p'.price [all r] z ps y

/-- What matters to a strategy that does not swap, apart from its balances: its kind, recorded interval and price history,
and the fee, the price and the tick of the pool.  Nothing is said about the liquidity, the ticks and the records of the
pool. -/
structure Alike (s t : Strat) : Prop where
  kind : s.kind = t.kind
  tickLower : s.tickLower = t.tickLower
  tickUpper : s.tickUpper = t.tickUpper
  history : s.history = t.history
  fee : s.pool.fee = t.pool.fee
  price : s.pool.price = t.pool.price
  tick : s.pool.tick = t.pool.tick

end Spec
end Uni
