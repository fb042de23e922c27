import Verif.Proofs.Fund
import Verif.Props.Invest
/-! # C87: when the strategies can open their positions -/
namespace Uni
namespace Props
open U256 Spec TickData TickMath SwapMath FullMath SqrtPriceMath LiquidityAmounts Pool

/-- C87, `Init`: it returns, leaving less than `2^128` in the pool, exactly if the documented plan can be followed, the
positions it prescribes can be opened, they fit, and there is one if the strategy must open one. -/
theorem C87_init {m : List Entry} {s : Strat} (hr : Runs m s) (fuel : Nat) (hs : Kind.Sane s.kind) (hns : ∀ w, s.kind ≠ .swapHalf w) :
    (∃ c s', s.init fuel = .ok (c, s') ∧ Fits m s') ↔
      ∃ ps y, InitBuys s (s.amount0, s.amount1) ps y ∧ Openable s.pool ps ∧ FitsWith m s ps ∧ (MustOpen s.kind → ps ≠ []) := by
  have ho := Strat.runs_owns hr
  have hst : Strat.Stands m s.pool [] s := ⟨ho, Strat.Carried.refl _⟩
  constructor
  · rintro ⟨c, s', hx, hf⟩
    obtain ⟨h1, rfl⟩ := Strat.init_eq hx
    obtain ⟨new, g, k⟩ := Strat.openFirst_invests m hns h1
    have hf' : FitsWith m s new := by
      unfold Fits book at hf
      rw [g.pos] at hf
      exact hf
    refine ⟨new, _, k ho.ready hs ho hf, (Strat.after g (Strat.openFirst_minted hns h1) hst hf').1, hf', fun hm e => ?_⟩
    refine Strat.openFirst_must hm h1 ?_
    rw [g.pos, e, List.append_nil]
  · rintro ⟨ps, y, hb, hop, hf, hm⟩
    obtain ⟨s', h1, h2⟩ := Strat.openFirst_returns fuel ho.ready hs hns s.pool [] ps y hst ⟨hb, hm⟩ hop hf
    refine ⟨(s.amount0, s.amount1), s', ?_, ?_⟩
    · unfold Strat.init
      rw [h1]
      rfl
    · unfold Fits book
      rw [h2]
      exact hf

/-- C87, `Rebalance`: it needs `BurnAll`. -/
theorem C87_rebalance_needs {s s' : Strat} {fuel : Nat} {c : U256 × U256} (hx : s.rebalance fuel = .ok (some c, s')) :
    ∃ s1, s.burnAll = .ok (c, s1) := by
  rcases Strat.rebalance_eq hx with ⟨_, h, _⟩ | ⟨hnp, c0, s1, h1, h2, he⟩
  · cases h
  · cases he
    exact Strat.burnAll_of_close hnp h1

/-- C87, `Rebalance`: after a `BurnAll` that returns, it returns exactly if the plan can be followed with the balances
after closing and its positions can be opened in the pool after closing. -/
theorem C87_rebalance {m : List Entry} {s s1 : Strat} {c : U256 × U256} (hr : Runs m s) (fuel : Nat) (hs : Kind.Sane s.kind)
    (hns : ∀ w, s.kind ≠ .swapHalf w) (hnp : s.kind ≠ .noProvision) (hb : s.burnAll = .ok (c, s1)) :
    (∃ s', s.rebalance fuel = .ok (some c, s') ∧ Fits m s') ↔
      ∃ ps y, RebalanceBuys s c ps y ∧ Openable s1.pool ps ∧ total (entries ps ++ m) < 2 ^ 128 := by
  obtain ⟨t, h1, hp⟩ := Strat.close_of_burnAll hnp hb
  obtain ⟨o, e, _, hk, hh, hl, hu, hst, hc⟩ := Strat.closed_owns (Strat.runs_owns hr) h1
  have hst' : Strat.Stands m t.pool [] t := ⟨o, Strat.Carried.refl _⟩
  rw [hp]
  have hns' : ∀ w, t.kind ≠ .swapHalf w := fun w => by rw [hk]; exact hns w
  constructor
  · rintro ⟨s', hx, hf⟩
    rcases Strat.rebalance_eq hx with ⟨_, h, _⟩ | ⟨_, c0, s2, k1, k2, he⟩
    · cases h
    cases he
    rw [h1] at k1
    cases k1
    obtain ⟨new, g, k⟩ := Strat.openAgain_invests m hns' k2
    have hf' : FitsWith m t new := by
      unfold Fits book at hf
      rw [g.pos] at hf
      exact hf
    have hb := k o.ready (hk ▸ hs) o hf
    rw [← hc] at hb
    refine ⟨new, _, Strat.rebalanceBuys_congr hk hh hl hu hst hb, (Strat.after g (Strat.openAgain_minted hns' k2) hst' hf').1, ?_⟩
    unfold FitsWith at hf'
    rw [e] at hf'
    exact hf'
  · rintro ⟨ps, y, hb, hop, hf⟩
    have hf' : FitsWith m t ps := by
      unfold FitsWith
      rw [e]
      exact hf
    have hb := Strat.rebalanceBuys_back hk hh hl hu hst hb
    rw [hc] at hb
    obtain ⟨s', k1, k2⟩ := Strat.openAgain_returns fuel o.ready (hk ▸ hs) hns' t.pool [] ps y hst' hb hop hf'
    refine ⟨s', ?_, ?_⟩
    · rw [Strat.rebalance_of_close hnp h1, k1]
      rfl
    · unfold Fits book
      rw [k2]
      exact hf'

/-- C87, `GetLiquidityForAmount` for two ticks returns exactly if no quotient is too long. -/
theorem C87_liquidity {l u : Int} (hv : ValidRange l u) {a b : U256} (ha : a.toNat = tickPrice l) (hb : b.toNat = tickPrice u)
    (P x0 x1 : U256) : (∃ L, getLiquidityForAmount P a b x0 x1 = .ok L) ↔ Fundable P.toNat (tickPrice l) (tickPrice u) x0.toNat x1.toNat := by
  obtain ⟨hlu, hl, hu⟩ := hv
  have b1 := Strat.tickPrice_bounds hl (by omega : l ≤ 887272)
  have b2 := Strat.tickPrice_bounds (by omega : -887272 ≤ u) hu
  have hab : tickPrice l < tickPrice u := Strat.tickPrice_strict hl hlu hu
  rw [← ha, ← hb]
  exact Strat.liquidity_returns (by omega) (by omega) (by omega)

/-- C87: it returns for all token0 amounts below `2^96` and token1 amounts below `2^224`. -/
theorem C87_small {l u : Int} (hv : ValidRange l u) (P : Nat) {x0 x1 : Nat} (h0 : x0 < 2 ^ 96) (h1 : x1 < 2 ^ 224) :
    Fundable P (tickPrice l) (tickPrice u) x0 x1 :=
  Strat.fundable_small (Strat.tickPrice_strict hv.2.1 hv.1 hv.2.2)
    (Strat.tickPrice_bounds (by have := hv.1; have := hv.2.1; omega) hv.2.2).2 h0 h1

/-- C87: every plan of valid ranges can be followed with such balances. -/
theorem C87_plan (P : U256) {plan : List Purchase} {x : U256 × U256} (hv : ∀ o ∈ plan, ValidRange o.lower o.upper)
    (h0 : x.1.toNat < 2 ^ 96) (h1 : x.2.toNat < 2 ^ 224) : ∃ ps y, Buys P plan x ps y := by
  obtain ⟨ps, y, h, _⟩ := Strat.plan_exists P plan x hv h0 h1
  exact ⟨ps, y, h⟩

/-- C87: where no record holds liquidity, positions with different records, or of at least `2^64`, can be opened exactly if
every one has a valid range and a token0 amount that can be computed. -/
theorem C87_fresh {p : Pool} {ps : List StratPos} (h0 : ∀ l u, (recordOf p (l, u)).liquidity = zero)
    (ht : total (entries ps) < 2 ^ 128)
    (h : ps.Pairwise (fun q q' => posKey q.lower q.upper ≠ posKey q'.lower q'.upper) ∨ ∀ q ∈ ps, 2 ^ 64 ≤ q.amount.toNat) :
    Openable p ps ↔ ∀ q ∈ ps, ValidRange q.lower q.upper ∧
      ¬ Unpriceable (clamp p.price.toNat (tickPrice q.lower) (tickPrice q.upper)) (tickPrice q.upper) q.amount.toNat :=
  Strat.opens_fresh h0 ht h

/-- C87: no record holds liquidity while the strategy has no position. -/
theorem C87_empty {m : List Entry} {s : Strat} (hr : Runs m s) (he : s.positions = []) (l u : Int) :
    (recordOf s.pool (l, u)).liquidity = zero := by
  rw [← Strat.liqAt_record, Strat.runs_liq hr, he]
  rfl

/-- C87: no record holds liquidity after `BurnAll`. -/
theorem C87_closed {m : List Entry} {s s1 : Strat} {c : U256 × U256} (hr : Runs m s) (hb : s.burnAll = .ok (c, s1)) (l u : Int) :
    (recordOf s1.pool (l, u)).liquidity = zero := by
  rw [← Strat.liqAt_record]
  rcases Strat.burnAll_eq hb with ⟨hk, _, rfl⟩ | ⟨t, h1, _, h2⟩
  · rw [Strat.runs_liq hr, Strat.runs_idle hr hk]; rfl
  · have e2 := Strat.burnLoop_liq h1 (posKey l u)
    rw [Strat.runs_liq hr] at e2
    have e3 := Strat.zero_of_self e2
    rcases h2 with rfl | rfl <;> exact e3

/-- C87: the token0 amount can be computed for every range whose upper price is at most `2^128`. -/
theorem C87_price {P A B L : Nat} (h : B ≤ 2 ^ 128) : ¬ Unpriceable (clamp P A B) B L := by
  rintro ⟨h1, h2, _⟩
  omega

/-! ### Concrete runs -/

namespace StartDemo
open StratDemo TotalDemo

/-- The fill-up run before its `Rebalance`. -/
def k3 : (U256 × U256) × Strat := getOk f3.burnAll (by decide +kernel)

/-- Strategies with nothing to invest. -/
def n0 : Strat := getOk (Strat.new (.constantInterval 120) zero zero Demo.p0) (by decide +kernel)
def n1 : Strat := getOk (Strat.new (.fillUp 120) zero zero Demo.p0) (by decide +kernel)
/-- A range outside the global range. -/
def w0 : Strat := getOk (Strat.new (.constantInterval 1000000) (ofNat 1000000) (ofNat 2000000) Demo.p0) (by decide +kernel)
/-- One unit of token0 and a little token1 just below the price of tick 700080. -/
def h0 : Strat := getOk (Strat.new (.constantInterval 30) (ofNat 1) (ofNat (2 ^ 43)) high) (by decide +kernel)
def h1 : Strat := getOk (Strat.new (.constantInterval 30) (ofNat 1) (ofNat (2 ^ 160)) high) (by decide +kernel)

theorem runsN0 : Runs [] n0 := .start (Or.inr (Or.inl rfl)) Demo.n0 (eq_getOk _ (by decide +kernel))
theorem runsN1 : Runs [] n1 := .start (Or.inr (Or.inl rfl)) Demo.n0 (eq_getOk _ (by decide +kernel))
theorem runsW0 : Runs [] w0 := .start (Or.inr (Or.inl rfl)) Demo.n0 (eq_getOk _ (by decide +kernel))
theorem runsH0 : Runs [] h0 :=
  .start (Or.inr (Or.inl rfl)) (eq_getOk (Pool.new "WETH" "USDC" 3000 highPrice) (by decide +kernel)) (eq_getOk _ (by decide +kernel))
theorem runsH1 : Runs [] h1 :=
  .start (Or.inr (Or.inl rfl)) (eq_getOk (Pool.new "WETH" "USDC" 3000 highPrice) (by decide +kernel)) (eq_getOk _ (by decide +kernel))

end StartDemo

open StratDemo TotalDemo StartDemo InvestDemo in
/-- C87, `Init`: it returns with two positions, and with none; it panics with nothing to open, with a range outside the
global range, and with a position whose token0 amount cannot be computed; with more token1 the last one returns. -/
example : (Runs m1 f1 ∧ isOk (f1.init 10) = true) ∧ (Runs [] n1 ∧ isOk (n1.init 10) = true) ∧
    (Runs [] n0 ∧ n0.init 10 = .error .panic) ∧ (Runs [] w0 ∧ w0.init 10 = .error .panic) ∧
    (Runs [] h0 ∧ h0.init 10 = .error .panic) ∧ (Runs [] h1 ∧ isOk (h1.init 10) = true) :=
  ⟨⟨r1, by decide +kernel⟩, ⟨runsN1, by decide +kernel⟩, ⟨runsN0, eq_panic (by decide +kernel)⟩, ⟨runsW0, eq_panic (by decide +kernel)⟩,
    ⟨runsH0, eq_panic (by decide +kernel)⟩, ⟨runsH1, by decide +kernel⟩⟩

open StratDemo TotalDemo StartDemo InvestDemo in
/-- C87, `Rebalance`: the fill-up run meets the hypotheses. -/
example : Runs m1 f3 ∧ Kind.Sane f3.kind ∧ (∀ w, f3.kind ≠ .swapHalf w) ∧ f3.kind ≠ .noProvision ∧
    f3.burnAll = .ok ((ofNat 923288, ofNat 2076975), k3.2) ∧ isOk (f3.rebalance 10) = true := by
  refine ⟨r3, sane.2, kinds.2.2, ?_, ?_, by decide +kernel⟩
  · rw [show f3.kind = .fillUp 120 by decide +kernel]; intro h; cases h
  · rw [eq_getOk f3.burnAll (by decide +kernel), show (ofNat 923288, ofNat 2076975) = k3.1 by decide +kernel]; rfl

/-- C87: the liquidity for `2^250` of token0 cannot be computed for a range of one tick at the top of the global range. -/
example : ValidRange 887271 887272 ∧ ¬ Fundable 0 (tickPrice 887271) (tickPrice 887272) (2 ^ 250) 0 ∧
    Fundable 0 (tickPrice 887271) (tickPrice 887272) (2 ^ 95) 0 := by
  refine ⟨by unfold ValidRange; decide, ?_, C87_small (by unfold ValidRange; decide) 0 (by norm_num) (by norm_num)⟩
  unfold Fundable
  rw [if_pos (Nat.zero_le _)]
  intro h
  exact h ⟨3, by decide +kernel, by decide +kernel⟩

end Props
end Uni
