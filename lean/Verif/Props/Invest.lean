import Verif.Proofs.Invest
import Verif.Props.Strategy
/-! # C86: what the strategies buy -/
namespace Uni
namespace Props
open U256 Spec TickData TickMath SwapMath FullMath SqrtPriceMath LiquidityAmounts Pool

/-- C86, `Init`: the new positions and the balances left over are those of the documented plan, followed with the whole
balances at the current price. -/
theorem C86_init {m : List Entry} {s s' : Strat} {fuel : Nat} {c : U256 × U256} (hr : Runs m s) (hx : s.init fuel = .ok (c, s'))
    (hf : Fits m s') (hs : Kind.Sane s.kind) (hns : ∀ w, s.kind ≠ .swapHalf w) :
    c = (s.amount0, s.amount1) ∧ ∃ new, s'.positions = s.positions ++ new ∧ InitBuys s c new (s'.amount0, s'.amount1) := by
  obtain ⟨h1, rfl⟩ := Strat.init_eq hx
  obtain ⟨new, g, k⟩ := Strat.openFirst_invests m hns h1
  have ho := Strat.runs_owns hr
  exact ⟨rfl, new, g.pos, k ho.ready hs ho hf⟩

/-- C86, `Rebalance`: the same for the balances after closing all positions, which it returns. -/
theorem C86_rebalance {m : List Entry} {s s' : Strat} {fuel : Nat} {c : U256 × U256} (hr : Runs m s)
    (hx : s.rebalance fuel = .ok (some c, s')) (hf : Fits m s') (hs : Kind.Sane s.kind) (hns : ∀ w, s.kind ≠ .swapHalf w) :
    RebalanceBuys s c s'.positions (s'.amount0, s'.amount1) := by
  rcases Strat.rebalance_eq hx with ⟨_, h, _⟩ | ⟨hnp, c0, s1, h1, h2, he⟩
  · cases h
  · cases he
    obtain ⟨o, e, hb, hk, hh, hl, hu, hst, rfl⟩ := Strat.closed_owns (Strat.runs_owns hr) h1
    obtain ⟨new, g, k⟩ := Strat.openAgain_invests m (fun w => by rw [hk]; exact hns w) h2
    have hp : s'.positions = new := by rw [g.pos, e]; rfl
    rw [hp]
    exact Strat.rebalanceBuys_congr hk hh hl hu hst (k o.ready (hk ▸ hs) o hf)

/-- C86: a plan determines the positions and the balances left over. -/
theorem C86_unique {P : U256} {plan : List Purchase} {x y y' : U256 × U256} {ps ps' : List StratPos}
    (h : Buys P plan x ps y) (h' : Buys P plan x ps' y') : ps = ps' ∧ y = y' := h.unique h'

/-- C86, `Init` of the swapping strategy. -/
theorem C86_swap_init {m : List Entry} {s s' : Strat} {fuel : Nat} {c : U256 × U256} {w : Int} (hr : Runs m s)
    (hx : s.init fuel = .ok (c, s')) (hf : Fits m s') (hw : MaySwap s c (book m s)) (hk : s.kind = .swapHalf w) (hs : |w| ≤ 2 ^ 30) :
    ∃ p' new, s'.positions = s.positions ++ new ∧ s'.pool.price = p'.price ∧ s'.pool.tick = p'.tick ∧
      SwapBuys fuel s w p' c new (s'.amount0, s'.amount1) := by
  obtain ⟨h1, rfl⟩ := Strat.init_eq hx
  obtain ⟨n1, n2, n3, n4⟩ := hw w hk
  unfold Strat.openFirst at h1
  rw [hk] at h1
  obtain ⟨p', new, k1, k2, k3⟩ := Strat.swapMint_invests (Strat.runs_owns hr) n1 n2 n3 n4 hs hf h1
  exact ⟨p', new, k1, k2.price, k2.tick, k3⟩

/-- C86, `Rebalance` of the swapping strategy: first `BurnAll`, then as in `Init`. -/
theorem C86_swap_rebalance {m : List Entry} {s s' : Strat} {fuel : Nat} {c : U256 × U256} {w : Int} (hr : Runs m s)
    (hx : s.rebalance fuel = .ok (some c, s')) (hf : Fits m s') (hw : MaySwap s c m) (hk : s.kind = .swapHalf w) (hs : |w| ≤ 2 ^ 30) :
    ∃ s1 p', s.burnAll = .ok (c, s1) ∧ s1.pool.price = s.pool.price ∧ s1.pool.tick = s.pool.tick ∧
      s'.pool.price = p'.price ∧ s'.pool.tick = p'.tick ∧ SwapBuys fuel s1 w p' c s'.positions (s'.amount0, s'.amount1) := by
  rcases Strat.rebalance_eq hx with ⟨_, h, _⟩ | ⟨hnp, c0, s1, h1, h2, he⟩
  · cases h
  · cases he
    obtain ⟨o, e, hb, hk1, hh, hl, hu, hst, rfl⟩ := Strat.closed_owns (Strat.runs_owns hr) h1
    have hk2 := hk1.trans hk
    obtain ⟨n1, n2, n3, n4⟩ := Strat.closed_swap hk1 hb hst hw w hk2
    unfold Strat.openAgain at h2
    rw [hk2] at h2
    obtain ⟨p', new, k1, k2, k3⟩ := Strat.swapMint_invests o n1 n2 n3 n4 hs hf h2
    have hp : s'.positions = new := by rw [k1, e]; rfl
    rw [hp]
    refine ⟨s1, p', ?_, hst.price, hst.tick, k2.price, k2.tick, k3⟩
    unfold Strat.burnAll
    rw [hk]
    exact h1

/-- C86: what `Init` of a strategy that does not swap buys depends on the pool only through its fee, price and tick: two
strategies of the same kind with equal balances in two pools that agree on these open the same positions and keep the same
balances, whatever liquidity, growth and records the pools have. -/
theorem C86_only_init {s t s' t' : Strat} {fuel fuel' : Nat} {c c' : U256 × U256} (ha : Alike s t)
    (hns : ∀ w, s.kind ≠ .swapHalf w) (hs : s.init fuel = .ok (c, s')) (ht : t.init fuel' = .ok (c', t')) (hc : c = c') :
    (∃ new, s'.positions = s.positions ++ new ∧ t'.positions = t.positions ++ new) ∧
      s'.amount0 = t'.amount0 ∧ s'.amount1 = t'.amount1 := by
  obtain ⟨h1, rfl⟩ := Strat.init_eq hs
  obtain ⟨h2, rfl⟩ := Strat.init_eq ht
  injection hc with a0 a1
  have e := Strat.openFirst_twins ha a0 a1 hns h1 h2
  exact ⟨e.opened, e.amount0, e.amount1⟩

/-- C86: the same for `Rebalance`, for equal balances after closing the positions. -/
theorem C86_only_rebalance {m n : List Entry} {s t s' t' : Strat} {fuel fuel' : Nat} {c : U256 × U256} (hr : Runs m s)
    (hr' : Runs n t) (ha : Alike s t) (hns : ∀ w, s.kind ≠ .swapHalf w) (hs : s.rebalance fuel = .ok (some c, s'))
    (ht : t.rebalance fuel' = .ok (some c, t')) :
    s'.positions = t'.positions ∧ s'.amount0 = t'.amount0 ∧ s'.amount1 = t'.amount1 := by
  rcases Strat.rebalance_eq hs with ⟨_, h, _⟩ | ⟨_, c0, s1, h1, h2, he⟩
  · cases h
  rcases Strat.rebalance_eq ht with ⟨_, h, _⟩ | ⟨_, c1, t1, k1, k2, ke⟩
  · cases h
  cases he
  cases ke
  obtain ⟨_, e, _, hk, hh, hl, hu, hst, hc⟩ := Strat.closed_owns (Strat.runs_owns hr) h1
  obtain ⟨_, e', _, hk', hh', hl', hu', hst', hc'⟩ := Strat.closed_owns (Strat.runs_owns hr') k1
  rw [hc] at hc'
  injection hc' with a0 a1
  have al : Alike s1 t1 := ⟨by rw [hk, hk', ha.kind], by rw [hl, hl', ha.tickLower], by rw [hu, hu', ha.tickUpper],
    by rw [hh, hh', ha.history], by rw [hst.same.2.1, hst'.same.2.1, ha.fee], by rw [hst.price, hst'.price, ha.price],
    by rw [hst.tick, hst'.tick, ha.tick]⟩
  have w := Strat.openAgain_twins al a0 a1 (fun w => by rw [hk]; exact hns w) h2 k2
  obtain ⟨new, w1, w2⟩ := w.opened
  exact ⟨by rw [w1, w2, e, e'], w.amount0, w.amount1⟩

/-! ### Concrete runs -/

namespace InvestDemo
open StratDemo

/-- The fill-up strategy of `StratDemo` in a pool without other liquidity. -/
def k2 : (U256 × U256) × Strat := getOk (f0.init 10) (by decide +kernel)

theorem alike : Alike f0 f1 := ⟨rfl, rfl, rfl, rfl, by decide +kernel, by decide +kernel, by decide +kernel⟩
theorem kinds : (∀ w, f0.kind ≠ .swapHalf w) ∧ (∀ w, f1.kind ≠ .swapHalf w) ∧ (∀ w, f3.kind ≠ .swapHalf w) := by
  rw [show f0.kind = .fillUp 120 by decide +kernel, show f1.kind = .fillUp 120 by decide +kernel, show f3.kind = .fillUp 120 by decide +kernel]
  refine ⟨?_, ?_, ?_⟩ <;> (intro w h; cases h)

end InvestDemo

open StratDemo InvestDemo in
/-- C86: the fill-up run meets all hypotheses; both calls open two positions. -/
example : Runs m1 f1 ∧ f1.init 10 = .ok (i2.1, f2) ∧ Fits m1 f2 ∧ Kind.Sane f1.kind ∧ (∀ w, f1.kind ≠ .swapHalf w) ∧
    Runs m1 f3 ∧ f3.rebalance 10 = .ok (some (ofNat 923288, ofNat 2076975), f4) ∧ Fits m1 f4 ∧ Kind.Sane f3.kind ∧
    (∀ w, f3.kind ≠ .swapHalf w) ∧ f4.positions = [⟨ofNat 167175318, -120, 120⟩, ⟨ofNat 167213783, -120, 0⟩] :=
  ⟨r1, e2, fits2, sane.1, kinds.2.1, r3, e4', fits4, sane.2, kinds.2.2, values.2.2.1⟩

open StratDemo InvestDemo in
/-- C86: the swapping strategy meets the hypotheses and does swap. -/
example : Runs m1 g1 ∧ g1.init 10 = .ok (j2.1, g2) ∧ Fits m1 g2 ∧ MaySwap g1 j2.1 (book m1 g1) ∧ g1.kind = .swapHalf 120 ∧
    g1.pool.tick = 0 ∧ g2.pool.tick = 198 :=
  ⟨s1, eq_getOk _ _, gfits, may, by decide +kernel, by decide +kernel, gvalues.2.2.2⟩

open StratDemo InvestDemo in
/-- C86: the same strategy in two pools, one without and one with other liquidity, opens the same two positions. -/
example : Alike f0 f1 ∧ f0.init 10 = .ok (k2.1, k2.2) ∧ f1.init 10 = .ok (i2.1, f2) ∧ k2.1 = i2.1 ∧
    f0.pool.liquidity = zero ∧ f1.pool.liquidity = ofNat 50000000 ∧ k2.2.positions = f2.positions ∧
    f2.positions = [⟨ofNat 167175499, -120, 120⟩, ⟨ofNat 167175499, -120, 0⟩] :=
  ⟨alike, eq_getOk _ _, e2, by decide +kernel, by decide +kernel, by decide +kernel, by decide +kernel, values.1⟩

end Props
end Uni
