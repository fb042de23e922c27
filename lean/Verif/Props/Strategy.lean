import Verif.Proofs.StratHead
import Verif.Proofs.Demo
/-! # Properties of the strategies -/
namespace Uni
namespace Props
open U256 Spec Pool LiquidityAmounts

/-! ### C39: spending -/

/-- C39, `Init`: what the strategy held (`c`, as returned) is what it holds afterwards, plus exactly what its new positions
cost at the price of the pool (each rounded up), plus what one swap took.  The costs are non-negative integers and the
equation holds in the integers, so no subtraction wrapped and nothing was spent that was not there.  Only the swapping
strategy swaps, at most one half of a balance. -/
theorem C39_init {m : List Entry} {s s' : Strat} {fuel : Nat} {c : U256 × U256} (hr : Runs m s) (hx : s.init fuel = .ok (c, s'))
    (hf : Fits m s') (hw : MaySwap s c (book m s)) :
    c = (s.amount0, s.amount1) ∧ ∃ new x0 x1 p1, s'.positions = s.positions ++ new ∧
      (c.1.toNat : Int) = s'.amount0.toNat + cost0 s'.pool.price.toNat new + x0 ∧
      (c.2.toNat : Int) = s'.amount1.toNat + cost1 s'.pool.price.toNat new + x1 ∧
      SwapOf s.pool p1 x0 x1 ∧ s'.pool.price = p1.price ∧ s'.pool.tick = p1.tick ∧
      2 * x0 ≤ c.1.toNat ∧ 2 * x1 ≤ c.2.toNat ∧
      ((∀ w, s.kind ≠ .swapHalf w) → x0 = 0 ∧ x1 = 0 ∧ s'.pool.price = s.pool.price ∧ s'.pool.tick = s.pool.tick) := by
  obtain ⟨h1, rfl⟩ := Strat.init_eq hx
  obtain ⟨new, x0, x1, rs, h2, _⟩ := Strat.openFirst_opened (Strat.runs_owns hr) hf hw h1
  obtain ⟨p1, k1, k2⟩ := h2.swap
  refine ⟨rfl, new, x0, x1, p1, h2.pos, h2.bal0, h2.bal1, k1, k2.price, k2.tick, h2.half.1, h2.half.2, ?_⟩
  intro hn
  obtain ⟨e0, e1, e2⟩ := h2.still hn
  exact ⟨e0, e1, e2.price, e2.tick⟩

/-- C39, `Rebalance`: the same for the balances `c` after closing all positions; the new positions replace the old ones. -/
theorem C39_rebalance {m : List Entry} {s s' : Strat} {fuel : Nat} {c : U256 × U256} (hr : Runs m s)
    (hx : s.rebalance fuel = .ok (some c, s')) (hf : Fits m s') (hw : MaySwap s c m) :
    ∃ x0 x1 p0 p1, (c.1.toNat : Int) = s'.amount0.toNat + cost0 s'.pool.price.toNat s'.positions + x0 ∧
      (c.2.toNat : Int) = s'.amount1.toNat + cost1 s'.pool.price.toNat s'.positions + x1 ∧
      p0.price = s.pool.price ∧ p0.tick = s.pool.tick ∧
      SwapOf p0 p1 x0 x1 ∧ s'.pool.price = p1.price ∧ s'.pool.tick = p1.tick ∧ 2 * x0 ≤ c.1.toNat ∧ 2 * x1 ≤ c.2.toNat ∧
      ((∀ w, s.kind ≠ .swapHalf w) → x0 = 0 ∧ x1 = 0 ∧ s'.pool.price = s.pool.price ∧ s'.pool.tick = s.pool.tick) := by
  rcases Strat.rebalance_eq hx with ⟨_, h, _⟩ | ⟨_, c0, s1, h1, h2, he⟩
  · cases h
  · cases he
    obtain ⟨o, e, hb, hk, _, _, _, hst, rfl⟩ := Strat.closed_owns (Strat.runs_owns hr) h1
    obtain ⟨new, x0, x1, rs, h3, _⟩ := Strat.openAgain_opened o hf (Strat.closed_swap hk hb hst hw) h2
    obtain ⟨p1, k1, k2⟩ := h3.swap
    have hp : s'.positions = new := by rw [h3.pos, e]; rfl
    refine ⟨x0, x1, s1.pool, p1, by rw [hp]; exact h3.bal0, by rw [hp]; exact h3.bal1, hst.price, hst.tick, k1, k2.price, k2.tick,
      h3.half.1, h3.half.2, ?_⟩
    intro hn
    obtain ⟨e0, e1, e2⟩ := h3.still (fun w => by rw [hk]; exact hn w)
    exact ⟨e0, e1, e2.price.trans hst.price, e2.tick.trans hst.tick⟩

/-- C39: the costs are not negative. -/
theorem C39_costs (P : Nat) (ps : List StratPos) : 0 ≤ cost0 P ps ∧ 0 ≤ cost1 P ps := by
  induction ps with
  | nil => exact ⟨le_refl _, le_refl _⟩
  | cons q ps ih =>
    have hn := holding_nonneg (P := P) (l := q.lower) (u := q.upper)
    have hq : (0 : ℚ) ≤ (q.amount.toNat : ℚ) := by exact_mod_cast Nat.zero_le _
    have h0 : 0 ≤ ⌈(q.amount.toNat : ℚ) * holding0 P q.lower q.upper⌉ := Int.ceil_nonneg (mul_nonneg hq hn.1)
    have h1 : 0 ≤ ⌈(q.amount.toNat : ℚ) * holding1 P q.lower q.upper⌉ := Int.ceil_nonneg (mul_nonneg hq hn.2)
    have e0 : cost0 P (q :: ps) = ⌈(q.amount.toNat : ℚ) * holding0 P q.lower q.upper⌉ + cost0 P ps := by
      unfold cost0; rw [List.map_cons, List.sum_cons]
    have e1 : cost1 P (q :: ps) = ⌈(q.amount.toNat : ℚ) * holding1 P q.lower q.upper⌉ + cost1 P ps := by
      unfold cost1; rw [List.map_cons, List.sum_cons]
    omega

/-! ### C40: liquidation -/

/-- The strategies whose `BurnAll` keeps the list of positions. -/
def KeepsList : Kind → Prop
  | .constantInterval _ | .aroundPrice _ | .twoInterval _ _ => True
  | _ => False

/-- C40: after `BurnAll` only the liquidity of the others is in the pool: the active liquidity is theirs, the initialized
ticks are theirs; price and tick are unchanged.  The result is the new balances. -/
theorem C40_pool {m : List Entry} {s s' : Strat} {c : U256 × U256} (hr : Runs m s) (hx : s.burnAll = .ok (c, s')) :
    (s'.pool.liquidity.toNat : Int) = active m s.pool.tick ∧ (∀ i, Pool.Initialized s'.pool i ↔ grossAt m i ≠ 0) ∧
      s'.pool.price = s.pool.price ∧ s'.pool.tick = s.pool.tick ∧ s'.pool.growth0 = s.pool.growth0 ∧ s'.pool.growth1 = s.pool.growth1 ∧
      c = (s'.amount0, s'.amount1) := by
  have ho := Strat.runs_owns hr
  have key : ∀ p, Strat.Owns m [] p → Strat.Still s.pool p → (p.liquidity.toNat : Int) = active m s.pool.tick ∧
      (∀ i, Pool.Initialized p i ↔ grossAt m i ≠ 0) := by
    intro p o st
    obtain ⟨h, hi, hs⟩ := o.inv
    refine ⟨?_, fun i => ?_⟩
    · rw [hi.liq, st.tick]; exact hs.active _
    · rw [← show grossAt h i = grossAt m i from hs.grossAt i]
      exact hi.ticks.has
  rcases Strat.burnAll_eq hx with ⟨hk, rfl, rfl⟩ | ⟨t, h1, rfl, h2⟩
  · rw [Strat.runs_idle hr hk] at ho
    obtain ⟨k1, k2⟩ := key _ ho (Strat.Still.refl _)
    exact ⟨k1, k2, rfl, rfl, rfl, rfl, rfl⟩
  · obtain ⟨o, st, _, _⟩ := Strat.burnLoop_spec ho h1
    obtain ⟨k1, k2⟩ := key _ o st
    rcases h2 with rfl | rfl <;> exact ⟨k1, k2, st.price, st.tick, st.growth0, st.growth1, rfl⟩

/-- C40: what `BurnAll` returns: the balances, plus for each position its exact holdings rounded down, plus the fees it has
earned, if no two positions share a record (C31 says when they do).  (`% 2^256`: the balances are 256-bit numbers.) -/
theorem C40_amounts {m : List Entry} {s s' : Strat} {c : U256 × U256} (hr : Runs m s) (hx : s.burnAll = .ok (c, s'))
    (hd : s.positions.Pairwise (fun q q' => posKey q.lower q.upper ≠ posKey q'.lower q'.upper)) :
    (c.1.toNat : Int) = (s.amount0.toNat + worth0 s.pool.price.toNat s.positions + fees0 s.pool s.positions) % 2 ^ 256 ∧
    (c.2.toNat : Int) = (s.amount1.toNat + worth1 s.pool.price.toNat s.positions + fees1 s.pool s.positions) % 2 ^ 256 := by
  rcases Strat.burnAll_eq hx with ⟨hk, rfl, rfl⟩ | ⟨t, h1, rfl, h2⟩
  · rw [Strat.runs_idle hr hk]
    have h0 := s'.amount0.toNat_lt
    have h1 := s'.amount1.toNat_lt
    show (s'.amount0.toNat : Int) = (s'.amount0.toNat + 0 + 0) % _ ∧ (s'.amount1.toNat : Int) = (s'.amount1.toNat + 0 + 0) % _
    constructor <;> omega
  · exact (Strat.burnLoop_spec (Strat.runs_owns hr) h1).2.2.2 hd

/-- C40: nine strategies are left without positions, and a second `BurnAll` changes nothing. -/
theorem C40_again {m : List Entry} {s s' : Strat} {c : U256 × U256} (hr : Runs m s) (hx : s.burnAll = .ok (c, s'))
    (hk : ¬ KeepsList s.kind) : s'.positions = [] ∧ s'.burnAll = .ok (c, s') := by
  have hcl : s.kind ≠ .noProvision → s.closeAll = .ok (c, s') := by
    intro hnp
    unfold Strat.burnAll at hx
    unfold KeepsList at hk
    revert hk hx hnp
    cases s.kind <;> intro hx hk hnp <;> first | exact absurd trivial hk | exact absurd rfl hnp | exact hx
  by_cases hnp : s.kind = .noProvision
  · rcases Strat.burnAll_eq hx with ⟨_, rfl, rfl⟩ | ⟨t, h1, rfl, h2⟩
    · exact ⟨Strat.runs_idle hr hnp, hx⟩
    · have hp := Strat.runs_idle hr hnp
      rw [hp] at h1
      cases h1
      rcases h2 with rfl | rfl
      · exact ⟨hp, hx⟩
      · refine ⟨rfl, ?_⟩
        unfold Strat.burnAll
        dsimp only
        rw [hnp]
  · have h1 := hcl hnp
    obtain ⟨_, _, e1, e2, _⟩ := Strat.closeAll_spec (Strat.runs_owns hr) h1
    have hp : s'.positions = [] := by rw [e2]
    have hkind : s'.kind = s.kind := by rw [e2]
    refine ⟨hp, ?_⟩
    have hc : s'.closeAll = .ok (c, s') := by
      unfold Strat.closeAll
      rw [hp, e1]
      show Except.ok ((s'.amount0, s'.amount1), { s' with positions := [] }) = _
      congr 2
      cases s'
      dsimp only at hp
      rw [hp]
    unfold Strat.burnAll
    unfold KeepsList at hk
    rw [hkind]
    revert hk hnp
    cases s.kind <;> intro hk hnp <;> first | exact absurd trivial hk | exact absurd rfl hnp | exact hc

/-! ### C41: the reported value -/

/-- C41: `GetAmounts` never panics and returns the balances plus the exact holdings of every position, each rounded down. -/
theorem C41_amounts {m : List Entry} {s : Strat} (hr : Runs m s) :
    ∃ c, s.getAmounts = .ok c ∧ (c.1.toNat : Int) = (s.amount0.toNat + worth0 s.pool.price.toNat s.positions) % 2 ^ 256 ∧
      (c.2.toNat : Int) = (s.amount1.toNat + worth1 s.pool.price.toNat s.positions) % 2 ^ 256 := by
  by_cases hk : s.kind = .noProvision
  · refine ⟨(s.amount0, s.amount1), by unfold Strat.getAmounts; rw [hk], ?_⟩
    rw [Strat.runs_idle hr hk]
    have h0 := s.amount0.toNat_lt
    have h1 := s.amount1.toNat_lt
    show (s.amount0.toNat : Int) = (s.amount0.toNat + 0) % _ ∧ (s.amount1.toNat : Int) = (s.amount1.toNat + 0) % _
    constructor <;> omega
  · obtain ⟨r, h1, h2, h3⟩ := Strat.amountsLoop_spec s.pool.price s.positions (Strat.runs_owns hr).small (zero, zero)
    refine ⟨(add r.1 s.amount0, add r.2 s.amount1), ?_, ?_, ?_⟩
    · unfold Strat.getAmounts
      split
      · exact absurd (by assumption) hk
      · rw [h1]; rfl
    · dsimp only
      rw [toNat_add]
      have z : (zero.toNat : Int) = 0 := by decide
      dsimp only at h2
      push_cast
      omega
    · dsimp only
      rw [toNat_add]
      have z : (zero.toNat : Int) = 0 := by decide
      dsimp only at h3
      push_cast
      omega

/-- C41: that is exactly what burning a position credits as principal. -/
theorem C41_burn {m : List Entry} {s : Strat} (hr : Runs m s) {q : StratPos} (hq : q ∈ s.positions) {b0 b1 : U256} {p' : Pool}
    (hx : s.pool.burnStrategy q.lower q.upper q.amount = .ok (b0, b1, p')) :
    (b0.toNat : Int) = worth0 s.pool.price.toNat [q] ∧ (b1.toNat : Int) = worth1 s.pool.price.toNat [q] := by
  have ho := Strat.runs_owns hr
  obtain ⟨h, hi, _⟩ := ho.inv
  obtain ⟨h0, h1⟩ := burnStrategy_amounts hi (ho.small q hq).2 hx
  rw [Strat.worth0_cons, Strat.worth1_cons]
  show _ = _ + (0 : Int) ∧ _ = _ + (0 : Int)
  omega

/-- C41: `BurnAll` returns what `GetAmounts` reports plus the uncollected fees. -/
theorem C41_burnAll {m : List Entry} {s s' : Strat} {c d : U256 × U256} (hr : Runs m s) (hx : s.burnAll = .ok (c, s'))
    (hg : s.getAmounts = .ok d)
    (hd : s.positions.Pairwise (fun q q' => posKey q.lower q.upper ≠ posKey q'.lower q'.upper)) :
    c.1.toNat = (d.1.toNat + fees0 s.pool s.positions) % 2 ^ 256 ∧ c.2.toNat = (d.2.toNat + fees1 s.pool s.positions) % 2 ^ 256 := by
  obtain ⟨d', h1, h2, h3⟩ := C41_amounts hr
  rw [hg] at h1
  cases h1
  obtain ⟨h4, h5⟩ := C40_amounts hr hx hd
  omega

/-! ### C42: ranges -/

/-- C42: every open position of a strategy, in every state of every run, has positive liquidity and a non-empty range
inside the global tick range. -/
theorem C42_wellformed {m : List Entry} {s : Strat} (hr : Runs m s) {q : StratPos} (hq : q ∈ s.positions) :
    0 < q.amount.toNat ∧ q.lower < q.upper ∧ -887272 ≤ q.lower ∧ q.upper ≤ 887272 := (Strat.runs_owns hr).wf q hq

/-- C42, `Init`: the ranges of the new positions are among the documented ones, in this order. -/
theorem C42_init {m : List Entry} {s s' : Strat} {fuel : Nat} {c : U256 × U256} (hr : Runs m s) (hx : s.init fuel = .ok (c, s'))
    (hf : Fits m s') (hw : MaySwap s c (book m s)) (hs : Kind.Sane s.kind) :
    ∃ new rs, s'.positions = s.positions ++ new ∧ (ranges new).Sublist rs ∧ InitRanges s rs := by
  obtain ⟨h1, rfl⟩ := Strat.init_eq hx
  obtain ⟨new, x0, x1, rs, h2, h3, h4⟩ := Strat.openFirst_opened (Strat.runs_owns hr) hf hw h1
  exact ⟨new, rs, h2.pos, h3, h4 hs⟩

/-- C42, `Rebalance`: the same. -/
theorem C42_rebalance {m : List Entry} {s s' : Strat} {fuel : Nat} {c : U256 × U256} (hr : Runs m s)
    (hx : s.rebalance fuel = .ok (some c, s')) (hf : Fits m s') (hw : MaySwap s c m) (hs : Kind.Sane s.kind) :
    ∃ rs, (ranges s'.positions).Sublist rs ∧ RebalanceRanges s rs := by
  rcases Strat.rebalance_eq hx with ⟨_, h, _⟩ | ⟨_, c0, s1, h1, h2, he⟩
  · cases h
  · cases he
    obtain ⟨o, e, hb, hk, hh, hl, hu, hst, rfl⟩ := Strat.closed_owns (Strat.runs_owns hr) h1
    obtain ⟨new, x0, x1, rs, h3, h4, h5⟩ := Strat.openAgain_opened o hf (Strat.closed_swap hk hb hst hw) h2
    have hp : s'.positions = new := by rw [h3.pos, e]; rfl
    exact ⟨rs, by rw [hp]; exact h4, Strat.rebalanceRanges_congr hk hh hl hu hst (h5 (hk ▸ hs))⟩

/-- C42: the constant interval is the one around the tick of `Init`, and `Rebalance`, `BurnAll` and snapshots keep it. -/
theorem C42_constant {m : List Entry} {s s' : Strat} {w : Int} (hr : Runs m s) (hk : s.kind = .constantInterval w) (hw : |w| ≤ 2 ^ 30) :
    (∀ fuel c, s.init fuel = .ok (c, s') → Centred s.pool.spacing s.pool.tick w (s'.tickLower, s'.tickUpper)) ∧
    (∀ fuel c, s.rebalance fuel = .ok (c, s') → (s'.tickLower, s'.tickUpper) = (s.tickLower, s.tickUpper)) ∧
    (∀ c, s.burnAll = .ok (c, s') → (s'.tickLower, s'.tickUpper) = (s.tickLower, s.tickUpper)) ∧
    (s.makeSnapshot = .ok s' → (s'.tickLower, s'.tickUpper) = (s.tickLower, s.tickUpper)) := by
  have ho := Strat.runs_owns hr
  have mintA : ∀ {t t' : Strat} {l u : Int} {L : U256}, t.mintAmount l u L = .ok t' → t'.tickLower = t.tickLower ∧ t'.tickUpper = t.tickUpper := by
    intro t t' l u L h
    unfold Strat.mintAmount at h
    obtain ⟨_, _, h⟩ := bind_ok h
    cases h; exact ⟨rfl, rfl⟩
  refine ⟨?_, ?_, ?_, ?_⟩
  · intro fuel c hx
    obtain ⟨h1, _⟩ := Strat.init_eq hx
    unfold Strat.openFirst at h1
    rw [hk] at h1
    dsimp only at h1
    unfold Strat.mintUnchecked at h1
    obtain ⟨L, _, h1⟩ := bind_ok h1
    obtain ⟨e1, e2⟩ := mintA h1
    rw [e1, e2]
    exact Strat.around_centred ho.ready ho.ready.lo ho.ready.hi hw
  · intro fuel c hx
    rcases Strat.rebalance_eq hx with ⟨h, _⟩ | ⟨_, c0, s1, h1, h2, _⟩
    · rw [hk] at h; cases h
    · obtain ⟨o, e, hb, hk1, hh, hl, hu, hst, _⟩ := Strat.closed_owns ho h1
      unfold Strat.openAgain at h2
      rw [hk1, hk] at h2
      dsimp only at h2
      unfold Strat.mintPosition at h2
      obtain ⟨L, _, h2⟩ := bind_ok h2
      split at h2
      · cases h2; rw [hl, hu]
      · obtain ⟨e1, e2⟩ := mintA h2
        rw [e1, e2, hl, hu]
  · intro c hx
    rcases Strat.burnAll_eq hx with ⟨h, _⟩ | ⟨t, h1, _, h2⟩
    · rw [hk] at h; cases h
    · obtain ⟨_, _, e, _⟩ := Strat.burnLoop_spec ho h1
      rcases h2 with rfl | rfl <;> rw [e]
  · intro hx
    unfold Strat.makeSnapshot at hx
    rw [hk] at hx
    cases hx; rfl

/-! ### C60: the main position is as large as the balances allow -/

/-- C60, `Init`: the first documented range is opened first, with the liquidity `GetLiquidityForAmount` computes for the
whole balances (C38: affordable; the largest affordable when only one token is needed), unless that is zero. -/
theorem C60_init {m : List Entry} {s s' : Strat} {fuel : Nat} {c : U256 × U256} (hr : Runs m s) (hx : s.init fuel = .ok (c, s'))
    (hs : Kind.Sane s.kind) (hns : ∀ w, s.kind ≠ .swapHalf w) (hnp : s.kind ≠ .noProvision) :
    ∃ r rs a b L, InitRanges s (r :: rs) ∧ a.toNat = tickPrice r.1 ∧ b.toNat = tickPrice r.2 ∧
      getLiquidityForAmount s.pool.price a b s.amount0 s.amount1 = .ok L ∧
      (L.toNat ≠ 0 → ∃ more, s'.positions = s.positions ++ ⟨L, r.1, r.2⟩ :: more) := by
  obtain ⟨h1, _⟩ := Strat.init_eq hx
  obtain ⟨r, rs, h2, L, h3, h4⟩ := Strat.openFirst_leads hns hnp h1
  obtain ⟨a, b, h5, h6, h7⟩ := Strat.affordable_eq h3
  exact ⟨r, rs, a, b, L, h2 (Strat.runs_owns hr).ready hs, h5, h6, h7, h4⟩

/-- C60, `Rebalance`: the same for the balances after closing all positions. -/
theorem C60_rebalance {m : List Entry} {s s' : Strat} {fuel : Nat} {c : U256 × U256} (hr : Runs m s)
    (hx : s.rebalance fuel = .ok (some c, s')) (hs : Kind.Sane s.kind) (hns : ∀ w, s.kind ≠ .swapHalf w) :
    ∃ r rs a b L, RebalanceRanges s (r :: rs) ∧ a.toNat = tickPrice r.1 ∧ b.toNat = tickPrice r.2 ∧
      getLiquidityForAmount s.pool.price a b c.1 c.2 = .ok L ∧
      (L.toNat ≠ 0 → ∃ more, s'.positions = ⟨L, r.1, r.2⟩ :: more) := by
  rcases Strat.rebalance_eq hx with ⟨_, h, _⟩ | ⟨hnp, c0, s1, h1, h2, he⟩
  · cases h
  · cases he
    obtain ⟨o, e, hb, hk, hh, hl, hu, hst, rfl⟩ := Strat.closed_owns (Strat.runs_owns hr) h1
    obtain ⟨r, rs, k2, L, k3, k4⟩ := Strat.openAgain_leads (fun w => by rw [hk]; exact hns w) (by rw [hk]; exact hnp) h2
    obtain ⟨a, b, h5, h6, h7⟩ := Strat.affordable_eq k3
    refine ⟨r, rs, a, b, L, Strat.rebalanceRanges_congr hk hh hl hu hst (k2 o.ready (hk ▸ hs)), h5, h6, by rw [← hst.price]; exact h7, ?_⟩
    intro hz
    obtain ⟨more, k5⟩ := k4 hz
    exact ⟨more, by rw [k5, e]; rfl⟩

/-! ### Concrete runs -/

namespace StratDemo

def mintOp : PoolOp := .mint (-600) 600 (ofNat 50000000)
def swapOp : PoolOp := .exactInput (ofNat 100000) "USDC" zero
def m1 : List Entry := [⟨-600, 600, 50000000⟩]

/-- The fill-up strategy: somebody else mints, the strategy starts, a swap, a rebalance, liquidation. -/
def f0 : Strat := getOk (Strat.new (.fillUp 120) (ofNat 1000000) (ofNat 2000000) Demo.p0) (by decide +kernel)
def f1 : Strat := { f0 with pool := getOk (mintOp.exec 10 f0.pool) (by decide +kernel) }
def i2 : (U256 × U256) × Strat := getOk (f1.init 10) (by decide +kernel)
def f2 : Strat := i2.2
def f3 : Strat := { f2 with pool := getOk (swapOp.exec 10 f2.pool) (by decide +kernel) }
def i4 : Option (U256 × U256) × Strat := getOk (f3.rebalance 10) (by decide +kernel)
def f4 : Strat := i4.2
def i5 : (U256 × U256) × Strat := getOk f4.burnAll (by decide +kernel)
def f5 : Strat := i5.2

theorem e2 : f1.init 10 = .ok (i2.1, f2) := eq_getOk _ _
theorem e4 : f3.rebalance 10 = .ok (i4.1, f4) := eq_getOk _ _
theorem e4' : f3.rebalance 10 = .ok (some (ofNat 923288, ofNat 2076975), f4) := by
  rw [e4, show i4.1 = some (ofNat 923288, ofNat 2076975) by decide +kernel]
theorem e5 : f4.burnAll = .ok (i5.1, f5) := eq_getOk _ _

theorem noSwap {s : Strat} {c : U256 × U256} {h : List Entry} (hk : s.kind = .fillUp 120) : MaySwap s c h := by
  intro w hw
  rw [hk] at hw
  cases hw

theorem r0 : Runs [] f0 := .start (Or.inr (Or.inl rfl)) Demo.n0 (eq_getOk _ (by decide +kernel))
theorem r1 : Runs m1 f1 := .trade 10 mintOp r0
  (show total (book [] f0) + ((ofNat 50000000).toNat : Int) < 2 ^ 128 by decide +kernel) (eq_getOk _ (by decide +kernel))
theorem fits2 : Fits m1 f2 := by unfold Fits; decide +kernel
theorem fits4 : Fits m1 f4 := by unfold Fits; decide +kernel
theorem r2 : Runs m1 f2 := .init 10 r1 e2 fits2 (noSwap (by decide +kernel))
theorem r3 : Runs m1 f3 := .trade 10 swapOp r2 ⟨by decide +kernel, fun h => absurd h (by decide +kernel)⟩ (eq_getOk _ (by decide +kernel))
theorem r4 : Runs m1 f4 := .rebalance 10 r3 e4 fits4 (fun _ _ => noSwap (by decide +kernel))
theorem r5 : Runs m1 f5 := .burnAll r4 e5 (by decide +kernel)

theorem sane : Kind.Sane f1.kind ∧ Kind.Sane f3.kind := by
  rw [show f1.kind = .fillUp 120 by decide +kernel, show f3.kind = .fillUp 120 by decide +kernel]
  constructor <;> (show |(120 : Int)| ≤ 2 ^ 30) <;> decide

/-- The positions opened by `Init` and by `Rebalance`; the swap moved the tick from 0 to 9. -/
theorem values : f2.positions = [⟨ofNat 167175499, -120, 120⟩, ⟨ofNat 167175499, -120, 0⟩] ∧
    f3.pool.tick = 9 ∧ f4.positions = [⟨ofNat 167175318, -120, 120⟩, ⟨ofNat 167213783, -120, 0⟩] ∧
    f4.amount0 = ofNat 0 ∧ f4.amount1 = ofNat 0 ∧ f5.pool.liquidity = ofNat 50000000 := by decide +kernel

theorem distinct : f3.positions.Pairwise (fun q q' => posKey q.lower q.upper ≠ posKey q'.lower q'.upper) ∧
    f4.positions.Pairwise (fun q q' => posKey q.lower q.upper ≠ posKey q'.lower q'.upper) := by
  rw [show f3.positions = [⟨ofNat 167175499, -120, 120⟩, ⟨ofNat 167175499, -120, 0⟩] from values.1, values.2.2.1]
  constructor <;> (refine List.Pairwise.cons ?_ (List.Pairwise.cons ?_ List.Pairwise.nil) <;> intro q hq)
  · rw [List.mem_singleton] at hq; subst hq; decide +kernel
  · cases hq
  · rw [List.mem_singleton] at hq; subst hq; decide +kernel
  · cases hq

/-- The swapping strategy. -/
def g0 : Strat := getOk (Strat.new (.swapHalf 120) (ofNat 1000000) (ofNat 2000000) Demo.p0) (by decide +kernel)
def g1 : Strat := { g0 with pool := getOk (mintOp.exec 10 g0.pool) (by decide +kernel) }
def j2 : (U256 × U256) × Strat := getOk (g1.init 10) (by decide +kernel)
def g2 : Strat := j2.2
theorem s0 : Runs [] g0 := .start (Or.inr (Or.inl rfl)) Demo.n0 (eq_getOk _ (by decide +kernel))
theorem s1 : Runs m1 g1 := .trade 10 mintOp s0
  (show total (book [] g0) + ((ofNat 50000000).toNat : Int) < 2 ^ 128 by decide +kernel) (eq_getOk _ (by decide +kernel))
theorem may : MaySwap g1 j2.1 (book m1 g1) := by
  intro w _
  refine ⟨by decide +kernel, by decide +kernel, by decide +kernel, clear_good ?_⟩
  rw [show g1.pool.spacing = 60 by decide +kernel, show g1.pool.tick = 0 by decide +kernel]
  rintro ⟨k, _, h2, h3⟩
  omega
theorem gfits : Fits m1 g2 := by unfold Fits; decide +kernel
theorem s2 : Runs m1 g2 := .init 10 s1 (eq_getOk _ (by decide +kernel)) gfits may
theorem gvalues : g2.positions = [⟨ofNat 125005499, -120, 120⟩] ∧ g2.amount0 = ofNat 1493579 ∧ g2.amount1 = ofNat 0 ∧
    g2.pool.tick = 198 := by decide +kernel

/-- The constant interval strategy. -/
def c0 : Strat := getOk (Strat.new (.constantInterval 120) (ofNat 1000000) (ofNat 2000000) Demo.p0) (by decide +kernel)
def c1 : Strat := { c0 with pool := getOk (mintOp.exec 10 c0.pool) (by decide +kernel) }
def c2 : Strat := (getOk (c1.init 10) (by decide +kernel)).2
def d3 : (U256 × U256) × Strat := getOk c2.burnAll (by decide +kernel)
def d4 : (U256 × U256) × Strat := getOk d3.2.burnAll (by decide +kernel)
theorem t0 : Runs [] c0 := .start (Or.inr (Or.inl rfl)) Demo.n0 (eq_getOk _ (by decide +kernel))
theorem t1 : Runs m1 c1 := .trade 10 mintOp t0
  (show total (book [] c0) + ((ofNat 50000000).toNat : Int) < 2 ^ 128 by decide +kernel) (eq_getOk _ (by decide +kernel))
theorem t2 : Runs m1 c2 := .init 10 t1 (eq_getOk _ (by decide +kernel)) (by unfold Fits; decide +kernel) (by
  intro w hw
  rw [show c1.kind = .constantInterval 120 by decide +kernel] at hw
  cases hw)

/-- The Bollinger strategy with a history of two prices. -/
def b1 : Strat := { getOk (Strat.new (.bollinger 2 100) (ofNat 1000000) (ofNat 2000000) Demo.p0) (by decide +kernel) with
  pool := getOk (mintOp.exec 10 Demo.p0) (by decide +kernel) }
def b2 : Strat := getOk b1.makeSnapshot (by decide +kernel)
def b3 : Strat := { b2 with pool := getOk (swapOp.exec 10 b2.pool) (by decide +kernel) }
def b4 : Strat := getOk b3.makeSnapshot (by decide +kernel)
def b5 : Strat := (getOk (b4.init 10) (by decide +kernel)).2

end StratDemo

open StratDemo in
/-- C39–C42, C60: the fill-up run meets all hypotheses of the theorems about `Init`, `Rebalance` and `BurnAll`, and opens
two positions each time. -/
example : Runs m1 f1 ∧ f1.init 10 = .ok (i2.1, f2) ∧ Fits m1 f2 ∧ MaySwap f1 i2.1 (book m1 f1) ∧ Kind.Sane f1.kind ∧
    Runs m1 f3 ∧ f3.rebalance 10 = .ok (some (ofNat 923288, ofNat 2076975), f4) ∧ Fits m1 f4 ∧ Kind.Sane f3.kind ∧
    Runs m1 f4 ∧ f4.burnAll = .ok (i5.1, f5) ∧
    f4.positions.Pairwise (fun q q' => posKey q.lower q.upper ≠ posKey q'.lower q'.upper) ∧
    f4.positions = [⟨ofNat 167175318, -120, 120⟩, ⟨ofNat 167213783, -120, 0⟩] :=
  ⟨r1, e2, fits2, noSwap (by decide +kernel), sane.1, r3, e4', fits4, sane.2, r4, e5, distinct.2, values.2.2.1⟩

open StratDemo in
/-- C39: the swapping strategy meets the hypotheses and does swap (the tick moves from 0 to 198). -/
example : Runs m1 g1 ∧ g1.init 10 = .ok (j2.1, g2) ∧ Fits m1 g2 ∧ MaySwap g1 j2.1 (book m1 g1) ∧ g1.pool.tick = 0 ∧ g2.pool.tick = 198 :=
  ⟨s1, eq_getOk _ _, gfits, may, by decide +kernel, gvalues.2.2.2⟩

open StratDemo in
/-- C41: fees that are not reported but paid: in the state before the rebalance, `GetAmounts` and `BurnAll` differ. -/
example : Runs m1 f3 ∧ fees1 f3.pool f3.positions = 230 ∧
    f3.getAmounts = .ok (ofNat 923288, ofNat 2076745) := ⟨r3, by decide +kernel, by decide +kernel⟩

open StratDemo in
/-- C42: the Bollinger band around the square root of the average, not aligned to the spacing 60. -/
example : b5.positions.map (fun q => (q.lower, q.upper)) = [(-315, 348)] ∧ b5.pool.tick = 39 := by decide +kernel

open StratDemo in
/-- C40 does not hold for the three strategies that keep the list: the second `BurnAll` of the constant interval strategy
pays the positions again. -/
theorem C40_twice : Runs m1 c2 ∧ KeepsList c2.kind ∧ c2.burnAll = .ok (d3.1, d3.2) ∧ d3.2.positions = c2.positions ∧
    d3.2.burnAll = .ok (d4.1, d4.2) ∧ d3.1 = (ofNat 999999, ofNat 1999999) ∧ d4.1 = (ofNat 1999998, ofNat 2999998) :=
  ⟨t2, by rw [show c2.kind = .constantInterval 120 by decide +kernel]; trivial, eq_getOk _ _, by decide +kernel,
    eq_getOk _ _, by decide +kernel, by decide +kernel⟩

end Props
end Uni
