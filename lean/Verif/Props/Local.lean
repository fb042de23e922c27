import Verif.Proofs.Local
import Verif.Proofs.Strategy
/-! # C93: a swap is not affected by liquidity that it does not reach -/
namespace Uni
namespace Props
open U256 Pool Spec TickData TickMath

/-- C93: two pools with the same fee rate, price and tick, whose liquidity differs only in ranges that both swaps miss, answer the
same swap - exact input or exact output, in either direction - with the same trade. -/
theorem C93_both {h h' : List Entry} {p q : Pool} (hr : Reachable h p) (hr' : Reachable h' q) {fuel fuel' : Nat} {z : Bool}
    {amount limit : U256} {r r' : U256 × U256 × Pool} (ha : amount.toInt < 2 ^ 160)
    (hgood : z = true → ¬ SearchBroken p.spacing p.tick)
    (hx : p.swap fuel z amount limit = .ok r) (hy : q.swap fuel' z amount limit = .ok r')
    (hs : SameReached z r.2.2.price.toNat h h' p q) (hs' : SameReached z r'.2.2.price.toNat h h' p q) : SameTrade p q r r' := by
  by_cases hc : Within z r.2.2.price.toNat r'.2.2.price.toNat
  · exact swap_like hr hr' hs ha hgood hx hy (by unfold Within; cases z <;> simp) (Or.inl rfl) (Or.inl hc)
  · refine swap_like hr hr' hs' ha hgood hx hy ?_ (Or.inr rfl) (Or.inl (by unfold Within; cases z <;> simp))
    unfold Within at *
    cases z
    · simp at hc ⊢; omega
    · simp at hc ⊢; omega

/-- C93: for exact input it suffices that the first swap misses the ranges in which the pools differ.  (When token0 is sold, the
product of amount and price must be below `2^255`; beyond that the code computes the next price by a rougher formula.) -/
theorem C93_input {h h' : List Entry} {p q : Pool} (hr : Reachable h p) (hr' : Reachable h' q) {fuel fuel' : Nat} {z : Bool}
    {amount limit : U256} {r r' : U256 × U256 × Pool} (h0 : 0 < amount.toInt) (ha : amount.toInt < 2 ^ 160)
    (hgood : z = true → ¬ SearchBroken p.spacing p.tick) (hsmall : z = true → amount.toInt * p.price.toNat < 2 ^ 255)
    (hx : p.swap fuel z amount limit = .ok r) (hy : q.swap fuel' z amount limit = .ok r')
    (hs : SameReached z r.2.2.price.toNat h h' p q) : SameTrade p q r r' :=
  swap_like hr hr' hs ha hgood hx hy (by unfold Within; cases z <;> simp) (Or.inl rfl) (Or.inr ⟨h0, hsmall⟩)

/-- C93: an exact-input purchase of token0 that returns in the first pool returns in the second, if that holds any liquidity. -/
theorem C93_buy {h h' : List Entry} {p q : Pool} (hr : Reachable h p) (hr' : Reachable h' q) {fuel fuel' : Nat}
    {amount limit : U256} {r : U256 × U256 × Pool} (h0 : 0 < amount.toInt) (ha : amount.toInt < 2 ^ 160)
    (hx : p.swap fuel false amount limit = .ok r) (hliq : ∃ t, grossAt h' t ≠ 0) (hf : (887272 - q.tick).toNat + 2 ≤ fuel')
    (hs : SameReached false r.2.2.price.toNat h h' p q) :
    ∃ r', q.swap fuel' false amount limit = .ok r' ∧ SameTrade p q r r' := by
  have hl : LimitValid q false limit := by
    obtain ⟨r0, r1, p'⟩ := r
    obtain ⟨_, h2, _⟩ := swap_eq hx
    have := (limitValid_iff p false limit).2 h2
    unfold LimitValid at *
    rw [← hs.price]
    exact this
  obtain ⟨r', hy⟩ := C27_up h' q hr' amount limit (by intro hc; rw [← toInt_eq_zero] at hc; omega) ha hl hliq fuel' hf
  exact ⟨r', hy, C93_input hr hr' h0 ha (fun hz => by cases hz) (fun hz => by cases hz) hx hy hs⟩

theorem quiet_still {h : List Entry} {p p' : Pool} (hi : Inv h p) {fuel : Nat} {op : PoolOp}
    (ho : ∀ a t l, op ≠ .exactInput a t l ∧ op ≠ .exactOutput a t l) (hx : op.exec fuel p = .ok p') :
    p'.fee = p.fee ∧ p'.price = p.price ∧ p'.tick = p.tick := by
  have still : ∀ {q : Pool}, Strat.Still p q → q.fee = p.fee ∧ q.price = p.price ∧ q.tick = p.tick :=
    fun s => ⟨s.same.2.1, s.price, s.tick⟩
  cases op with
  | mint l u a =>
    have hx' : p.mint l u a = .ok p' := hx
    unfold mint at hx'
    obtain ⟨_, _, hx'⟩ := bind_ok hx'
    obtain ⟨_, _, _, _, _, _, _, rfl⟩ := modifyPosition_eq hi.ticks.inc hx'
    exact ⟨rfl, rfl, rfl⟩
  | burn l u a =>
    obtain ⟨_, _, _, _, _, _, _, rfl⟩ := modifyPosition_eq hi.ticks.inc hx
    exact ⟨rfl, rfl, rfl⟩
  | mintStrategy l u a =>
    obtain ⟨⟨r0, r1, q'⟩, h3, h4⟩ := bind_ok hx
    cases h4
    obtain ⟨_, _, pos, h5⟩ := mintStrategy_eq h3
    exact still (Strat.modifyStrategy_still h5)
  | burnStrategy l u a =>
    obtain ⟨⟨r0, r1, q'⟩, h3, h4⟩ := bind_ok hx
    cases h4
    exact still (Strat.burnStrategy_still h3)
  | collectStrategy l u =>
    obtain ⟨⟨r0, r1, q'⟩, h3, h4⟩ := bind_ok hx
    cases h4
    exact still (Strat.collectStrategy_still h3)
  | flash a b =>
    have hx' : p.flash a b = .ok p' := hx
    unfold flash at hx'
    obtain ⟨_, _, hx'⟩ := bind_ok hx'
    obtain ⟨_, _, hx'⟩ := bind_ok hx'
    obtain ⟨_, _, hx'⟩ := bind_ok hx'
    obtain ⟨_, _, hx'⟩ := bind_ok hx'
    obtain ⟨_, _, hx'⟩ := bind_ok hx'
    cases hx'
    exact ⟨rfl, rfl, rfl⟩
  | exactInput a t l => exact absurd rfl (ho a t l).1
  | exactOutput a t l => exact absurd rfl (ho a t l).2

theorem aside_still {z : Bool} {tick : Int} {P : Nat} {h : List Entry} {p p' : Pool} (hi : Inv h p) {fuel : Nat} {op : PoolOp}
    (ho : op.Aside z tick P) (hx : op.exec fuel p = .ok p') : p'.fee = p.fee ∧ p'.price = p.price ∧ p'.tick = p.tick :=
  quiet_still hi (fun a t l => ⟨fun hc => by subst hc; exact ho, fun hc => by subst hc; exact ho⟩) hx

theorem aside_ledger {z : Bool} {tick : Int} {P : Nat} (h : List Entry) {op : PoolOp} (ho : op.Aside z tick P) (l u : Int) :
    outstanding h l u = outstanding (op.ledger h) l u ∨ Misses z tick P l u := by
  have key : ∀ (a b d : Int), Misses z tick P a b → outstanding h l u = outstanding (⟨a, b, d⟩ :: h) l u ∨ Misses z tick P l u := by
    intro a b d hm
    by_cases hc : a = l ∧ b = u
    · obtain ⟨rfl, rfl⟩ := hc
      exact Or.inr hm
    · left
      unfold outstanding
      rw [wsum_cons]
      dsimp only
      rw [if_neg hc]
      simp
  cases op with
  | mint a b d => exact key a b _ ho
  | mintStrategy a b d => exact key a b _ ho
  | burn a b d =>
    show _ = outstanding (if _ then _ else _) l u ∨ _
    split
    · exact Or.inl rfl
    · exact key a b _ ho
  | burnStrategy a b d =>
    show _ = outstanding (if _ then _ else _) l u ∨ _
    split
    · exact Or.inl rfl
    · exact key a b _ ho
  | collectStrategy => exact Or.inl rfl
  | flash => exact Or.inl rfl
  | exactInput => exact ho.elim
  | exactOutput => exact ho.elim

theorem elsewhere_same {h h' : List Entry} {p q : Pool} {z : Bool} {P : Nat} (hr : Reachable h p)
    (he : Elsewhere z p.tick P h p h' q) : Reachable h' q ∧ SameReached z P h h' p q := by
  induction he with
  | start => exact ⟨hr, rfl, rfl, rfl, fun _ _ => Or.inl rfl⟩
  | @step h1 q1 q2 fuel op _ ha ho hx ih =>
    obtain ⟨hr1, hs⟩ := ih
    obtain ⟨e1, e2, e3⟩ := aside_still (reachable_inv hr1) ho hx
    refine ⟨?_, hs.fee.trans e1.symm, hs.price.trans e2.symm, hs.tick.trans e3.symm, ?_⟩
    · obtain ⟨a, b, fee, price, p0, hf, hn, hr1⟩ := hr1
      exact ⟨a, b, fee, price, p0, hf, hn, .step fuel op hr1 ha hx⟩
    · intro l u
      rcases hs.ranges l u with c | c
      · rw [c]; exact aside_ledger h1 ho l u
      · exact Or.inr c

/-- C93: whatever is minted, burned, collected or lent out before an exact-input swap, in ranges that the swap misses, makes no
difference to it. -/
theorem C93_elsewhere {h h' : List Entry} {p q : Pool} (hr : Reachable h p) {fuel fuel' : Nat} {z : Bool}
    {amount limit : U256} {r r' : U256 × U256 × Pool} (h0 : 0 < amount.toInt) (ha : amount.toInt < 2 ^ 160)
    (hgood : z = true → ¬ SearchBroken p.spacing p.tick) (hsmall : z = true → amount.toInt * p.price.toNat < 2 ^ 255)
    (hx : p.swap fuel z amount limit = .ok r) (he : Elsewhere z p.tick r.2.2.price.toNat h p h' q)
    (hy : q.swap fuel' z amount limit = .ok r') : SameTrade p q r r' := by
  obtain ⟨hr', hs⟩ := elsewhere_same hr he
  exact C93_input hr hr' h0 ha hgood hsmall hx hy hs

/-! ### Instances -/

-- 500 token1 do not reach the range from 60 to 240, whether 2000000 of liquidity are there or not
theorem demo_aside {z : Bool} {P : Nat} (hm : Misses z 0 P 60 240) : Elsewhere z Demo.p1.tick P Demo.h1 Demo.p1 Demo.h3 Demo.p2 :=
  .step 10 Demo.op2 .start Demo.a2 hm (demo_mint (by decide +kernel) rfl)

example : ∃ r r', Demo.p1.swap 10 false (ofNat 500) zero = .ok r ∧ Demo.p2.swap 10 false (ofNat 500) zero = .ok r' ∧
    Reachable Demo.h1 Demo.p1 ∧ Elsewhere false Demo.p1.tick r.2.2.price.toNat Demo.h1 Demo.p1 Demo.h3 Demo.p2 ∧
    0 < (ofNat 500).toInt ∧ (ofNat 500).toInt < 2 ^ 160 ∧ sold false r = 500 ∧ bought false r < 0 :=
  ⟨_, _, eq_getOk _ (by decide +kernel), eq_getOk _ (by decide +kernel), Demo.reachable Demo.r1,
    demo_aside (by unfold Misses; decide +kernel), by decide +kernel, by decide +kernel, by decide +kernel, by decide +kernel⟩

-- selling 6000 of token0 at tick 93 crosses tick 60, and does not reach a deposit below tick 0
example : ∃ r r' q, Demo.p3.swap 10 true (ofNat 6000) zero = .ok r ∧ Demo.p3.mint (-180) (-60) (ofNat 5000000) = .ok q ∧
    q.swap 10 true (ofNat 6000) zero = .ok r' ∧
    Elsewhere true Demo.p3.tick r.2.2.price.toNat Demo.h3 Demo.p3 (⟨-180, -60, 5000000⟩ :: Demo.h3) q ∧ r.2.2.tick < 60 ∧
    ¬ SearchBroken Demo.p3.spacing Demo.p3.tick ∧ (ofNat 6000).toInt * Demo.p3.price.toNat < 2 ^ 255 :=
  ⟨_, _, _, eq_getOk _ (by decide +kernel), eq_getOk _ (by decide +kernel), eq_getOk _ (by decide +kernel),
    .step (h' := Demo.h3) 10 (.mint (-180) (-60) (ofNat 5000000)) .start
      (show total Demo.h3 + ((ofNat 5000000).toNat : Int) < 2 ^ 128 by decide +kernel)
      (show Misses _ _ _ (-180) (-60) by unfold Misses; decide +kernel) (eq_getOk _ (by decide +kernel)), by decide +kernel, Demo.good93, by decide +kernel⟩

/-- C93: for exact output it does not suffice that the first swap misses the ranges.  A pool holds 1000000 of liquidity from tick
-120 to 180; a purchase of 2995 of token0 ends below tick 60.  After a deposit from 60 to 240 the same purchase goes on to the price
of tick 60, and leaves a different pool. -/
theorem C93_output_counterexample : ∃ r r', Demo.p1.swap 10 false (neg (ofNat 2995)) zero = .ok r ∧
    Demo.p2.swap 10 false (neg (ofNat 2995)) zero = .ok r' ∧ Reachable Demo.h1 Demo.p1 ∧
    Elsewhere false Demo.p1.tick r.2.2.price.toNat Demo.h1 Demo.p1 Demo.h3 Demo.p2 ∧
    r.2.2.price.toNat < r'.2.2.price.toNat ∧ r'.2.2.price.toNat = tickPrice 60 ∧ r.2.2.liquidity.toNat = 1000000 ∧
    r'.2.2.liquidity.toNat = 3000000 :=
  ⟨_, _, eq_getOk _ (by decide +kernel), eq_getOk _ (by decide +kernel), Demo.reachable Demo.r1,
    demo_aside (by unfold Misses; decide +kernel), by decide +kernel, by decide +kernel, by decide +kernel, by decide +kernel⟩

end Props
end Uni
