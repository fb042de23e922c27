import Verif.Proofs.Credit
import Verif.Proofs.Fees
/-! # C28, C29: fee growth and fees credited to positions -/
namespace Uni
namespace Props
open U256 Spec TickData TickMath Pool

/-- C28: over any history that keeps both boundaries of `[l, u)` initialized, the fee growth inside the range
increases by exactly the increments that accrued while the current tick was in the range. -/
theorem C28_inside (h h' : List Entry) (p p' : Pool) (hr : Reachable h p) (l u : Int) (hlu : l < u) (log : List Accrual)
    (hev : Evolves (fun _ => True) (fun q => Pool.Initialized q l ∧ Pool.Initialized q u) h p log h' p')
    (a b : U256 × U256) (ha : p.ticks.getFeeGrowthInside l u p.tick p.growth0 p.growth1 = .ok a)
    (hb : p'.ticks.getFeeGrowthInside l u p'.tick p'.growth0 p'.growth1 = .ok b) :
    b.1 = add a.1 (accrued0 l u log) ∧ b.2 = add a.2 (accrued1 l u log) :=
  evolves_inside (le_of_lt hlu) (reachable_inv hr) hev ha hb

/-- C28: the call does return on both sides, and the increments of the log add up to the increase of the global growths. -/
theorem C28_global (h h' : List Entry) (p p' : Pool) (hr : Reachable h p) (l u : Int) (log : List Accrual)
    (hev : Evolves (fun _ => True) (fun q => Pool.Initialized q l ∧ Pool.Initialized q u) h p log h' p') :
    p'.growth0 = add p.growth0 (accruedAll0 log) ∧ p'.growth1 = add p.growth1 (accruedAll1 log) ∧
    ∃ b, p'.ticks.getFeeGrowthInside l u p'.tick p'.growth0 p'.growth1 = .ok b := by
  obtain ⟨i1, _, i2, k1, k2, _⟩ := evolves_growth (i := l) (reachable_inv hr) (fun q hq => hq.1) hev
  obtain ⟨x, hx⟩ := Option.isSome_iff_exists.1 i2.1
  obtain ⟨y, hy⟩ := Option.isSome_iff_exists.1 i2.2
  exact ⟨k1, k2, _, inside_eq i1.ticks.inc hx hy _ _ _⟩

/-- C28: the accruals of a swap.  Each iteration takes a fee `f` in the token that is sold and adds
`⌊f * 2^128 / liquidity⌋` to the growth of that token, where the liquidity is that of all ranges that contain the
tick of the iteration.  The fees are part of what is sold and at least the fee rate of it. -/
theorem C28_swap (h : List Entry) (p p' : Pool) (hr : Reachable h p) (fuel : Nat) (z : Bool) (amount limit r0 r1 : U256)
    (ha : amount.toInt < 2 ^ 160) (hc : z = true → ClearAbove p.spacing p.tick h)
    (hx : p.swap fuel z amount limit = .ok (r0, r1, p')) :
    ∃ fees : List Nat, List.Forall₂ (FeeOf h z) (callLog fuel p z amount limit) fees ∧
      (fees.sum : Int) ≤ sold z (r0, r1, p') ∧ p.fee * sold z (r0, r1, p') ≤ 1000000 * (fees.sum : Int) := by
  have hi := reachable_inv hr
  obtain ⟨i, fees, h1, h2, h3⟩ := swap_fees hi ha hc hx
  refine ⟨fees, h1, by omega, ?_⟩
  have h4 := hi.fee0
  have h5 := hi.fee1
  obtain ⟨f, hf⟩ := Int.eq_ofNat_of_zero_le h4
  rw [hf] at h5 h3 ⊢
  rw [Int.toNat_natCast] at h3
  have h6 : ((1000000 - f : Nat) : Int) = 1000000 - (f : Int) := by omega
  have h7 : (i : Int) * f ≤ (fees.sum : Int) * (1000000 - f) := by
    rw [← h6]; exact_mod_cast h3
  rw [h2]
  linarith [mul_comm (f : Int) i, mul_comm (f : Int) (fees.sum : Int)]

-- the demo pool: the swap from `p2` to `p3` crosses tick 60; both boundaries of [-120, 180) and of [60, 240) stay initialized
theorem demo_evolves (l u : Int) (h0 : Pool.Initialized Demo.p2 l ∧ Pool.Initialized Demo.p2 u)
    (h1 : Pool.Initialized Demo.p3 l ∧ Pool.Initialized Demo.p3 u) :
    Evolves (fun _ => True) (fun q => Pool.Initialized q l ∧ Pool.Initialized q u) Demo.h3 Demo.p2
      ([] ++ Demo.op3.log 10 Demo.p2 Demo.p3) Demo.h3 Demo.p3 :=
  .step 10 Demo.op3 (.refl h0) trivial Demo.a3 (demo_swap (by decide +kernel) rfl) h1

example : Reachable Demo.h3 Demo.p2 ∧ Pool.Initialized Demo.p2 60 ∧ Pool.Initialized Demo.p3 240 ∧
    Demo.p2.ticks.getFeeGrowthInside 60 240 Demo.p2.tick Demo.p2.growth0 Demo.p2.growth1 = .ok (zero, zero) ∧
    Demo.p3.ticks.getFeeGrowthInside 60 240 Demo.p3.tick Demo.p3.growth0 Demo.p3.growth1 =
      .ok (zero, ofNat 1701411834604692317316873037158841) ∧
    accrued1 60 240 (Demo.op3.log 10 Demo.p2 Demo.p3) = ofNat 1701411834604692317316873037158841 ∧
    accrued1 (-120) 180 (Demo.op3.log 10 Demo.p2 Demo.p3) = ofNat 5104235503814076951950619111476523 :=
  ⟨Demo.reachable Demo.r2, rfl, rfl, by decide +kernel, by decide +kernel, by decide +kernel, by decide +kernel⟩

/-- The two operations that use the position record of `[l, u)` and change its liquidity. -/
def IsTouch (l u : Int) (op : PoolOp) : Prop := (∃ a, op = .mintStrategy l u a) ∨ (∃ a, op = .burnStrategy l u a)

theorem touch_fresh {h : List Entry} {p p' : Pool} (hi : Inv h p) {l u : Int} {op : PoolOp} (ht : IsTouch l u op) {fuel : Nat}
    (ha : op.Admissible p h) (hx : op.exec fuel p = .ok p') (ho : 0 < outstanding (op.ledger h) l u) :
    ∃ i, Fresh l u p' i := by
  have hi' := exec_inv hi ha hx
  obtain ⟨g1, g2⟩ := hi'.cov.gross_pos ho
  have hin := And.intro (init_of_gross hi' (show grossAt _ l ≠ 0 by omega)) (init_of_gross hi' (show grossAt _ u ≠ 0 by omega))
  rcases ht with ⟨a, rfl⟩ | ⟨a, rfl⟩
  · obtain ⟨⟨r0, r1, q'⟩, h3, h4⟩ := bind_ok hx
    cases h4
    obtain ⟨_, _, pos, h5⟩ := mintStrategy_eq h3
    obtain ⟨ins, _, _, h6⟩ := touch_inside hi h5
    exact ⟨pos, h6 hin⟩
  · obtain ⟨⟨r0, r1, q'⟩, h3, h4⟩ := bind_ok hx
    cases h4
    obtain ⟨pos, a0, a1, q, h5, _, _, h7⟩ := burnStrategy_eq h3
    obtain ⟨ins, _, _, h6⟩ := touch_inside hi h5
    dsimp only at hin ⊢
    rw [h7] at hin ⊢
    obtain ⟨_, h9⟩ := h6 hin
    exact ⟨_, setPos_same, h9⟩

/-- C29: between two uses of the position record of `[l, u)` (the first a strategy mint or burn that leaves liquidity in
the range, the second a strategy burn) anything may happen that leaves the record alone.  The burn then credits
exactly the record's share of the growth that accrued in the range since the first use, and the burned principal. -/
theorem C29_burn (h h' : List Entry) (p p1 p2 p3 : Pool) (hr : Reachable h p) (l u : Int) (fuel : Nat) (op : PoolOp)
    (ht : IsTouch l u op) (ha : op.Admissible p h) (hx : op.exec fuel p = .ok p1)
    (ho : 0 < outstanding (op.ledger h) l u) (i : Info) (hi : p1.positions (posKey l u) = some i) (log : List Accrual)
    (hev : Evolves (PoolOp.LeavesAlone l u) (fun _ => True) (op.ledger h) p1 log h' p2)
    (a b0 b1 : U256) (hb : p2.burnStrategy l u a = .ok (b0, b1, p3)) :
    ∃ i', p3.positions (posKey l u) = some i' ∧ i'.liquidity = sub i.liquidity a ∧
      i'.owed0 = add (add i.owed0 (share i.liquidity (accrued0 l u log))) b0 ∧
      i'.owed1 = add (add i.owed1 (share i.liquidity (accrued1 l u log))) b1 := by
  have hinv := reachable_inv hr
  obtain ⟨j, hj⟩ := touch_fresh hinv ht ha hx ho
  have hji : j = i := by have := hj.1; rw [hi] at this; exact (Option.some.inj this).symm
  subst hji
  obtain ⟨pos, a0, a1, q, h5, _, _, h7⟩ := burnStrategy_eq hb
  obtain ⟨c1, c2, c3⟩ := touch_credit (exec_inv hinv ha hx) hj ho hev h5
  rw [h7]
  refine ⟨_, setPos_same, ?_, ?_, ?_⟩
  · dsimp only
    rw [c1, neg_def, sub_def, sub_eq_add_neg]
  · dsimp only
    rw [c2]; rfl
  · dsimp only
    rw [c3]; rfl

/-- C29: the same for a second strategy mint. -/
theorem C29_mint (h h' : List Entry) (p p1 p2 p3 : Pool) (hr : Reachable h p) (l u : Int) (fuel : Nat) (op : PoolOp)
    (ht : IsTouch l u op) (ha : op.Admissible p h) (hx : op.exec fuel p = .ok p1)
    (ho : 0 < outstanding (op.ledger h) l u) (i : Info) (hi : p1.positions (posKey l u) = some i) (log : List Accrual)
    (hev : Evolves (PoolOp.LeavesAlone l u) (fun _ => True) (op.ledger h) p1 log h' p2)
    (a b0 b1 : U256) (hb : p2.mintStrategy l u a = .ok (b0, b1, p3)) :
    ∃ i', p3.positions (posKey l u) = some i' ∧ i'.liquidity = add i.liquidity a ∧
      i'.owed0 = add i.owed0 (share i.liquidity (accrued0 l u log)) ∧
      i'.owed1 = add i.owed1 (share i.liquidity (accrued1 l u log)) := by
  have hinv := reachable_inv hr
  obtain ⟨j, hj⟩ := touch_fresh hinv ht ha hx ho
  have hji : j = i := by have := hj.1; rw [hi] at this; exact (Option.some.inj this).symm
  subst hji
  obtain ⟨_, _, pos, h5⟩ := mintStrategy_eq hb
  obtain ⟨c1, c2, c3⟩ := touch_credit (exec_inv hinv ha hx) hj ho hev h5
  rw [modifyStrategy_pos h5]
  exact ⟨pos, setPos_same, c1, c2, c3⟩

/-- C29: a range without a record is minted; anything may happen that leaves its record alone; the liquidity is burned
and collected.  The payout is the burned principal plus the share of the growth that accrued in the range in
between, and the record is empty afterwards. -/
theorem C29_payout (h h' : List Entry) (p p1 p2 p3 p4 : Pool) (hr : Reachable h p) (l u : Int) (L : U256)
    (hnone : p.positions (posKey l u) = none) (hL : total h + L.toNat < 2 ^ 128)
    (a0 a1 : U256) (hm : p.mintStrategy l u L = .ok (a0, a1, p1)) (log : List Accrual)
    (hev : Evolves (PoolOp.LeavesAlone l u) (fun _ => True) (⟨l, u, L.toNat⟩ :: h) p1 log h' p2)
    (b0 b1 : U256) (hb : p2.burnStrategy l u L = .ok (b0, b1, p3))
    (c0 c1 : U256) (hc : p3.collectStrategy l u = .ok (c0, c1, p4)) :
    c0 = add (share L (accrued0 l u log)) b0 ∧ c1 = add (share L (accrued1 l u log)) b1 ∧
    ∃ i, p4.positions (posKey l u) = some i ∧ i.liquidity = zero ∧ i.owed0 = zero ∧ i.owed1 = zero := by
  have hinv := reachable_inv hr
  obtain ⟨hp, hp', pos, h5⟩ := mintStrategy_eq hm
  have hx : PoolOp.exec 0 p (.mintStrategy l u L) = .ok p1 := by
    show (p.mintStrategy l u L >>= _) = _
    rw [hm]; rfl
  have ho : 0 < outstanding (⟨l, u, L.toNat⟩ :: h) l u := by
    have := hinv.cov.nonneg l u
    rw [outstanding_cons, if_pos ⟨rfl, rfl⟩]
    dsimp only
    omega
  obtain ⟨ins, k1, _, _⟩ := touch_inside hinv h5
  rw [hnone] at k1
  obtain ⟨_, _, u3, u4, u5⟩ := update_ok k1
  have z0 : ∀ g, share (posOrNew none).liquidity g = 0 := by
    intro g
    show share zero g = 0
    unfold share
    rw [show zero.toNat = 0 by decide, Nat.zero_mul, Nat.zero_div]
    rfl
  rw [z0] at u4 u5
  have e1 : pos.liquidity = L := by rw [u3]; exact zero_add L
  have e2 : pos.owed0 = 0 := by rw [u4]; exact zero_add _
  have e3 : pos.owed1 = 0 := by rw [u5]; exact zero_add _
  obtain ⟨i', m1, m2, m3, m4⟩ := C29_burn h h' p p1 p2 p3 hr l u 0 _ (Or.inl ⟨L, rfl⟩) hL hx ho pos
    (by rw [modifyStrategy_pos h5]; exact setPos_same) log hev L b0 b1 hb
  unfold collectStrategy at hc
  rw [m1] at hc
  cases hc
  rw [e1] at m2 m3 m4
  rw [e2] at m3
  rw [e3] at m4
  refine ⟨?_, ?_, _, setPos_same, ?_, rfl, rfl⟩
  · rw [m3]; simp only [add_def, zero_add]
  · rw [m4]; simp only [add_def, zero_add]
  · dsimp only; rw [m2, sub_def, sub_self]; rfl

-- the demo pool: the range [-120, 180) is minted at `p0`, then a plain mint and a swap across tick 60 follow
theorem demo_alone : Evolves (PoolOp.LeavesAlone (-120) 180) (fun _ => True) Demo.h1 Demo.p1
      (([] ++ Demo.op2.log 10 Demo.p1 Demo.p2) ++ Demo.op3.log 10 Demo.p2 Demo.p3) Demo.h3 Demo.p3 :=
  .step 10 Demo.op3 (.step 10 Demo.op2 (.refl trivial) trivial Demo.a2 (demo_mint (by decide +kernel) rfl) trivial) trivial
    Demo.a3 (demo_swap (by decide +kernel) rfl) trivial

example : Demo.p0.positions (posKey (-120) 180) = none ∧ isOk (Demo.p0.mintStrategy (-120) 180 (ofNat 1000000)) = true ∧
    (∃ r, Demo.p3.burnStrategy (-120) 180 (ofNat 1000000) = .ok r ∧
      ∃ c, r.2.2.collectStrategy (-120) 180 = .ok c ∧ r.2.1 = ofNat 10642 ∧ c.2.1 = ofNat 10656) ∧
    share (ofNat 1000000) (accrued1 (-120) 180 (Demo.op3.log 10 Demo.p2 Demo.p3)) = ofNat 14 := by
  refine ⟨rfl, by decide +kernel, ⟨_, eq_getOk _ (by decide +kernel), _, eq_getOk _ (by decide +kernel), ?_, ?_⟩, ?_⟩ <;> decide +kernel

end Props
end Uni
