import Verif.Spec.Gains
import Verif.Proofs.Start
import Verif.Props.Cash
/-! # Who pays for the gains of a strategy -/
namespace Uni
open U256 Spec TickData TickMath SwapMath FullMath SqrtPriceMath LiquidityAmounts Pool
namespace Strat

theorem accounts_runs {rs : List (Int × Int)} {x : U256 × U256} {m : List Entry} {s : Strat} {n : Int × Int}
    (h : Accounts rs x m s n) : Runs m s := by
  induction h with
  | start hf hn hs => exact .start hf hn hs
  | trade fuel op _ ho _ hx ih => exact .trade fuel op ih ho hx
  | snapshot _ hx ih => exact .snapshot ih hx
  | init fuel _ hx hf hw _ _ ih => exact .init fuel ih hx hf hw
  | rebalance fuel _ hx hf hw _ _ ih => exact .rebalance fuel ih hx hf hw
  | burnAll _ hx he ih => exact .burnAll ih hx he

/-- Among ranges with separate records, the liquidity recorded for a range is that of the positions in it. -/
theorem natAt_outstanding {rs : List (Int × Int)} (ho : OwnRecords rs) {ps : List StratPos} (hu : ∀ q ∈ ps, (q.lower, q.upper) ∈ rs)
    {l u : Int} (hr : (l, u) ∈ rs) : (natAt ps (posKey l u) : Int) = outstanding (entries ps) l u := by
  induction ps with
  | nil => rfl
  | cons q ps ih =>
    have h1 := ih fun q' hq' => hu q' (List.mem_cons_of_mem _ hq')
    rw [natAt_cons, show entries (q :: ps) = ⟨q.lower, q.upper, q.amount.toNat⟩ :: entries ps from rfl, outstanding_cons]
    dsimp only
    by_cases hk : q.lower = l ∧ q.upper = u
    · rw [if_pos hk, if_pos (by rw [hk.1, hk.2])]
      omega
    · rw [if_neg hk, if_neg (fun e => ?_)]
      · omega
      · have := ho.2 _ (hu q List.mem_cons_self) _ hr e
        exact hk ⟨congrArg Prod.fst this, congrArg Prod.snd this⟩

/-- What is kept along a run: the pool has a cash history whose cash, together with the balances, is at most `t`. -/
structure Kept (rs : List (Int × Int)) (p0 : Pool) (m : List Entry) (ps : List StratPos) (s : Strat) (t : Int × Int) : Prop where
  cash : ∃ h b0 b1, Cash rs p0 h s.pool b0 b1 ∧ SameBook h (entries ps ++ m) ∧
    (s.amount0.toNat : Int) + b0 ≤ t.1 ∧ (s.amount1.toNat : Int) + b1 ≤ t.2
  own : Owns m ps s.pool
  liq : ∀ k, liqAt s.pool k = sumAt ps k
  uses : ∀ q ∈ ps, (q.lower, q.upper) ∈ rs

theorem cash_input {fuel : Nat} {p p' : Pool} {a r0 r1 lim : U256} {t : String} (h : p.exactInputSwap fuel a t lim = .ok (r0, r1, p')) :
    PoolOp.cash fuel p (.exactInput a t lim) = (r0.toInt, r1.toInt) := by
  simp only [PoolOp.cash, PoolOp.flow, h]
theorem cash_collect {fuel : Nat} {p p' : Pool} {l u : Int} {c0 c1 : U256} (h : p.collectStrategy l u = .ok (c0, c1, p')) :
    PoolOp.cash fuel p (.collectStrategy l u) = (-(c0.toNat : Int), -(c1.toNat : Int)) := by
  simp only [PoolOp.cash, h]
theorem cash_mint {fuel : Nat} {p p' : Pool} {l u : Int} {a c0 c1 : U256} (h : p.mintStrategy l u a = .ok (c0, c1, p')) :
    PoolOp.cash fuel p (.mintStrategy l u a) = ((c0.toNat : Int), (c1.toNat : Int)) := by
  simp only [PoolOp.cash, PoolOp.flow, h]

/-- Minting the positions moves their cost into the pool. -/
theorem mints_cash {rs : List (Int × Int)} {p0 p p' : Pool} {new : List StratPos} (hm : Mints p new p') :
    ∀ {h : List Entry} {b0 b1 : Int}, Reachable h p → Cash rs p0 h p b0 b1 → total h + total (entries new) < 2 ^ 128 →
      (∀ q ∈ new, (q.lower, q.upper) ∈ rs) →
      ∃ h', Cash rs p0 h' p' (b0 + cost0 p.price.toNat new) (b1 + cost1 p.price.toNat new) ∧ SameBook h' (entries new ++ h) := by
  induction hm with
  | nil p =>
    intro h b0 b1 _ hc _ _
    refine ⟨h, ?_, SameBook.refl _⟩
    have e0 : b0 + cost0 p.price.toNat [] = b0 := Int.add_zero b0
    have e1 : b1 + cost1 p.price.toNat [] = b1 := Int.add_zero b1
    rw [e0, e1]
    exact hc
  | @cons p p1 p' q qs a0 a1 hq _ ih =>
    intro h b0 b1 hr hc hf hu
    have hn := total_entries_nonneg qs
    rw [show entries (q :: qs) = ⟨q.lower, q.upper, q.amount.toNat⟩ :: entries qs from rfl, total_cons] at hf
    dsimp only at hf
    have hi := Props.reachable_inv hr
    have ht : 0 ≤ total h := wsum_nonneg hi.cov.nonneg (fun _ _ _ => by decide)
    have hf1 : total h + q.amount.toNat < 2 ^ 128 := by omega
    obtain ⟨e0, e1⟩ := mintStrategy_amounts hi (by omega) hq
    have hst : Still p p1 := by
      obtain ⟨_, _, pos, b3⟩ := mintStrategy_eq hq
      exact modifyStrategy_still b3
    have hc1 := Cash.step 0 (.mintStrategy q.lower q.upper q.amount) hc hf1 trivial (hu q List.mem_cons_self) (exec_mint hq)
    have hr1 := reachable_step hr 0 (.mintStrategy q.lower q.upper q.amount) hf1 (exec_mint hq)
    rw [cash_mint hq] at hc1
    obtain ⟨h', k1, k2⟩ := ih hr1 hc1 (by
      show total (⟨q.lower, q.upper, q.amount.toNat⟩ :: h) + _ < _
      rw [total_cons]
      dsimp only
      omega) (fun q' hq' => hu q' (List.mem_cons_of_mem _ hq'))
    refine ⟨h', ?_, ?_⟩
    · rw [hst.price] at k1
      have c0 : cost0 p.price.toNat (q :: qs) = a0.toNat + cost0 p.price.toNat qs := by
        rw [show q :: qs = [q] ++ qs from rfl, cost0_append, cost0_single, e0]
      have c1 : cost1 p.price.toNat (q :: qs) = a1.toNat + cost1 p.price.toNat qs := by
        rw [show q :: qs = [q] ++ qs from rfl, cost1_append, cost1_single, e1]
      rw [c0, c1, ← Int.add_assoc, ← Int.add_assoc]
      exact k1
    · intro R _ w
      rw [k2 R w]
      exact (sameBook_front _ _ _ R w).symm

theorem cash_reachable {rs : List (Int × Int)} {p0 p : Pool} {h : List Entry} {b0 b1 : Int} (hc : Cash rs p0 h p b0 b1)
    (h0 : Reachable [] p0) : Reachable h p := by
  induction hc with
  | start => exact h0
  | step fuel op _ ha _ _ hx ih => exact reachable_step ih fuel op ha hx

theorem Kept.mints {rs : List (Int × Int)} {p0 : Pool} (h0 : Reachable [] p0) {m : List Entry} {s s' : Strat} {t : Int × Int}
    (hk : Kept rs p0 m s.positions s t) {new : List StratPos} (hm : Mints s.pool new s'.pool)
    (hg : Grown m s s' new) (hf : Fits m s') (hu : Uses rs s') : Kept rs p0 m s'.positions s' t := by
  obtain ⟨h, b0, b1, hc, hs, l0, l1⟩ := hk.cash
  obtain ⟨o, e0, e1⟩ := hg.own hk.own hf
  have hp := hg.pos
  have hu1 : ∀ q ∈ new, (q.lower, q.upper) ∈ rs := fun q hq => hu q (by rw [hp]; exact List.mem_append_right _ hq)
  have hft : total h + total (entries new) < 2 ^ 128 := by
    unfold Fits book at hf
    rw [hp, total_append, entries_append, total_append] at hf
    rw [hs.total, total_append]
    omega
  obtain ⟨h', k1, k2⟩ := mints_cash hm (cash_reachable hc h0) hc hft hu1
  refine ⟨⟨h', _, _, k1, ?_, by omega, by omega⟩, o, fun k => by rw [hg.recs, hk.liq, hp, sumAt_append], hu⟩
  intro R _ w
  rw [k2 R w, wsum_append, hs R w, hp, entries_append, wsum_append, wsum_append, wsum_append]
  ring

/-- One step of the loop that closes the positions. -/
theorem Kept.burnOne {rs : List (Int × Int)} {p0 : Pool} {m : List Entry} {s : Strat} {q : StratPos}
    {ps : List StratPos} {t : Int × Int} (hk : Kept rs p0 m (q :: ps) s t) {b0 b1 c0 c1 : U256} {p1 p2 : Pool}
    (hb : s.pool.burnStrategy q.lower q.upper q.amount = .ok (b0, b1, p1)) (hc : p1.collectStrategy q.lower q.upper = .ok (c0, c1, p2)) :
    Kept rs p0 m ps { s with pool := p2, amount0 := add s.amount0 c0, amount1 := add s.amount1 c1 } t := by
  obtain ⟨h, x0, x1, hcash, hs, l0, l1⟩ := hk.cash
  have hq := List.mem_cons_self (a := q) (l := ps)
  have hmem := hk.uses q hq
  have hout := owns_holds hk.own hq hs
  have hlt := owns_total hk.own (posKey q.lower q.upper)
  have hrec : (recordOf s.pool (q.lower, q.upper)).liquidity.toNat = natAt (q :: ps) (posKey q.lower q.upper) := by
    rw [← liqAt_record, hk.liq]
    exact sumAt_toNat (by omega)
  have hle : q.amount.toNat ≤ (recordOf s.pool (q.lower, q.upper)).liquidity.toNat := by
    rw [hrec]; exact natAt_mem hq
  have k1 := Cash.step 0 (.burnStrategy q.lower q.upper q.amount) hcash hout trivial ⟨hmem, hle⟩ (exec_burn hb)
  have k2 := Cash.step 0 (.collectStrategy q.lower q.upper) k1 trivial trivial hmem (exec_collect hc)
  rw [cash_collect hc, show PoolOp.cash 0 s.pool (.burnStrategy q.lower q.upper q.amount) = (0, 0) from rfl] at k2
  have hw := (hk.own.wf q hq).1
  have hled : (PoolOp.burnStrategy q.lower q.upper q.amount).ledger h = ⟨q.lower, q.upper, -q.amount.toNat⟩ :: h := by
    unfold PoolOp.ledger
    exact if_neg (by omega)
  change Cash rs p0 ((PoolOp.burnStrategy q.lower q.upper q.amount).ledger h) _ _ _ at k2
  rw [hled] at k2
  have a0 := toNat_add_le s.amount0 c0
  have a1 := toNat_add_le s.amount1 c1
  change (add s.amount0 c0).toNat ≤ _ at a0
  change (add s.amount1 c1).toNat ≤ _ at a1
  refine ⟨⟨_, _, _, k2, sameBook_burn ps q m hs, ?_, ?_⟩, (Strat.burnOne hk.own hb hc).1, ?_, fun q' hq' => hk.uses q' (List.mem_cons_of_mem _ hq')⟩
  · dsimp only; omega
  · dsimp only; omega
  · intro k
    dsimp only
    rw [collect_liq hc, burn_liq hb, hk.liq k, sumAt_cons]
    split
    · abel
    · abel

theorem Kept.burnLoop {rs : List (Int × Int)} {p0 : Pool} {m : List Entry} {ps : List StratPos} {t : Int × Int} :
    ∀ {s s1 : Strat}, Kept rs p0 m ps s t → burnLoop ps s = .ok s1 → Kept rs p0 m [] s1 t := by
  induction ps with
  | nil =>
    intro s s1 hk hx
    cases hx
    exact hk
  | cons q ps ih =>
    intro s s1 hk hx
    unfold Strat.burnLoop at hx
    obtain ⟨⟨b0, b1, p1⟩, hb, hx⟩ := bind_ok hx
    obtain ⟨⟨c0, c1, p2⟩, hc, hx⟩ := bind_ok hx
    dsimp only at hc hx
    exact ih (hk.burnOne hb hc) hx

theorem Kept.swap {rs : List (Int × Int)} {p0 : Pool} {m : List Entry} {s s' : Strat} {t : Int × Int} {fuel : Nat} {a r0 r1 : U256}
    {tok : String} (hk : Kept rs p0 m s.positions s t) (hx : s.pool.exactInputSwap fuel a tok zero = .ok (r0, r1, s'.pool))
    (ht : Traded m s s' r0.toInt r1.toInt) (ha : a.toInt < 2 ^ 160) (hc : ClearAbove s.pool.spacing s.pool.tick (book m s))
    (hsafe : ¬ SearchBroken s.pool.spacing s.pool.tick) : Kept rs p0 m s'.positions s' t := by
  obtain ⟨h, x0, x1, hcash, hs, l0, l1⟩ := hk.cash
  have hb : SameBook h (book m s) := hs
  have k1 := Cash.step fuel (.exactInput a tok zero) hcash ⟨ha, fun _ => hb.clear hc⟩ (fun _ => hsafe) trivial (exec_input hx)
  rw [cash_input hx] at k1
  have e0 := ht.bal0
  have e1 := ht.bal1
  refine ⟨⟨h, _, _, k1, by rw [ht.pos]; exact hs, ?_, ?_⟩, ht.own, ?_, ?_⟩
  · dsimp only; omega
  · dsimp only; omega
  · intro k; rw [swapOf_liq ht.swap, hk.liq, ht.pos]
  · rw [ht.pos]; exact hk.uses

theorem Kept.trade {rs : List (Int × Int)} (hor : OwnRecords rs) {p0 : Pool} {m : List Entry} {s : Strat} {t : Int × Int} {p' : Pool} {fuel : Nat}
    {op : PoolOp} (hk : Kept rs p0 m s.positions s t) (hb : op.ByOthers m s) (hsafe : op.Safe s.pool) (hx : op.exec fuel s.pool = .ok p') :
    Kept rs p0 (op.ledger m) s.positions { s with pool := p' } (t.1 + (op.cash fuel s.pool).1, t.2 + (op.cash fuel s.pool).2) := by
  obtain ⟨h, x0, x1, hcash, hs, l0, l1⟩ := hk.cash
  have hs' : SameBook h (book m s) := hs
  have hadd : ∀ e : Entry, SameBook (e :: h) (entries s.positions ++ e :: m) := by
    intro e R _ w
    rw [(hs.cons e) R w]
    exact sameBook_front _ _ _ R w
  have key : op.Admissible s.pool h → op.Fair rs s.pool h → SameBook (op.ledger h) (entries s.positions ++ op.ledger m) →
      Kept rs p0 (op.ledger m) s.positions { s with pool := p' } (t.1 + (op.cash fuel s.pool).1, t.2 + (op.cash fuel s.pool).2) := by
    intro h1 h2 h3
    refine ⟨⟨_, _, _, Cash.step fuel op hcash h1 hsafe h2 hx, h3, ?_, ?_⟩, trade_owns hk.own hb hx, ?_, hk.uses⟩
    · dsimp only; omega
    · dsimp only; omega
    · intro k
      rw [← hk.liq k]
      unfold liqAt
      dsimp only
      rw [trade_liq hb hx]
  cases op with
  | mint l u a => exact key (by have h1 : _ < _ := hb; rw [← hs'.total] at h1; exact h1) trivial (hadd _)
  | burn l u a =>
    obtain ⟨b1, b2⟩ := hb
    have he : outstanding h l u = outstanding (entries s.positions) l u + outstanding m l u := by rw [hs.outstanding, outstanding_append]
    have hn := outstanding_entries_nonneg s.positions l u
    refine key ⟨by omega, by omega⟩ ?_ ?_
    · intro hmem
      have hlt := owns_total hk.own (posKey l u)
      have hrec : (recordOf s.pool (l, u)).liquidity.toNat = natAt s.positions (posKey l u) := by
        rw [← liqAt_record, hk.liq]
        exact sumAt_toNat (by omega)
      rw [hrec, natAt_outstanding hor hk.uses hmem, he]
      omega
    · show SameBook (if a.toNat = 0 then h else _) (_ ++ if a.toNat = 0 then m else _)
      by_cases hz : a.toNat = 0
      · rw [if_pos hz, if_pos hz]; exact hs
      · rw [if_neg hz, if_neg hz]; exact hadd _
  | mintStrategy l u a => exact hb.elim
  | burnStrategy l u a => exact hb.elim
  | collectStrategy l u => exact hb.elim
  | flash a b => exact key trivial trivial hs
  | exactInput a t l => exact key ⟨hb.1, fun h => hs'.clear (hb.2 h)⟩ trivial hs
  | exactOutput a t l => exact key ⟨hb.1, fun h => hs'.clear (hb.2 h)⟩ trivial hs

theorem swapExcess_kept {rs : List (Int × Int)} {p0 : Pool} {t : Int × Int} {m : List Entry} {s s' : Strat} {fuel : Nat} {a b : U256}
    (hk : Kept rs p0 m s.positions s t) (hne : s.pool.token0 ≠ s.pool.token1)
    (h0 : s.amount0.toNat < 2 ^ 160) (h1 : s.amount1.toNat < 2 ^ 160)
    (hc : ClearAbove s.pool.spacing s.pool.tick (book m s)) (hsafe : ¬ SearchBroken s.pool.spacing s.pool.tick)
    (ha : 0 < a.toNat) (hab : a.toNat < b.toNat)
    (hx : s.swapExcess fuel a b = .ok s') : Kept rs p0 m s'.positions s' t := by
  unfold swapExcess at hx
  obtain ⟨L, h2, hx⟩ := bind_ok hx
  obtain ⟨r, h3, hx⟩ := bind_ok hx
  dsimp only at hx
  obtain ⟨u0, u1⟩ := used_le ha hab h2 h3
  have e0 := toNat_sub_of_le u0
  have e1 := toNat_sub_of_le u1
  have small : ∀ x : U256, x.toNat < 2 ^ 160 → x.toInt < 2 ^ 160 := by
    intro x h
    have : x.toInt = x.toNat := by unfold toInt; rw [if_pos (by omega)]
    omega
  by_cases hd : cmp (lsh (sub s.amount0 r.1) 9) (sub s.amount1 r.2) > 0
  · rw [if_pos hd] at hx
    obtain ⟨half, h4, hx⟩ := bind_ok hx
    have h5 := half_le h4
    by_cases hs : half.sign = 1
    · rw [if_pos hs] at hx
      obtain ⟨r0, r1, k1, k2⟩ := swapPay_traded (z := true) hk.own hne h0 h1 hc (sign_pos hs) (by rw [if_pos rfl]; omega)
        (by rw [if_pos rfl]; exact hx)
      exact hk.swap k1 k2 (small _ (by omega)) hc hsafe
    · rw [if_neg hs] at hx
      cases hx
      exact hk
  · rw [if_neg hd] at hx
    obtain ⟨half, h4, hx⟩ := bind_ok hx
    have h5 := half_le h4
    by_cases hs : half.sign = 1
    · rw [if_pos hs] at hx
      obtain ⟨r0, r1, k1, k2⟩ := swapPay_traded (z := false) hk.own hne h0 h1 hc (sign_pos hs) (by rw [if_neg Bool.false_ne_true]; omega)
        (by rw [if_neg Bool.false_ne_true]; exact hx)
      exact hk.swap k1 k2 (small _ (by omega)) hc hsafe
    · rw [if_neg hs] at hx
      cases hx
      exact hk

theorem mintAmount_mints {s s' : Strat} {l u : Int} {L : U256} (hx : s.mintAmount l u L = .ok s') :
    Mints s.pool [⟨L, l, u⟩] s'.pool := by
  unfold mintAmount at hx
  obtain ⟨⟨a0, a1, q⟩, h1, hx⟩ := bind_ok hx
  cases hx
  exact .cons h1 (.nil _)

theorem swapMint_kept {rs : List (Int × Int)} {p0 : Pool} (hp0 : Reachable [] p0) {t : Int × Int} {m : List Entry} {s s' : Strat} {fuel : Nat}
    {l u : Int} (hk : Kept rs p0 m s.positions s t) (hne : s.pool.token0 ≠ s.pool.token1)
    (h0 : s.amount0.toNat < 2 ^ 160) (h1 : s.amount1.toNat < 2 ^ 160)
    (hc : ClearAbove s.pool.spacing s.pool.tick (book m s)) (hsafe : ¬ SearchBroken s.pool.spacing s.pool.tick)
    (hf : Fits m s') (hu : Uses rs s')
    (hx : s.swapMint fuel l u = .ok s') : Kept rs p0 m s'.positions s' t := by
  unfold swapMint at hx
  obtain ⟨a, h2, hx⟩ := bind_ok hx
  obtain ⟨b, h3, hx⟩ := bind_ok hx
  obtain ⟨s1, h4, hx⟩ := bind_ok hx
  obtain ⟨L, h5, hx⟩ := bind_ok hx
  have hlu : l < u ∧ -887272 ≤ l ∧ u ≤ 887272 := by
    unfold mintAmount at hx
    obtain ⟨⟨a0, a1, q⟩, h6, hx⟩ := bind_ok hx
    obtain ⟨_, _, pos, h7⟩ := mintStrategy_eq h6
    obtain ⟨k1, k2, k3, _⟩ := modifyStrategy_eq h7
    exact ⟨k1, k2, k3⟩
  obtain ⟨hlu, hl, huu⟩ := hlu
  obtain ⟨a', ha', ha2⟩ := getSqrtRatioAtTick_spec l hl (by omega)
  obtain ⟨b', hb', hb2⟩ := getSqrtRatioAtTick_spec u (by omega) huu
  rw [h2] at ha'
  rw [h3] at hb'
  cases ha'
  cases hb'
  obtain ⟨r1, r2⟩ := ratio_lt hl hlu huu
  have k := swapExcess_kept hk hne h0 h1 hc hsafe (by omega) (by omega) h4
  exact k.mints hp0 (mintAmount_mints hx) (mintAmount_grown hx (forAmount_cost h2 h3 h5 (le_refl _))) hf hu

theorem openFirst_kept {rs : List (Int × Int)} {p0 : Pool} (hp0 : Reachable [] p0) {t : Int × Int} {m : List Entry} {s s' : Strat} {fuel : Nat}
    (hk : Kept rs p0 m s.positions s t) (hf : Fits m s') (hw : MaySwap s (s.amount0, s.amount1) (book m s)) (hsafe : SwapsSafely s)
    (hu : Uses rs s') (hx : s.openFirst fuel = .ok s') : Kept rs p0 m s'.positions s' t := by
  by_cases hs : ∃ w, s.kind = .swapHalf w
  · obtain ⟨w, hkd⟩ := hs
    obtain ⟨n1, n2, n3, n4⟩ := hw w hkd
    unfold openFirst at hx
    rw [hkd] at hx
    dsimp only at hx
    exact swapMint_kept hp0 hk n1 n2 n3 n4 (hsafe w hkd) hf hu hx
  · have hns : ∀ w, s.kind ≠ .swapHalf w := fun w h => hs ⟨w, h⟩
    obtain ⟨_, _, new, g, _⟩ := openFirst_opens m hns hx
    obtain ⟨new', e, k⟩ := openFirst_minted hns hx
    obtain rfl : new' = new := List.append_cancel_left (e.symm.trans g.pos)
    exact hk.mints hp0 k g hf hu

theorem openAgain_kept {rs : List (Int × Int)} {p0 : Pool} (hp0 : Reachable [] p0) {t : Int × Int} {m : List Entry} {s s' : Strat} {fuel : Nat}
    (hk : Kept rs p0 m s.positions s t) (hf : Fits m s') (hw : MaySwap s (s.amount0, s.amount1) (book m s)) (hsafe : SwapsSafely s)
    (hu : Uses rs s') (hx : s.openAgain fuel = .ok s') : Kept rs p0 m s'.positions s' t := by
  by_cases hs : ∃ w, s.kind = .swapHalf w
  · obtain ⟨w, hkd⟩ := hs
    obtain ⟨n1, n2, n3, n4⟩ := hw w hkd
    unfold openAgain at hx
    rw [hkd] at hx
    dsimp only at hx
    exact swapMint_kept hp0 hk n1 n2 n3 n4 (hsafe w hkd) hf hu hx
  · have hns : ∀ w, s.kind ≠ .swapHalf w := fun w h => hs ⟨w, h⟩
    obtain ⟨_, _, new, g, _⟩ := openAgain_opens m hns hx
    obtain ⟨new', e, k⟩ := openAgain_minted hns hx
    obtain rfl : new' = new := List.append_cancel_left (e.symm.trans g.pos)
    exact hk.mints hp0 k g hf hu

theorem snapshot_balances {s s' : Strat} (hx : s.makeSnapshot = .ok s') : s'.amount0 = s.amount0 ∧ s'.amount1 = s.amount1 := by
  unfold makeSnapshot at hx
  split at hx
  · obtain ⟨h, h1, hx⟩ := bind_ok hx; cases hx; exact ⟨rfl, rfl⟩
  · obtain ⟨h, h1, hx⟩ := bind_ok hx; cases hx; exact ⟨rfl, rfl⟩
  · obtain ⟨h, h1, hx⟩ := bind_ok hx; cases hx; exact ⟨rfl, rfl⟩
  · obtain ⟨h, h1, hx⟩ := bind_ok hx; cases hx; exact ⟨rfl, rfl⟩
  · cases hx; exact ⟨rfl, rfl⟩

theorem accounts_kept {rs : List (Int × Int)} (hor : OwnRecords rs) {x : U256 × U256} {m : List Entry} {s : Strat} {n : Int × Int}
    (h : Accounts rs x m s n) : ∃ p0 a b fee price, (fee = 500 ∨ fee = 3000 ∨ fee = 10000) ∧ Pool.new a b fee price = .ok p0 ∧
      Kept rs p0 m s.positions s (x.1.toNat + n.1, x.2.toNat + n.2) := by
  induction h with
  | @start a b fee price p0 kind s hf hn hs =>
    refine ⟨p0, a, b, fee, price, hf, hn, ?_⟩
    obtain ⟨h1, h2, h3⟩ := new_owns hf hn hs
    have hl := runs_liq (Runs.start hf hn hs)
    have hbal : s.amount0 = x.1 ∧ s.amount1 = x.2 := by
      unfold Strat.new at hs
      obtain ⟨h, _, hs⟩ := bind_ok hs
      cases hs
      exact ⟨rfl, rfl⟩
    refine ⟨⟨[], 0, 0, by rw [h1]; exact .start, by rw [h2]; exact SameBook.refl _, ?_, ?_⟩, h3, hl, by rw [h2]; intro q hq; cases hq⟩
    · rw [hbal.1]
    · rw [hbal.2]
  | trade fuel op hr ho hsafe hx ih =>
    obtain ⟨p0, a, b, fee, price, hf, hn, k⟩ := ih
    refine ⟨p0, a, b, fee, price, hf, hn, ?_⟩
    have := k.trade hor ho hsafe hx
    dsimp only at this ⊢
    rw [Int.add_assoc, Int.add_assoc] at this
    exact this
  | snapshot hr hx ih =>
    obtain ⟨p0, a, b, fee, price, hf, hn, k⟩ := ih
    refine ⟨p0, a, b, fee, price, hf, hn, ?_⟩
    obtain ⟨h1, h2⟩ := makeSnapshot_eq hx
    obtain ⟨h3, h4⟩ := snapshot_balances hx
    exact ⟨by rw [h1, h2, h3, h4]; exact k.cash, by rw [h1, h2]; exact k.own, by rw [h1, h2]; exact k.liq, by rw [h2]; exact k.uses⟩
  | init fuel hr hx hfit hw hsafe hu ih =>
    obtain ⟨p0, a, b, fee, price, hf, hn, k⟩ := ih
    refine ⟨p0, a, b, fee, price, hf, hn, ?_⟩
    obtain ⟨h1, rfl⟩ := init_eq hx
    exact openFirst_kept ⟨a, b, fee, price, p0, hf, hn, .start⟩ k hfit hw hsafe hu h1
  | @rebalance m s s' n c fuel hr hx hfit hw hsafe hu ih =>
    obtain ⟨p0, a, b, fee, price, hf, hn, k⟩ := ih
    refine ⟨p0, a, b, fee, price, hf, hn, ?_⟩
    rcases rebalance_eq hx with ⟨_, _, rfl⟩ | ⟨_, c0, s1, h1, h2, rfl⟩
    · exact k
    · obtain ⟨o, e, hb, hkd, _, _, _, hst, rfl⟩ := closed_owns k.own h1
      obtain ⟨_, _, _, _, h4⟩ := closeAll_spec k.own h1
      have k1 := k.burnLoop h4
      have k2 : Kept rs p0 m s1.positions s1 (x.1.toNat + n.1, x.2.toNat + n.2) := by
        rw [e]
        exact ⟨k1.cash, k1.own, k1.liq, k1.uses⟩
      refine openAgain_kept ⟨a, b, fee, price, p0, hf, hn, .start⟩ k2 hfit (closed_swap hkd hb hst (hw _ rfl)) ?_ hu h2
      intro w hw'
      obtain ⟨i1, _, i3, i4⟩ := hst.same
      have := hsafe w (hkd ▸ hw')
      rw [hst.tick]
      first
        | rw [i1]; exact this
        | rw [i3]; exact this
        | rw [i4]; exact this
  | burnAll hr hx he ih =>
    obtain ⟨p0, a, b, fee, price, hf, hn, k⟩ := ih
    refine ⟨p0, a, b, fee, price, hf, hn, ?_⟩
    rcases burnAll_eq hx with ⟨_, _, rfl⟩ | ⟨t, h1, _, h2⟩
    · exact k
    · have k1 := k.burnLoop h1
      rw [he]
      rcases h2 with rfl | rfl
      · exact k1
      · exact ⟨k1.cash, k1.own, k1.liq, k1.uses⟩

end Strat
end Uni
