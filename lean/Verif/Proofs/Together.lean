import Verif.Proofs.Elsewhere
/-! # Two strategies that are treated alike -/
namespace Uni
open U256 Spec TickData TickMath SwapMath FullMath SqrtPriceMath LiquidityAmounts Pool
namespace Strat

/-- What the two strategies have in common after every call. -/
structure Pair (m m' : List Entry) (s t : Strat) : Prop where
  own : Owns m s.positions s.pool
  own' : Owns m' t.positions t.pool
  liq : ∀ k, liqAt s.pool k = sumAt s.positions k
  liq' : ∀ k, liqAt t.pool k = sumAt t.positions k
  tidy : Tidy s.pool s.positions
  tidy' : Tidy t.pool t.positions
  alike : Alike s t
  amount0 : s.amount0 = t.amount0
  amount1 : s.amount1 = t.amount1
  pos : s.positions = t.positions
  token0 : s.pool.token0 = t.pool.token0
  token1 : s.pool.token1 = t.pool.token1
  ranges : ∀ l u, outstanding m l u = outstanding m' l u
  apart : SeparateRecords s.positions
  even : ∀ x ∈ s.positions, Even s.pool t.pool x

theorem Pair.books {m m' : List Entry} {s t : Strat} (h : Pair m m' s t) (l u : Int) :
    outstanding (book m s) l u = outstanding (book m' t) l u := by
  unfold book
  rw [outstanding_append, outstanding_append, h.pos, h.ranges]

theorem Pair.market {m m' : List Entry} {s t : Strat} (h : Pair m m' s t) : SameMarket (book m s) (book m' t) s.pool t.pool :=
  ⟨h.alike.fee, h.alike.price, h.alike.tick, h.books⟩

theorem out_pos {m : List Entry} {ps : List StratPos} {p : Pool} (ho : Owns m ps p) {h : List Entry} (hs : SameBook h (entries ps ++ m))
    {x : StratPos} (hx : x ∈ ps) : 0 < outstanding h x.lower x.upper := by
  rw [hs.outstanding, outstanding_append]
  obtain ⟨a, b, rfl⟩ := List.append_of_mem hx
  rw [entries_append, outstanding_append]
  have h1 := outstanding_entries_nonneg a x.lower x.upper
  have h2 := outstanding_entries_nonneg b x.lower x.upper
  have h3 := ho.nonneg x.lower x.upper
  have e : outstanding (entries (x :: b)) x.lower x.upper = (x.amount.toNat : Int) + outstanding (entries b) x.lower x.upper := by
    show outstanding (⟨x.lower, x.upper, x.amount.toNat⟩ :: entries b) _ _ = _
    rw [outstanding_cons, if_pos ⟨rfl, rfl⟩]
  have h4 := (ho.wf x hx).1
  omega

theorem fits_same {m m' : List Entry} {s t : Strat} (hp : s.positions = t.positions)
    (hr : ∀ l u, outstanding m l u = outstanding m' l u) (hf : Fits m s) : Fits m' t := by
  unfold Fits book at hf ⊢
  rw [total_append] at hf ⊢
  have : total m = total m' := wsum_ext hr _
  rw [← hp, ← this]
  exact hf

/-! ### Opening the same positions -/

theorem grown_even {m : List Entry} {s s' : Strat} {new : List StratPos} (ho : Owns m s.positions s.pool) (hf : Fits m s')
    (g : Grown m s s' new) (hap : SeparateRecords s'.positions) {x : StratPos} (hx : x ∈ s.positions) :
    s'.pool.positions (posKey x.lower x.upper) = s.pool.positions (posKey x.lower x.upper) ∧
      ∃ a, InsideIs s.pool x.lower x.upper a ∧ InsideIs s'.pool x.lower x.upper a := by
  obtain ⟨h, hi, hs⟩ := ho.inv
  rw [g.pos] at hap
  obtain ⟨_, _, hap3⟩ := List.pairwise_append.1 hap
  refine ⟨mints_keep g.path (fun y hy => Ne.symm (hap3 x hx y hy)), ?_⟩
  refine mints_inside g.path hi ?_ (le_of_lt (ho.wf x hx).2.1) (out_pos ho hs hx)
  unfold Fits book at hf
  rw [g.pos, total_append, entries_append, total_append] at hf
  rw [hs.total, total_append]
  omega

theorem grown_fresh {m : List Entry} {s s' : Strat} {new : List StratPos} (ho : Owns m s.positions s.pool) (hf : Fits m s')
    (g : Grown m s s' new) (hap : SeparateRecords s'.positions) (hl : ∀ k, liqAt s.pool k = sumAt s.positions k)
    (ht : Tidy s.pool s.positions) {x : StratPos} (hx : x ∈ new) :
    ∃ i, s'.pool.positions (posKey x.lower x.upper) = some i ∧ i.liquidity = x.amount ∧ i.owed0 = 0 ∧ i.owed1 = 0 ∧
      InsideIs s'.pool x.lower x.upper (i.inside0, i.inside1) := by
  obtain ⟨h, hi, hs⟩ := ho.inv
  obtain ⟨o, _⟩ := g.own ho hf
  rw [g.pos] at hap
  obtain ⟨_, hap2, hap3⟩ := List.pairwise_append.1 hap
  refine mints_fresh g.path hi ?_ ?_ ?_ hap2 ?_ x hx
  · unfold Fits book at hf
    rw [g.pos, total_append, entries_append, total_append] at hf
    rw [hs.total, total_append]
    omega
  · intro y hy
    exact (o.wf y (by rw [g.pos]; exact List.mem_append_right _ hy)).1
  · intro l u
    rw [hs.outstanding, outstanding_append]
    have h1 := outstanding_entries_nonneg s.positions l u
    have h2 := ho.nonneg l u
    omega
  · intro y hy
    have hk : ∀ z ∈ s.positions, posKey z.lower z.upper ≠ posKey y.lower y.upper := fun z hz => hap3 z hz y hy
    exact ⟨by rw [hl, sumAt_none hk], ht _ hk⟩

theorem grown_pair {m m' : List Entry} {s t s' t' : Strat} {new : List StratPos} (hp : Pair m m' s t) (g : Grown m s s' new)
    (g' : Grown m' t t' new) (hf : Fits m s') (ha : Alike s' t') (h0 : s'.amount0 = t'.amount0) (h1 : s'.amount1 = t'.amount1)
    (hap : SeparateRecords s'.positions) : Pair m m' s' t' := by
  have hpos : s'.positions = t'.positions := by rw [g.pos, g'.pos, hp.pos]
  have hf' : Fits m' t' := fits_same hpos hp.ranges hf
  have hap' : SeparateRecords t'.positions := by rw [← hpos]; exact hap
  refine ⟨(g.own hp.own hf).1, (g'.own hp.own' hf').1, ?_, ?_, grown_tidy g hp.tidy, grown_tidy g' hp.tidy', ha, h0, h1, hpos,
    ?_, ?_, hp.ranges, hap, ?_⟩
  · intro k; rw [g.recs, g.pos, sumAt_append, hp.liq]
  · intro k; rw [g'.recs, g'.pos, sumAt_append, hp.liq']
  · rw [g.still.same.2.2.1, g'.still.same.2.2.1]; exact hp.token0
  · rw [g.still.same.2.2.2, g'.still.same.2.2.2]; exact hp.token1
  · intro x hx
    rw [g.pos] at hx
    rcases List.mem_append.1 hx with hx | hx
    · obtain ⟨i, j, a, b, k1, k2, k3, k4, k5⟩ := hp.even x hx
      obtain ⟨e1, a', e2, e3⟩ := grown_even hp.own hf g hap hx
      obtain ⟨f1, b', f2, f3⟩ := grown_even hp.own' hf' g' hap' (hp.pos ▸ hx)
      have : a' = a := by
        have := e2.symm.trans k3
        cases this
        rfl
      subst this
      have : b' = b := by
        have := f2.symm.trans k4
        cases this
        rfl
      subst this
      exact ⟨i, j, _, _, e1.trans k1, f1.trans k2, e3, f3, k5⟩
    · obtain ⟨i, e1, e2, e3, e4, e5⟩ := grown_fresh hp.own hf g hap hp.liq hp.tidy hx
      obtain ⟨j, f1, f2, f3, f4, f5⟩ := grown_fresh hp.own' hf' g' hap' hp.liq' hp.tidy' hx
      refine ⟨i, j, _, _, e1, f1, e5, f5, by rw [e2, f2], by rw [e3, f3], by rw [e4, f4], ?_, ?_⟩
      · dsimp only; abel
      · dsimp only; abel

/-! ### Trades -/

theorem others_market {m : List Entry} {s : Strat} {op : PoolOp} (hb : op.ByOthers m s) :
    (∃ l u a, op = .mint l u a) ∨ (∃ l u a, op = .burn l u a) ∨ (∃ a b, op = .flash a b) ∨ (∃ a t l, op = .exactInput a t l) ∨
      ∃ a t l, op = .exactOutput a t l := by
  cases op with
  | mint l u a => exact Or.inl ⟨_, _, _, rfl⟩
  | burn l u a => exact Or.inr (Or.inl ⟨_, _, _, rfl⟩)
  | flash a b => exact Or.inr (Or.inr (Or.inl ⟨_, _, rfl⟩))
  | exactInput a t l => exact Or.inr (Or.inr (Or.inr (Or.inl ⟨_, _, _, rfl⟩)))
  | exactOutput a t l => exact Or.inr (Or.inr (Or.inr (Or.inr ⟨_, _, _, rfl⟩)))
  | mintStrategy l u a => exact hb.elim
  | burnStrategy l u a => exact hb.elim
  | collectStrategy l u => exact hb.elim

theorem others_admissible {m : List Entry} {s : Strat} {op : PoolOp} (hb : op.ByOthers m s) {h : List Entry}
    (hs : SameBook h (book m s)) (hn : ∀ l u, 0 ≤ outstanding (entries s.positions) l u) : op.Admissible s.pool h := by
  cases op with
  | mint l u a =>
    have h1 : total (book m s) + a.toNat < 2 ^ 128 := hb
    rw [← hs.total] at h1
    exact h1
  | burn l u a =>
    obtain ⟨b1, b2⟩ := hb
    have hle : outstanding m l u ≤ outstanding h l u := by
      rw [hs.outstanding]
      unfold book
      rw [outstanding_append]
      have := hn l u
      omega
    exact ⟨by omega, by omega⟩
  | flash a b => trivial
  | exactInput a t l => exact ⟨hb.1, fun h => hs.clear (hb.2 h)⟩
  | exactOutput a t l => exact ⟨hb.1, fun h => hs.clear (hb.2 h)⟩
  | mintStrategy l u a => exact hb.elim
  | burnStrategy l u a => exact hb.elim
  | collectStrategy l u => exact hb.elim

theorem clear_same {sp tick : Int} {h h' : List Entry} (ho : ∀ l u, outstanding h l u = outstanding h' l u)
    (hc : ClearAbove sp tick h) : ClearAbove sp tick h' := by
  intro k h1 h2 j h3 h4
  rw [← hc k h1 h2 j h3 h4]
  exact (wsum_ext ho _).symm

theorem others_same {m m' : List Entry} {s t : Strat} (hp : Pair m m' s t) {op : PoolOp} (hb : op.ByOthers m s) : op.ByOthers m' t := by
  have hsp : s.pool.spacing = t.pool.spacing := by
    obtain ⟨_, h1, _⟩ := hp.own.pool
    obtain ⟨_, h2, _⟩ := hp.own'.pool
    rw [reachable_spacing h1, reachable_spacing h2, hp.alike.fee]
  have htot : total (book m s) = total (book m' t) := wsum_ext hp.books _
  cases op with
  | mint l u a =>
    have h1 : total (book m s) + a.toNat < 2 ^ 128 := hb
    rw [htot] at h1
    exact h1
  | burn l u a =>
    obtain ⟨b1, b2⟩ := hb
    rw [hp.ranges] at b1 b2
    exact ⟨b1, b2⟩
  | flash a b => trivial
  | exactInput a tk l =>
    refine ⟨hb.1, fun h => ?_⟩
    have := hb.2 (h.trans hp.token0.symm)
    rw [hsp, hp.alike.tick] at this
    exact clear_same hp.books this
  | exactOutput a tk l =>
    refine ⟨hb.1, fun h => ?_⟩
    have := hb.2 (h.trans hp.token1.symm)
    rw [hsp, hp.alike.tick] at this
    exact clear_same hp.books this
  | mintStrategy l u a => exact hb.elim
  | burnStrategy l u a => exact hb.elim
  | collectStrategy l u => exact hb.elim

/-- What one operation of others does to the record and to the growth of an open position. -/
theorem trade_even {m : List Entry} {s : Strat} {p : Pool} {fuel : Nat} {op : PoolOp} (ho : Owns m s.positions s.pool)
    (hb : op.ByOthers m s) (hx : op.exec fuel s.pool = .ok p) {x : StratPos} (hm : x ∈ s.positions) :
    p.positions (posKey x.lower x.upper) = s.pool.positions (posKey x.lower x.upper) ∧
    ∃ a b, InsideIs s.pool x.lower x.upper a ∧ InsideIs p x.lower x.upper b ∧
      b.1 = a.1 + accrued0 x.lower x.upper (op.log fuel s.pool p) ∧ b.2 = a.2 + accrued1 x.lower x.upper (op.log fuel s.pool p) := by
  obtain ⟨h, hi, hs⟩ := ho.inv
  refine ⟨by rw [trade_liq hb hx], ?_⟩
  have h1 := out_pos ho hs hm
  refine op_inside hi (others_admissible hb hs (outstanding_entries_nonneg _)) hx (le_of_lt (ho.wf x hm).2.1) h1 ?_
  have hx1 : 0 < (x.amount.toNat : Int) := by exact_mod_cast (ho.wf x hm).1
  cases op with
  | mint l u a =>
    show 0 < outstanding (⟨l, u, a.toNat⟩ :: h) _ _
    rw [outstanding_cons]
    dsimp only
    split <;> omega
  | burn l u a =>
    obtain ⟨b1, b2⟩ := hb
    show 0 < outstanding (if a.toNat = 0 then h else ⟨l, u, -a.toNat⟩ :: h) _ _
    by_cases hz : a.toNat = 0
    · rw [if_pos hz]; exact h1
    · rw [if_neg hz, outstanding_cons]
      dsimp only
      split
      · rename_i he
        obtain ⟨rfl, rfl⟩ := he
        have e : outstanding h x.lower x.upper = outstanding (entries s.positions) x.lower x.upper + outstanding m x.lower x.upper := by
          rw [hs.outstanding, outstanding_append]
        have h5 : 0 < outstanding (entries s.positions) x.lower x.upper := by
          have : 0 < outstanding (entries s.positions ++ []) x.lower x.upper := by
            obtain ⟨c, d, hcd⟩ := List.append_of_mem hm
            rw [List.append_nil, hcd, entries_append, outstanding_append]
            have k1 := outstanding_entries_nonneg c x.lower x.upper
            have k2 := outstanding_entries_nonneg d x.lower x.upper
            have k3 : outstanding (entries (x :: d)) x.lower x.upper = (x.amount.toNat : Int) + outstanding (entries d) x.lower x.upper := by
              show outstanding (⟨x.lower, x.upper, x.amount.toNat⟩ :: entries d) _ _ = _
              rw [outstanding_cons, if_pos ⟨rfl, rfl⟩]
            omega
          rw [List.append_nil] at this
          exact this
        omega
      · omega
  | flash a b => exact h1
  | exactInput a t l => exact h1
  | exactOutput a t l => exact h1
  | mintStrategy l u a => exact hb.elim
  | burnStrategy l u a => exact hb.elim
  | collectStrategy l u => exact hb.elim

theorem reach_market {m m' : List Entry} {s t : Strat} (hp : Pair m m' s t) :
    ∃ h h', Reachable h s.pool ∧ Reachable h' t.pool ∧ SameMarket h h' s.pool t.pool := by
  obtain ⟨h, hr, hs⟩ := hp.own.pool
  obtain ⟨h', hr', hs'⟩ := hp.own'.pool
  refine ⟨h, h', hr, hr', hp.alike.fee, hp.alike.price, hp.alike.tick, ?_⟩
  intro l u
  rw [hs.outstanding, hs'.outstanding]
  exact hp.books l u

theorem trade_pair {m m' : List Entry} {s t : Strat} {p q : Pool} {fuel : Nat} {op : PoolOp} (hp : Pair m m' s t)
    (hb : op.ByOthers m s) (hx : op.exec fuel s.pool = .ok p) (hy : op.exec fuel t.pool = .ok q) :
    Pair (op.ledger m) (op.ledger m') { s with pool := p } { t with pool := q } := by
  have hb' := others_same hp hb
  obtain ⟨h, h', hr, hr', hm⟩ := reach_market hp
  obtain ⟨hlog, e1, e2, e3⟩ := op_same hr hr' hm hp.token0 hp.token1 (others_market hb) hx hy
  have p1 := trade_liq hb hx
  have p2 := trade_liq hb' hy
  have i1 := exec_id hx
  have i2 := exec_id hy
  have o1 := trade_owns hp.own hb hx
  have o2 := trade_owns hp.own' hb' hy
  refine ⟨o1, o2, ?_, ?_, ?_, ?_,
    ⟨hp.alike.kind, hp.alike.tickLower, hp.alike.tickUpper, hp.alike.history, e1, e2, e3⟩, hp.amount0, hp.amount1, hp.pos, ?_, ?_,
    ledger_same hp.ranges op, hp.apart, ?_⟩
  · intro k
    unfold liqAt
    dsimp only
    rw [p1]
    exact hp.liq k
  · intro k
    unfold liqAt
    dsimp only
    rw [p2]
    exact hp.liq' k
  · unfold Tidy Clean
    dsimp only
    rw [p1]
    exact hp.tidy
  · unfold Tidy Clean
    dsimp only
    rw [p2]
    exact hp.tidy'
  · dsimp only
    rw [i1.2.2.1, i2.2.2.1]
    exact hp.token0
  · dsimp only
    rw [i1.2.2.2, i2.2.2.2]
    exact hp.token1
  · intro x hm
    obtain ⟨i, j, a, b, k1, k2, k3, k4, k5, k6, k7, k8, k9⟩ := hp.even x hm
    obtain ⟨r1, a1, b1, c1, c2, c3, c4⟩ := trade_even hp.own hb hx hm
    obtain ⟨r2, a2, b2, d1, d2, d3, d4⟩ := trade_even hp.own' hb' hy (hp.pos ▸ hm)
    have : a1 = a := by
      have := c1.symm.trans k3
      cases this
      rfl
    subst this
    have : a2 = b := by
      have := d1.symm.trans k4
      cases this
      rfl
    subst this
    refine ⟨i, j, b1, b2, r1.trans k1, r2.trans k2, c2, d2, k5, k6, k7, ?_, ?_⟩
    · rw [c3, d3, hlog, add_sub_right_comm, add_sub_right_comm, k8]
    · rw [c4, d4, hlog, add_sub_right_comm, add_sub_right_comm, k9]

/-! ### The swap of the swapping strategy -/

theorem Pair.pay {m m' : List Entry} {s t : Strat} (hp : Pair m m' s t) (a b : U256) :
    Pair m m' { s with amount0 := a, amount1 := b } { t with amount0 := a, amount1 := b } :=
  ⟨hp.own, hp.own', hp.liq, hp.liq', hp.tidy, hp.tidy',
    ⟨hp.alike.kind, hp.alike.tickLower, hp.alike.tickUpper, hp.alike.history, hp.alike.fee, hp.alike.price, hp.alike.tick⟩, rfl, rfl, hp.pos,
    hp.token0, hp.token1, hp.ranges, hp.apart, hp.even⟩

theorem swapPay_pair {m m' : List Entry} {s t s' t' : Strat} {fuel : Nat} {a : U256} {tk : String} (hp : Pair m m' s t)
    (ha : a.toInt < 2 ^ 160) (hc : ClearAbove s.pool.spacing s.pool.tick (book m s))
    (hx : s.swapPay fuel a tk = .ok s') (hy : t.swapPay fuel a tk = .ok t') : Pair m m' s' t' := by
  unfold swapPay at hx hy
  obtain ⟨⟨r0, r1, p⟩, k1, hx⟩ := bind_ok hx
  obtain ⟨⟨w0, w1, q⟩, k2, hy⟩ := bind_ok hy
  cases hx
  cases hy
  have h1 := trade_pair (op := .exactInput a tk zero) hp ⟨ha, fun _ => hc⟩ (exec_input k1) (exec_input k2)
  have h2 : w0 = r0 ∧ w1 = r1 := by
    obtain ⟨h, h', hr, hr', hm⟩ := reach_market hp
    have := swap_same hr hr' hm fuel (decide (tk = s.pool.token0)) a zero
    unfold exactInputSwap at k1 k2
    rw [← hp.token0] at k2
    rw [k1, k2] at this
    exact ⟨this.1.symm, this.2.1.symm⟩
  obtain ⟨rfl, rfl⟩ := h2
  have h3 := h1.pay (sub s.amount0 w0) (sub s.amount1 w1)
  dsimp only at h3 ⊢
  rw [← hp.amount0, ← hp.amount1]
  exact h3

theorem swapExcess_pair {m m' : List Entry} {s t s' t' : Strat} {fuel : Nat} {a b : U256} (hp : Pair m m' s t)
    (h0 : s.amount0.toNat < 2 ^ 160) (h1 : s.amount1.toNat < 2 ^ 160)
    (hc : ClearAbove s.pool.spacing s.pool.tick (book m s)) (ha : 0 < a.toNat) (hab : a.toNat < b.toNat)
    (hx : s.swapExcess fuel a b = .ok s') (hy : t.swapExcess fuel a b = .ok t') : Pair m m' s' t' := by
  unfold swapExcess at hx hy
  obtain ⟨L, k1, hx⟩ := bind_ok hx
  obtain ⟨r, k2, hx⟩ := bind_ok hx
  rw [← hp.amount0, ← hp.amount1, ← hp.alike.price, ← hp.token0, ← hp.token1] at hy
  obtain ⟨L', l1, hy⟩ := bind_ok hy
  rw [k1] at l1
  cases l1
  obtain ⟨r', l2, hy⟩ := bind_ok hy
  rw [k2] at l2
  cases l2
  dsimp only at hx hy
  obtain ⟨u0, u1⟩ := used_le ha hab k1 k2
  have e0 := toNat_sub_of_le u0
  have e1 := toNat_sub_of_le u1
  by_cases hd : cmp (lsh (sub s.amount0 r.1) 9) (sub s.amount1 r.2) > 0
  · rw [if_pos hd] at hx hy
    obtain ⟨half, h4, hx⟩ := bind_ok hx
    obtain ⟨half', h4', hy⟩ := bind_ok hy
    rw [h4] at h4'
    cases h4'
    have h5 := half_le h4
    by_cases hs : half.sign = 1
    · rw [if_pos hs] at hx hy
      refine swapPay_pair hp ?_ hc hx hy
      unfold toInt
      rw [if_pos (by omega)]
      omega
    · rw [if_neg hs] at hx hy
      cases hx
      cases hy
      exact hp
  · rw [if_neg hd] at hx hy
    obtain ⟨half, h4, hx⟩ := bind_ok hx
    obtain ⟨half', h4', hy⟩ := bind_ok hy
    rw [h4] at h4'
    cases h4'
    have h5 := half_le h4
    by_cases hs : half.sign = 1
    · rw [if_pos hs] at hx hy
      refine swapPay_pair hp ?_ hc hx hy
      unfold toInt
      rw [if_pos (by omega)]
      omega
    · rw [if_neg hs] at hx hy
      cases hx
      cases hy
      exact hp

theorem swapMint_pair {m m' : List Entry} {s t s' t' : Strat} {fuel : Nat} {l u : Int} (hp : Pair m m' s t)
    (h0 : s.amount0.toNat < 2 ^ 160) (h1 : s.amount1.toNat < 2 ^ 160)
    (hc : ClearAbove s.pool.spacing s.pool.tick (book m s)) (hf : Fits m s') (hap : SeparateRecords s'.positions)
    (hx : s.swapMint fuel l u = .ok s') (hy : t.swapMint fuel l u = .ok t') : Pair m m' s' t' := by
  unfold swapMint at hx hy
  obtain ⟨a, h2, hx⟩ := bind_ok hx
  obtain ⟨b, h3, hx⟩ := bind_ok hx
  obtain ⟨s1, h4, hx⟩ := bind_ok hx
  obtain ⟨L, h5, hx⟩ := bind_ok hx
  obtain ⟨a', g2, hy⟩ := bind_ok hy
  rw [h2] at g2
  cases g2
  obtain ⟨b', g3, hy⟩ := bind_ok hy
  rw [h3] at g3
  cases g3
  obtain ⟨t1, g4, hy⟩ := bind_ok hy
  have hlu : l < u ∧ -887272 ≤ l ∧ u ≤ 887272 := by
    have hx := hx
    unfold mintAmount at hx
    obtain ⟨⟨a0, a1, q⟩, h6, hx⟩ := bind_ok hx
    obtain ⟨_, _, pos, h7⟩ := mintStrategy_eq h6
    obtain ⟨k1, k2, k3, _⟩ := modifyStrategy_eq h7
    exact ⟨k1, k2, k3⟩
  obtain ⟨hlu, hl, hu⟩ := hlu
  obtain ⟨a', ha', ha2⟩ := getSqrtRatioAtTick_spec l hl (by omega)
  obtain ⟨b', hb', hb2⟩ := getSqrtRatioAtTick_spec u (by omega) hu
  rw [h2] at ha'
  rw [h3] at hb'
  cases ha'
  cases hb'
  obtain ⟨r1, r2⟩ := ratio_lt hl hlu hu
  have p1 := swapExcess_pair hp h0 h1 hc (by omega) (by omega) h4 g4
  obtain ⟨L', g5, hy⟩ := bind_ok hy
  have g5' := g5
  rw [← p1.amount0, ← p1.amount1, ← p1.alike.price, h5] at g5
  cases g5
  have tw := mintAmount_twins p1.alike p1.amount0 p1.amount1 hx hy
  exact grown_pair p1 (mintAmount_grown hx (forAmount_cost h2 h3 h5 (le_refl _)))
    (mintAmount_grown hy (forAmount_cost h2 h3 g5' (le_refl _))) hf tw.alike tw.amount0 tw.amount1 hap

/-! ### Opening and closing -/

theorem new_same {s t s' t' : Strat} {new new' : List StratPos} (h1 : s'.positions = s.positions ++ new)
    (h2 : t'.positions = t.positions ++ new') (h : Twins s t s' t') : new' = new := by
  obtain ⟨n, e1, e2⟩ := h.opened
  rw [h1] at e1
  rw [h2] at e2
  rw [List.append_cancel_left e1, List.append_cancel_left e2]

theorem openFirst_pair {m m' : List Entry} {s t s' t' : Strat} {fuel : Nat} (hp : Pair m m' s t) (hf : Fits m s')
    (hw : MaySwap s (s.amount0, s.amount1) (book m s)) (hap : SeparateRecords s'.positions) (hx : s.openFirst fuel = .ok s')
    (hy : t.openFirst fuel = .ok t') : Pair m m' s' t' := by
  by_cases hs : ∃ w, s.kind = .swapHalf w
  · obtain ⟨w, hk⟩ := hs
    obtain ⟨n1, n2, n3, n4⟩ := hw w hk
    unfold openFirst at hx hy
    rw [← hp.alike.kind] at hy
    rw [hk] at hx hy
    dsimp only at hx hy
    rw [← hp.alike.around, ← hp.alike.tick] at hy
    exact swapMint_pair hp n2 n3 n4 hf hap hx hy
  · have hns : ∀ w, s.kind ≠ .swapHalf w := fun w h => hs ⟨w, h⟩
    obtain ⟨_, _, new, g, _⟩ := openFirst_opens m hns hx
    obtain ⟨_, _, new', g', _⟩ := openFirst_opens m' (fun w h => hns w (hp.alike.kind.trans h)) hy
    have tw := openFirst_twins hp.alike hp.amount0 hp.amount1 hns hx hy
    have := new_same g.pos g'.pos tw
    subst this
    exact grown_pair hp g g' hf tw.alike tw.amount0 tw.amount1 hap

theorem openAgain_pair {m m' : List Entry} {s t s' t' : Strat} {fuel : Nat} (hp : Pair m m' s t) (hf : Fits m s')
    (hw : MaySwap s (s.amount0, s.amount1) (book m s)) (hap : SeparateRecords s'.positions) (hx : s.openAgain fuel = .ok s')
    (hy : t.openAgain fuel = .ok t') : Pair m m' s' t' := by
  by_cases hs : ∃ w, s.kind = .swapHalf w
  · obtain ⟨w, hk⟩ := hs
    obtain ⟨n1, n2, n3, n4⟩ := hw w hk
    unfold openAgain at hx hy
    rw [← hp.alike.kind] at hy
    rw [hk] at hx hy
    dsimp only at hx hy
    rw [← hp.alike.around, ← hp.alike.tick] at hy
    exact swapMint_pair hp n2 n3 n4 hf hap hx hy
  · have hns : ∀ w, s.kind ≠ .swapHalf w := fun w h => hs ⟨w, h⟩
    obtain ⟨_, _, new, g, _⟩ := openAgain_opens m hns hx
    obtain ⟨_, _, new', g', _⟩ := openAgain_opens m' (fun w h => hns w (hp.alike.kind.trans h)) hy
    have tw := openAgain_twins hp.alike hp.amount0 hp.amount1 hns hx hy
    have := new_same g.pos g'.pos tw
    subst this
    exact grown_pair hp g g' hf tw.alike tw.amount0 tw.amount1 hap

theorem burnLoop_pair {m m' : List Entry} {s t s1 t1 : Strat} (hp : Pair m m' s t) (hx : burnLoop s.positions s = .ok s1)
    (hy : burnLoop t.positions t = .ok t1) : Pair m m' { s1 with positions := [] } { t1 with positions := [] } := by
  obtain ⟨o, st, e, k⟩ := burnLoop_spec hp.own hx
  obtain ⟨o', st', e', k'⟩ := burnLoop_spec hp.own' hy
  obtain ⟨a0, a1⟩ := k hp.apart
  obtain ⟨b0, b1⟩ := k' (by rw [← hp.pos]; exact hp.apart)
  obtain ⟨f0, f1⟩ := even_fees hp.even
  rw [f0, hp.amount0, hp.pos, hp.alike.price, ← b0] at a0
  rw [f1, hp.amount1, hp.pos, hp.alike.price, ← b1] at a1
  have z : ∀ {s s1 : Strat}, burnLoop s.positions s = .ok s1 → (∀ k, liqAt s.pool k = sumAt s.positions k) → ∀ k, liqAt s1.pool k = 0 := by
    intro s s1 hx hl k
    have := burnLoop_liq hx k
    rw [hl k] at this
    exact zero_of_self this
  have t1 := burnLoop_tidy hx hp.tidy
  have t2 := burnLoop_tidy hy hp.tidy'
  have z1 := z hx hp.liq
  have z2 := z hy hp.liq'
  refine ⟨o, o', z1, z2, t1, t2, ?_, ext_toNat (by exact_mod_cast a0),
    ext_toNat (by exact_mod_cast a1), rfl, ?_, ?_, hp.ranges, List.Pairwise.nil, fun x hx => by cases hx⟩
  · rw [e, e']
    refine ⟨hp.alike.kind, hp.alike.tickLower, hp.alike.tickUpper, hp.alike.history, ?_, ?_, ?_⟩
    · dsimp only; rw [st.same.2.1, st'.same.2.1]; exact hp.alike.fee
    · dsimp only; rw [st.price, st'.price]; exact hp.alike.price
    · dsimp only; rw [st.tick, st'.tick]; exact hp.alike.tick
  · dsimp only; rw [st.same.2.2.1, st'.same.2.2.1]; exact hp.token0
  · dsimp only; rw [st.same.2.2.2, st'.same.2.2.2]; exact hp.token1

theorem closeAll_pair {m m' : List Entry} {s t s1 t1 : Strat} {c d : U256 × U256} (hp : Pair m m' s t) (hx : s.closeAll = .ok (c, s1))
    (hy : t.closeAll = .ok (d, t1)) : c = d ∧ Pair m m' s1 t1 := by
  unfold closeAll at hx hy
  obtain ⟨a, h1, hx⟩ := bind_ok hx
  obtain ⟨b, h2, hy⟩ := bind_ok hy
  cases hx
  cases hy
  have h := burnLoop_pair hp h1 h2
  have e0 := h.amount0
  have e1 := h.amount1
  dsimp only at e0 e1
  exact ⟨by rw [e0, e1], h⟩

theorem rebalance_pair {m m' : List Entry} {s t s' t' : Strat} {fuel : Nat} {c d : Option (U256 × U256)} (hp : Pair m m' s t)
    (hf : Fits m s') (hw : ∀ x, c = some x → MaySwap s x m) (hap : SeparateRecords s'.positions) (hx : s.rebalance fuel = .ok (c, s'))
    (hy : t.rebalance fuel = .ok (d, t')) : c = d ∧ Pair m m' s' t' := by
  rcases rebalance_eq hx with ⟨hk, rfl, rfl⟩ | ⟨hk, c0, s1, h1, h2, rfl⟩ <;>
    rcases rebalance_eq hy with ⟨hk', rfl, rfl⟩ | ⟨hk', d0, t1, g1, g2, rfl⟩
  · exact ⟨rfl, hp⟩
  · exact absurd (hp.alike.kind.symm.trans hk) hk'
  · exact absurd (hp.alike.kind.trans hk') hk
  · obtain ⟨e, p1⟩ := closeAll_pair hp h1 g1
    subst e
    obtain ⟨_, _, hb, hk1, _, _, _, hst, rfl⟩ := closed_owns hp.own h1
    exact ⟨rfl, openAgain_pair p1 hf (closed_swap hk1 hb hst (hw _ rfl)) hap h2 g2⟩

theorem burnAll_pair {m m' : List Entry} {s t s' t' : Strat} {c d : U256 × U256} (hp : Pair m m' s t) (he : s'.positions = [])
    (hx : s.burnAll = .ok (c, s')) (hy : t.burnAll = .ok (d, t')) : c = d ∧ Pair m m' s' t' := by
  have keep : ∀ {s1 t1 : Strat}, s.closeAllKeep = .ok (c, s1) → s1.positions = [] → t.closeAllKeep = .ok (d, t1) → c = d ∧ Pair m m' s1 t1 := by
    intro s1 t1 hx he hy
    unfold closeAllKeep at hx hy
    obtain ⟨a, h1, hx⟩ := bind_ok hx
    obtain ⟨b, h2, hy⟩ := bind_ok hy
    cases hx
    cases hy
    have h := burnLoop_pair hp h1 h2
    have e0 := h.amount0
    have e1 := h.amount1
    dsimp only at e0 e1
    refine ⟨by rw [e0, e1], ?_⟩
    obtain ⟨_, _, k1, _⟩ := burnLoop_spec hp.own h1
    obtain ⟨_, _, k2, _⟩ := burnLoop_spec hp.own' h2
    have z1 : s1.positions = s.positions := by rw [k1]
    have z2 : t1.positions = t.positions := by rw [k2]
    have z3 : t1.positions = [] := by rw [z2, ← hp.pos, ← z1]; exact he
    have w1 : { s1 with positions := [] } = s1 := by rw [← he]
    have w2 : { t1 with positions := [] } = t1 := by rw [← z3]
    rw [w1, w2] at h
    exact h
  unfold burnAll at hx hy
  rw [← hp.alike.kind] at hy
  split at hx <;> rename_i hk
  · rw [hk] at hy; exact keep hx he hy
  · rw [hk] at hy; exact keep hx he hy
  · rw [hk] at hy; exact keep hx he hy
  · rw [hk] at hy
    cases hx
    cases hy
    exact ⟨by rw [hp.amount0, hp.amount1], hp⟩
  · rename_i n1 n2 n3
    have hy' : t.closeAll = .ok (d, t') := by
      split at hy <;> rename_i hk'
      · exact absurd hk' (n1 _)
      · exact absurd hk' (n2 _)
      · exact absurd hk' (n3 _ _)
      · exact absurd hk' hk
      · exact hy
    exact closeAll_pair hp hx hy'

theorem burnAll_pays {m m' : List Entry} {s t s' t' : Strat} {c d : U256 × U256} (hp : Pair m m' s t)
    (hx : s.burnAll = .ok (c, s')) (hy : t.burnAll = .ok (d, t')) : c = d := by
  have keep : ∀ {s1 t1 : Strat}, s.closeAllKeep = .ok (c, s1) → t.closeAllKeep = .ok (d, t1) → c = d := by
    intro s1 t1 hx hy
    unfold closeAllKeep at hx hy
    obtain ⟨a, h1, hx⟩ := bind_ok hx
    obtain ⟨b, h2, hy⟩ := bind_ok hy
    cases hx
    cases hy
    have h := burnLoop_pair hp h1 h2
    have e0 := h.amount0
    have e1 := h.amount1
    dsimp only at e0 e1
    rw [e0, e1]
  unfold burnAll at hx hy
  rw [← hp.alike.kind] at hy
  split at hx <;> rename_i hk
  · rw [hk] at hy; exact keep hx hy
  · rw [hk] at hy; exact keep hx hy
  · rw [hk] at hy; exact keep hx hy
  · rw [hk] at hy
    cases hx
    cases hy
    rw [hp.amount0, hp.amount1]
  · rename_i n1 n2 n3
    have hy' : t.closeAll = .ok (d, t') := by
      split at hy <;> rename_i hk'
      · exact absurd hk' (n1 _)
      · exact absurd hk' (n2 _)
      · exact absurd hk' (n3 _ _)
      · exact absurd hk' hk
      · exact hy
    exact (closeAll_pair hp hx hy').1

theorem snapshot_pair {m m' : List Entry} {s t s' t' : Strat} (hp : Pair m m' s t) (hx : s.makeSnapshot = .ok s')
    (hy : t.makeSnapshot = .ok t') : Pair m m' s' t' := by
  have keep : ∀ {h h' : _}, s.history.add s.pool.price = .ok h → t.history.add t.pool.price = .ok h' →
      Pair m m' { s with history := h } { t with history := h' } := by
    intro h h' h1 h2
    rw [← hp.alike.history, ← hp.alike.price, h1] at h2
    cases h2
    exact ⟨hp.own, hp.own', hp.liq, hp.liq', hp.tidy, hp.tidy',
      ⟨hp.alike.kind, hp.alike.tickLower, hp.alike.tickUpper, rfl, hp.alike.fee, hp.alike.price, hp.alike.tick⟩, hp.amount0, hp.amount1,
      hp.pos, hp.token0, hp.token1, hp.ranges, hp.apart, hp.even⟩
  have hkind := hp.alike.kind.symm
  unfold makeSnapshot at hx hy
  split at hx <;> split at hy <;>
    first
    | (obtain ⟨h, h1, hx⟩ := bind_ok hx; obtain ⟨h', h2, hy⟩ := bind_ok hy; cases hx; cases hy; exact keep h1 h2)
    | (cases hx; cases hy; exact hp)
    | (exfalso; clear hx hy keep hp; grind)

theorem start_pair {m m' : List Entry} {s t : Strat} (h : SameStart m m' s t) : Pair m m' s t :=
  ⟨runs_owns h.runs, runs_owns h.runs', runs_liq h.runs, runs_liq h.runs', runs_tidy h.runs, runs_tidy h.runs', h.alike, h.amount0, h.amount1,
    h.none.trans h.none'.symm, h.token0, h.token1, h.ranges, by rw [h.none]; exact List.Pairwise.nil, fun x hx => by rw [h.none] at hx; cases hx⟩

theorem together_pair {m0 m0' m m' : List Entry} {s0 t0 s t : Strat} (h0 : SameStart m0 m0' s0 t0)
    (h : Together m0 m0' s0 t0 m m' s t) : Pair m m' s t := by
  induction h with
  | start => exact start_pair h0
  | trade fuel op _ ho hx hy ih => exact trade_pair ih ho hx hy
  | snapshot _ hx hy ih => exact snapshot_pair ih hx hy
  | init fuel _ hx hf hw ha hy ih =>
    obtain ⟨h1, rfl⟩ := init_eq hx
    obtain ⟨h2, rfl⟩ := init_eq hy
    exact openFirst_pair ih hf hw ha h1 h2
  | rebalance fuel _ hx hf hw ha hy ih => exact (rebalance_pair ih hf hw ha hx hy).2
  | burnAll _ hx he hy ih => exact (burnAll_pair ih he hx hy).2

end Strat
end Uni
