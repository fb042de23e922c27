import Verif.Spec.Elsewhere
import Verif.Proofs.Market
import Verif.Proofs.Invest
import Verif.Proofs.Liquidate
/-! # The same strategy in another pool -/
namespace Uni
open U256 Spec TickData TickMath SwapMath FullMath SqrtPriceMath LiquidityAmounts Pool
namespace Pool

/-! ### The fees of two pools that offer the same market -/

theorem accrue_diff {fee L g g' r r' : U256} (h : accrue fee L g = .ok r) (h' : accrue fee L g' = .ok r') : sub r g = sub r' g' := by
  unfold accrue at h h'
  by_cases hs : sign L > 0
  · rw [if_pos hs] at h h'
    obtain ⟨f, h1, h⟩ := bind_ok h
    obtain ⟨f', h1', h'⟩ := bind_ok h'
    rw [h1] at h1'
    cases h1'
    cases h
    cases h'
    show (g + f) - g = (g' + f) - g'
    abel
  · rw [if_neg hs] at h h'
    cases h
    cases h'
    show g - g = g' - g'
    abel

theorem finishStep_growth {p : Pool} {z b : Bool} {n : Int} {pn : U256} {s s1 r : SwapState}
    (h : finishStep p z b n pn s s1 = .ok r) : r.growth = s1.growth := by
  unfold finishStep at h
  by_cases c : cmp s1.price pn = 0
  · rw [if_pos c] at h
    obtain ⟨_, _, h⟩ := bind_ok h
    cases h
    rfl
  · rw [if_neg c] at h
    by_cases d : cmp s1.price s.price ≠ 0
    · rw [if_pos d] at h
      obtain ⟨_, _, h⟩ := bind_ok h
      cases h
      rfl
    · rw [if_neg d] at h
      cases h
      rfl

theorem step_diff {p q : Pool} (hfee : p.fee = q.fee) {z ein : Bool} {limit : U256} {s s' r r' : SwapState} (h : SameState s s')
    (h1 : swapStep p z ein limit s = .ok r) (h2 : swapStep q z ein limit s' = .ok r') :
    SameState r r' ∧ sub r.growth s.growth = sub r'.growth s'.growth := by
  have hs := step_same hfee (z := z) (ein := ein) (limit := limit) h
  rw [h1, h2] at hs
  refine ⟨hs, ?_⟩
  unfold swapStep at h1 h2
  rw [h.ticks.next, h.price, h.tick, h.liquidity, h.remaining, hfee] at h1
  obtain ⟨n, a1, h1⟩ := bind_ok h1
  obtain ⟨pn, a2, h1⟩ := bind_ok h1
  obtain ⟨st, a3, h1⟩ := bind_ok h1
  obtain ⟨g, a4, h1⟩ := bind_ok h1
  obtain ⟨n', b1, h2⟩ := bind_ok h2
  rw [a1] at b1
  cases b1
  obtain ⟨pn', b2, h2⟩ := bind_ok h2
  rw [a2] at b2
  cases b2
  obtain ⟨st', b3, h2⟩ := bind_ok h2
  rw [a3] at b3
  cases b3
  obtain ⟨g', b4, h2⟩ := bind_ok h2
  rw [finishStep_growth h1, finishStep_growth h2]
  exact accrue_diff a4 b4

theorem swapLog_same {p q : Pool} (hfee : p.fee = q.fee) {z ein : Bool} {limit : U256} (fuel : Nat) {s s' : SwapState}
    (h : SameState s s') : swapLog p z ein limit fuel s = swapLog q z ein limit fuel s' := by
  induction fuel generalizing s s' with
  | zero => rfl
  | succ n ih =>
    unfold swapLog
    have hr : running limit s = running limit s' := by unfold running; rw [h.remaining, h.price]
    rw [hr]
    by_cases hc : running limit s' = true
    · rw [if_pos hc, if_pos hc]
      have hs := step_same hfee (z := z) (ein := ein) (limit := limit) h
      rcases h1 : swapStep p z ein limit s with e | r <;> rcases h2 : swapStep q z ein limit s' with e' | r'
      · rfl
      · rw [h1, h2] at hs; exact hs.elim
      · rw [h1, h2] at hs; exact hs.elim
      · obtain ⟨k1, k2⟩ := step_diff hfee h h1 h2
        dsimp only
        rw [k2, ih k1, h.tick]
    · rw [if_neg hc, if_neg hc]

theorem market_liquidity {h h' : List Entry} {p q : Pool} (hi : Inv h p) (hi' : Inv h' q) (ht : p.tick = q.tick)
    (ho : ∀ l u, outstanding h l u = outstanding h' l u) : p.liquidity = q.liquidity := by
  apply ext_toNat
  have h1 := hi.liq
  have h2 := hi'.liq
  have h3 : active h p.tick = active h' q.tick := by rw [ht]; exact wsum_ext ho _
  omega

theorem callLog_same {h h' : List Entry} {p q : Pool} (hr : Reachable h p) (hr' : Reachable h' q) (hs : SameMarket h h' p q)
    (fuel : Nat) (z : Bool) (a lim : U256) : callLog fuel p z a lim = callLog fuel q z a lim := by
  have hi := Props.reachable_inv hr
  have hi' := Props.reachable_inv hr'
  have hsp : p.spacing = q.spacing := by rw [reachable_spacing hr, reachable_spacing hr', hs.fee]
  unfold callLog
  exact swapLog_same hs.fee fuel ⟨rfl, rfl, hs.price, hs.tick, market_liquidity hi hi' hs.tick hs.ranges, market_ticks hi hi' hsp hs.ranges⟩

theorem flash_diff {p q p' q' : Pool} (hf : p.fee = q.fee) (hl : p.liquidity = q.liquidity) {a b : U256}
    (hx : p.flash a b = .ok p') (hy : q.flash a b = .ok q') :
    sub p'.growth0 p.growth0 = sub q'.growth0 q.growth0 ∧ sub p'.growth1 p.growth1 = sub q'.growth1 q.growth1 := by
  unfold flash at hx hy
  rw [hf, hl] at hx
  obtain ⟨_, _, hx⟩ := bind_ok hx
  obtain ⟨f0, a1, hx⟩ := bind_ok hx
  obtain ⟨f1, a2, hx⟩ := bind_ok hx
  obtain ⟨g0, a3, hx⟩ := bind_ok hx
  obtain ⟨g1, a4, hx⟩ := bind_ok hx
  cases hx
  obtain ⟨_, _, hy⟩ := bind_ok hy
  obtain ⟨f0', b1, hy⟩ := bind_ok hy
  obtain ⟨f1', b2, hy⟩ := bind_ok hy
  rw [a1] at b1
  rw [a2] at b2
  cases b1
  cases b2
  obtain ⟨g0', b3, hy⟩ := bind_ok hy
  obtain ⟨g1', b4, hy⟩ := bind_ok hy
  rw [a3] at b3
  rw [a4] at b4
  cases b3
  cases b4
  cases hy
  constructor
  · show (p.growth0 + g0) - p.growth0 = (q.growth0 + g0) - q.growth0
    abel
  · show (p.growth1 + g1) - p.growth1 = (q.growth1 + g1) - q.growth1
    abel

theorem ledger_same {h h' : List Entry} (ho : ∀ l u, outstanding h l u = outstanding h' l u) (op : PoolOp) (l u : Int) :
    outstanding (op.ledger h) l u = outstanding (op.ledger h') l u := by
  have hc : ∀ e : Entry, outstanding (e :: h) l u = outstanding (e :: h') l u := by
    intro e; rw [outstanding_cons, outstanding_cons, ho]
  have hb : ∀ (n : Nat) (e : Entry), outstanding (if n = 0 then h else e :: h) l u = outstanding (if n = 0 then h' else e :: h') l u := by
    intro n e
    by_cases hz : n = 0
    · rw [if_pos hz, if_pos hz]; exact ho l u
    · rw [if_neg hz, if_neg hz]; exact hc e
  cases op with
  | mint a b d => exact hc _
  | burn a b d => exact hb _ _
  | mintStrategy a b d => exact hc _
  | burnStrategy a b d => exact hb _ _
  | collectStrategy a b => exact ho l u
  | flash a b => exact ho l u
  | exactInput a t lim => exact ho l u
  | exactOutput a t lim => exact ho l u

theorem modifyPosition_market {p p' : Pool} {l u : Int} {d : U256} (h : p.modifyPosition l u d = .ok p') :
    p'.fee = p.fee ∧ p'.price = p.price ∧ p'.tick = p.tick ∧ p'.token0 = p.token0 ∧ p'.token1 = p.token1 := by
  unfold modifyPosition at h
  obtain ⟨_, _, h⟩ := bind_ok h
  obtain ⟨_, _, h⟩ := bind_ok h
  obtain ⟨_, _, h⟩ := bind_ok h
  obtain ⟨_, _, h⟩ := bind_ok h
  obtain ⟨_, _, h⟩ := bind_ok h
  split at h <;> cases h <;> exact ⟨rfl, rfl, rfl, rfl, rfl⟩

/-- One operation of others in two pools that offer the same market: the same fees accrue, and the pools still offer the same
market. -/
theorem op_same {h h' : List Entry} {p q p' q' : Pool} (hr : Reachable h p) (hr' : Reachable h' q) (hs : SameMarket h h' p q)
    (h0 : p.token0 = q.token0) (h1 : p.token1 = q.token1) {fuel : Nat} {op : PoolOp}
    (hn : (∃ l u a, op = .mint l u a) ∨ (∃ l u a, op = .burn l u a) ∨ (∃ a b, op = .flash a b) ∨ (∃ a t l, op = .exactInput a t l) ∨
      ∃ a t l, op = .exactOutput a t l)
    (hx : op.exec fuel p = .ok p') (hy : op.exec fuel q = .ok q') :
    op.log fuel p p' = op.log fuel q q' ∧ p'.fee = q'.fee ∧ p'.price = q'.price ∧ p'.tick = q'.tick := by
  have sw : ∀ {z : Bool} {a lim a0 a1 b0 b1 : U256} {p' q' : Pool}, p.swap fuel z a lim = .ok (a0, a1, p') → q.swap fuel z a lim = .ok (b0, b1, q') →
      p'.fee = q'.fee ∧ p'.price = q'.price ∧ p'.tick = q'.tick := by
    intro z a lim a0 a1 b0 b1 p' q' k1 k2
    have := swap_same hr hr' hs fuel z a lim
    rw [k1, k2] at this
    obtain ⟨_, _, _, k⟩ := this
    exact ⟨k.fee, k.price, k.tick⟩
  rcases hn with ⟨l, u, a, rfl⟩ | ⟨l, u, a, rfl⟩ | ⟨a, b, rfl⟩ | ⟨a, t, l, rfl⟩ | ⟨a, t, l, rfl⟩
  · obtain ⟨_, _, hx⟩ := bind_ok hx
    obtain ⟨_, _, hy⟩ := bind_ok hy
    obtain ⟨e1, e2, e3, _⟩ := modifyPosition_market hx
    obtain ⟨f1, f2, f3, _⟩ := modifyPosition_market hy
    rw [e1, e2, e3, f1, f2, f3]
    exact ⟨rfl, hs.fee, hs.price, hs.tick⟩
  · obtain ⟨e1, e2, e3, _⟩ := modifyPosition_market hx
    obtain ⟨f1, f2, f3, _⟩ := modifyPosition_market hy
    rw [e1, e2, e3, f1, f2, f3]
    exact ⟨rfl, hs.fee, hs.price, hs.tick⟩
  · have hl := market_liquidity (Props.reachable_inv hr) (Props.reachable_inv hr') hs.tick hs.ranges
    obtain ⟨d0, d1⟩ := flash_diff hs.fee hl hx hy
    refine ⟨?_, ?_⟩
    · show [(_ : Accrual)] = [_]
      rw [d0, d1, hs.tick]
    · obtain ⟨_, _, hx⟩ := bind_ok hx
      obtain ⟨_, _, hx⟩ := bind_ok hx
      obtain ⟨_, _, hx⟩ := bind_ok hx
      obtain ⟨_, _, hx⟩ := bind_ok hx
      obtain ⟨_, _, hx⟩ := bind_ok hx
      cases hx
      obtain ⟨_, _, hy⟩ := bind_ok hy
      obtain ⟨_, _, hy⟩ := bind_ok hy
      obtain ⟨_, _, hy⟩ := bind_ok hy
      obtain ⟨_, _, hy⟩ := bind_ok hy
      obtain ⟨_, _, hy⟩ := bind_ok hy
      cases hy
      exact ⟨hs.fee, hs.price, hs.tick⟩
  · obtain ⟨⟨a0, a1, p1⟩, k1, hx⟩ := bind_ok hx
    obtain ⟨⟨b0, b1, q1⟩, k2, hy⟩ := bind_ok hy
    cases hx
    cases hy
    unfold exactInputSwap at k1 k2
    rw [← h0] at k2
    refine ⟨?_, sw k1 k2⟩
    show callLog fuel p (decide (t = p.token0)) a l = callLog fuel q (decide (t = q.token0)) a l
    rw [← h0]
    exact callLog_same hr hr' hs fuel _ a l
  · obtain ⟨⟨a0, a1, p1⟩, k1, hx⟩ := bind_ok hx
    obtain ⟨⟨b0, b1, q1⟩, k2, hy⟩ := bind_ok hy
    cases hx
    cases hy
    unfold exactOutputSwap at k1 k2
    rw [← h1] at k2
    refine ⟨?_, sw k1 k2⟩
    show callLog fuel p (decide (t = p.token1)) a l = callLog fuel q (decide (t = q.token1)) a l
    rw [← h1]
    exact callLog_same hr hr' hs fuel _ a l

/-- One operation and the growth inside a range that holds liquidity before and after. -/
theorem op_inside {h : List Entry} {p p' : Pool} (hi : Inv h p) {fuel : Nat} {op : PoolOp} (ha : op.Admissible p h)
    (hx : op.exec fuel p = .ok p') {l u : Int} (hlu : l ≤ u) (h1 : 0 < outstanding h l u) (h2 : 0 < outstanding (op.ledger h) l u) :
    ∃ a b, p.ticks.getFeeGrowthInside l u p.tick p.growth0 p.growth1 = .ok a ∧
      p'.ticks.getFeeGrowthInside l u p'.tick p'.growth0 p'.growth1 = .ok b ∧
      b.1 = a.1 + accrued0 l u (op.log fuel p p') ∧ b.2 = a.2 + accrued1 l u (op.log fuel p p') := by
  have init : ∀ {h' : List Entry} {p' : Pool}, Inv h' p' → 0 < outstanding h' l u → Pool.Initialized p' l ∧ Pool.Initialized p' u := by
    intro h' p' hi' ho'
    obtain ⟨g1, g2⟩ := hi'.cov.gross_pos ho'
    exact ⟨init_of_gross hi' (by omega), init_of_gross hi' (by omega)⟩
  have ex : ∀ {h' : List Entry} {p' : Pool}, Inv h' p' → 0 < outstanding h' l u →
      ∃ r, p'.ticks.getFeeGrowthInside l u p'.tick p'.growth0 p'.growth1 = .ok r := by
    intro h' p' hi' ho'
    obtain ⟨n1, n2⟩ := init hi' ho'
    obtain ⟨x, hx⟩ := Option.isSome_iff_exists.1 n1
    obtain ⟨y, hy⟩ := Option.isSome_iff_exists.1 n2
    exact ⟨_, inside_eq hi'.ticks.inc hx hy _ _ _⟩
  have hi' := exec_inv hi ha hx
  obtain ⟨a, ea⟩ := ex hi h1
  obtain ⟨b, eb⟩ := ex hi' h2
  have ev : Evolves (fun _ => True) (fun q => Pool.Initialized q l ∧ Pool.Initialized q u) h p ([] ++ op.log fuel p p') _ p' :=
    .step fuel op (.refl (init hi h1)) trivial ha hx (init hi' h2)
  obtain ⟨k1, k2⟩ := evolves_inside hlu hi ev ea eb
  exact ⟨a, b, ea, eb, k1, k2⟩

end Pool
namespace Strat

/-! ### Records -/

/-- The record with the key `k` owes nothing. -/
def Clean (p : Pool) (k : String) : Prop := (posOrNew (p.positions k)).owed0 = 0 ∧ (posOrNew (p.positions k)).owed1 = 0

/-- The growth inside the range of a position. -/
def InsideIs (p : Pool) (l u : Int) (a : U256 × U256) : Prop := p.ticks.getFeeGrowthInside l u p.tick p.growth0 p.growth1 = .ok a

/-- The records of the position in the two pools differ only in the growth they start from, and not in the growth since. -/
def Even (p q : Pool) (x : StratPos) : Prop :=
  ∃ i j a b, p.positions (posKey x.lower x.upper) = some i ∧ q.positions (posKey x.lower x.upper) = some j ∧
    InsideIs p x.lower x.upper a ∧ InsideIs q x.lower x.upper b ∧
    i.liquidity = j.liquidity ∧ i.owed0 = j.owed0 ∧ i.owed1 = j.owed1 ∧
    a.1 - i.inside0 = b.1 - j.inside0 ∧ a.2 - i.inside1 = b.2 - j.inside1

theorem Even.pending {p q : Pool} {x : StratPos} (h : Even p q x) :
    pending0 p x.lower x.upper = pending0 q x.lower x.upper ∧ pending1 p x.lower x.upper = pending1 q x.lower x.upper := by
  obtain ⟨i, j, a, b, h1, h2, h3, h4, h5, h6, h7, h8, h9⟩ := h
  rw [pending_some0 h1 h3, pending_some0 h2 h4, pending_some1 h1 h3, pending_some1 h2 h4]
  have e8 : sub a.1 i.inside0 = sub b.1 j.inside0 := h8
  have e9 : sub a.2 i.inside1 = sub b.2 j.inside1 := h9
  rw [h5, h6, h7, e8, e9]
  exact ⟨rfl, rfl⟩

theorem even_fees {p q : Pool} {ps : List StratPos} (h : ∀ x ∈ ps, Even p q x) : fees0 p ps = fees0 q ps ∧ fees1 p ps = fees1 q ps := by
  unfold fees0 fees1
  constructor
  · congr 1
    exact List.map_congr_left (fun x hx => by rw [(h x hx).pending.1])
  · congr 1
    exact List.map_congr_left (fun x hx => by rw [(h x hx).pending.2])

theorem mints_keep {p p' : Pool} {new : List StratPos} (h : MintsAll p new p') {k : String}
    (hk : ∀ x ∈ new, posKey x.lower x.upper ≠ k) : p'.positions k = p.positions k := by
  induction h with
  | nil p => rfl
  | cons hm _ ih =>
    rw [ih (fun x hx => hk x (List.mem_cons_of_mem _ hx))]
    obtain ⟨pos, h5⟩ := mintStrategy_pos hm
    rw [h5, setPos_ne (Ne.symm (hk _ List.mem_cons_self))]

theorem mints_inside {p p' : Pool} {new : List StratPos} (h : MintsAll p new p') : ∀ {H : List Entry}, Inv H p →
    total H + total (entries new) < 2 ^ 128 → ∀ {l u : Int}, l ≤ u → 0 < outstanding H l u →
    ∃ a, InsideIs p l u a ∧ InsideIs p' l u a := by
  induction h with
  | nil p =>
    intro H hi _ l u _ ho
    obtain ⟨g1, g2⟩ := hi.cov.gross_pos ho
    obtain ⟨x, hx⟩ := Option.isSome_iff_exists.1 (init_of_gross hi (show grossAt H l ≠ 0 by omega))
    obtain ⟨y, hy⟩ := Option.isSome_iff_exists.1 (init_of_gross hi (show grossAt H u ≠ 0 by omega))
    exact ⟨_, inside_eq hi.ticks.inc hx hy _ _ _, inside_eq hi.ticks.inc hx hy _ _ _⟩
  | @cons p p1 p2 x xs a0 a1 hm _ ih =>
    intro H hi ht l u hlu ho
    have ht' : total H + ((x.amount.toNat : Int) + total (entries xs)) < 2 ^ 128 := by
      rw [show entries (x :: xs) = ⟨x.lower, x.upper, x.amount.toNat⟩ :: entries xs from rfl, total_cons] at ht
      exact ht
    have hn := total_entries_nonneg xs
    have hadm : (PoolOp.mintStrategy x.lower x.upper x.amount).Admissible p H := by
      show total H + (x.amount.toNat : Int) < 2 ^ 128
      omega
    have hi1 := exec_inv hi hadm (exec_mint hm)
    have h2 : 0 < outstanding ((PoolOp.mintStrategy x.lower x.upper x.amount).ledger H) l u := by
      show 0 < outstanding (⟨x.lower, x.upper, x.amount.toNat⟩ :: H) l u
      rw [outstanding_cons]
      dsimp only
      split <;> omega
    obtain ⟨a, b, e1, e2, e3, e4⟩ := op_inside hi hadm (exec_mint hm) hlu ho h2
    obtain ⟨c, f1, f2⟩ := ih hi1 (by
      show total (⟨x.lower, x.upper, x.amount.toNat⟩ :: H) + _ < _
      rw [total_cons]
      dsimp only
      omega) hlu h2
    have z1 : b.1 = a.1 := by
      rw [e3]; show a.1 + zero = a.1; rw [zero_def, add_zero]
    have z2 : b.2 = a.2 := by
      rw [e4]; show a.2 + zero = a.2; rw [zero_def, add_zero]
    have : b = a := Prod.ext z1 z2
    subst this
    have : c = b := by
      have := f1.symm.trans e2
      cases this
      rfl
    subst this
    exact ⟨c, e1, f2⟩

theorem share_zero (g : U256) : share 0 g = 0 := by
  unfold share
  rw [← zero_def, show (zero : U256).toNat = 0 from rfl, Nat.zero_mul, Nat.zero_div]
  rfl

/-- The records of new positions that use different records, which held nothing before. -/
theorem mints_fresh {p p' : Pool} {new : List StratPos} (h : MintsAll p new p') : ∀ {H : List Entry}, Inv H p →
    total H + total (entries new) < 2 ^ 128 → (∀ x ∈ new, 0 < x.amount.toNat) → (∀ l u, 0 ≤ outstanding H l u) → SeparateRecords new →
    (∀ x ∈ new, liqAt p (posKey x.lower x.upper) = 0 ∧ Clean p (posKey x.lower x.upper)) →
    ∀ x ∈ new, ∃ i, p'.positions (posKey x.lower x.upper) = some i ∧ i.liquidity = x.amount ∧ i.owed0 = 0 ∧ i.owed1 = 0 ∧
      InsideIs p' x.lower x.upper (i.inside0, i.inside1) := by
  induction h with
  | nil p => intro H _ _ _ _ _ _ x hx; cases hx
  | @cons p p1 p2 x xs a0 a1 hm hr ih =>
    intro H hi ht hpos hnn hap hz y hy
    have ht' : total H + ((x.amount.toNat : Int) + total (entries xs)) < 2 ^ 128 := by
      rw [show entries (x :: xs) = ⟨x.lower, x.upper, x.amount.toNat⟩ :: entries xs from rfl, total_cons] at ht
      exact ht
    have hn := total_entries_nonneg xs
    have hadm : (PoolOp.mintStrategy x.lower x.upper x.amount).Admissible p H := by
      show total H + (x.amount.toNat : Int) < 2 ^ 128
      omega
    have hi1 : Inv (⟨x.lower, x.upper, x.amount.toNat⟩ :: H) p1 := exec_inv hi hadm (exec_mint hm)
    have ht1 : total (⟨x.lower, x.upper, x.amount.toNat⟩ :: H) + total (entries xs) < 2 ^ 128 := by
      rw [total_cons]
      dsimp only
      omega
    obtain ⟨hd, hap'⟩ := List.pairwise_cons.1 hap
    obtain ⟨_, _, pos, b3⟩ := mintStrategy_eq hm
    have hp1 := modifyStrategy_pos b3
    rcases List.mem_cons.1 hy with rfl | hy
    · obtain ⟨hlu, _⟩ := modifyStrategy_eq b3
      obtain ⟨ins, k1, _, k3⟩ := touch_inside hi b3
      have ho1 : 0 < outstanding (⟨y.lower, y.upper, y.amount.toNat⟩ :: H) y.lower y.upper := by
        rw [outstanding_cons, if_pos ⟨rfl, rfl⟩]
        have h1 := hnn y.lower y.upper
        have h2 := hpos y List.mem_cons_self
        dsimp only
        omega
      obtain ⟨g1, g2⟩ := hi1.cov.gross_pos ho1
      obtain ⟨f1, f2⟩ := k3 ⟨init_of_gross hi1 (by omega), init_of_gross hi1 (by omega)⟩
      obtain ⟨_, _, u3, u4, u5⟩ := update_ok k1
      obtain ⟨z1, z2, z3⟩ := hz y List.mem_cons_self
      unfold liqAt at z1
      rw [z1, z2, share_zero, zero_add] at u4
      rw [z1, z3, share_zero, zero_add] at u5
      rw [z1, zero_add] at u3
      obtain ⟨c, e1, e2⟩ := mints_inside hr hi1 ht1 (le_of_lt hlu) ho1
      have : c = (pos.inside0, pos.inside1) := by
        have := e1.symm.trans f2
        cases this
        rfl
      subst this
      refine ⟨pos, ?_, u3, u4, u5, e2⟩
      rw [mints_keep hr (fun z hz' => Ne.symm (hd z hz'))]
      exact f1
    · refine ih hi1 ht1 (fun z hz' => hpos z (List.mem_cons_of_mem _ hz')) ?_ hap' ?_ y hy
      · intro l u
        rw [outstanding_cons]
        have := hnn l u
        dsimp only
        split <;> omega
      · intro z hz'
        obtain ⟨z1, z2⟩ := hz z (List.mem_cons_of_mem _ hz')
        have e : p1.positions (posKey z.lower z.upper) = p.positions (posKey z.lower z.upper) := by
          rw [hp1, setPos_ne (Ne.symm (hd z hz'))]
        unfold liqAt Clean
        rw [e]
        exact ⟨z1, z2⟩

/-! ### Records of closed positions owe nothing -/

/-- Records that no position uses owe nothing. -/
def Tidy (p : Pool) (ps : List StratPos) : Prop := ∀ k, (∀ x ∈ ps, posKey x.lower x.upper ≠ k) → Clean p k

theorem grown_tidy {m : List Entry} {s s' : Strat} {new : List StratPos} (g : Grown m s s' new) (h : Tidy s.pool s.positions) :
    Tidy s'.pool s'.positions := by
  intro k hk
  rw [g.pos] at hk
  have h1 := h k (fun x hx => hk x (List.mem_append_left _ hx))
  unfold Clean
  rw [mints_keep g.path (fun x hx => hk x (List.mem_append_right _ hx))]
  exact h1

theorem burnLoop_tidy {ps : List StratPos} : ∀ {s s1 : Strat}, burnLoop ps s = .ok s1 → Tidy s.pool ps → Tidy s1.pool [] := by
  induction ps with
  | nil => intro s s1 hx h; cases hx; exact h
  | cons q ps ih =>
    intro s s1 hx h
    unfold burnLoop at hx
    obtain ⟨⟨b0, b1, p1⟩, hb, hx⟩ := bind_ok hx
    obtain ⟨⟨c0, c1, p2⟩, hc, hx⟩ := bind_ok hx
    dsimp only at hc hx
    refine ih hx ?_
    intro k hk
    dsimp only
    by_cases he : posKey q.lower q.upper = k
    · subst he
      unfold collectStrategy at hc
      split at hc
      · cases hc
      · cases hc
        unfold Clean
        dsimp only
        rw [setPos_same]
        exact ⟨rfl, rfl⟩
    · have h1 := h k (fun x hx => by
        rcases List.mem_cons.1 hx with rfl | hx
        · exact he
        · exact hk x hx)
      have e2 : p2.positions k = p1.positions k := by
        unfold collectStrategy at hc
        split at hc
        · cases hc
        · cases hc
          exact setPos_ne (Ne.symm he)
      obtain ⟨pos, h5⟩ := burnStrategy_pos hb
      have e1 : p1.positions k = s.pool.positions k := by rw [h5, setPos_ne (Ne.symm he)]
      unfold Clean
      rw [e2, e1]
      exact h1

theorem sumAt_none {ps : List StratPos} {k : String} (h : ∀ x ∈ ps, posKey x.lower x.upper ≠ k) : sumAt ps k = 0 := by
  induction ps with
  | nil => rfl
  | cons q ps ih =>
    rw [sumAt_cons, if_neg (h q List.mem_cons_self), ih (fun x hx => h x (List.mem_cons_of_mem _ hx)), add_zero]

theorem swapOf_pos {p p' : Pool} {x0 x1 : Int} (h : SwapOf p p' x0 x1) : p'.positions = p.positions := by
  rcases h with ⟨_, _, rfl⟩ | ⟨fuel, a, t, r0, r1, hx, _⟩
  · rfl
  · rw [swap_pos hx]

theorem swapMint_tidy {m : List Entry} {s s' : Strat} {fuel : Nat} {l u : Int}
    (ho : Owns m s.positions s.pool) (hne : s.pool.token0 ≠ s.pool.token1)
    (h0 : s.amount0.toNat < 2 ^ 160) (h1 : s.amount1.toNat < 2 ^ 160)
    (hc : ClearAbove s.pool.spacing s.pool.tick (book m s))
    (hx : s.swapMint fuel l u = .ok s') (h : Tidy s.pool s.positions) : Tidy s'.pool s'.positions := by
  obtain ⟨s1, x0, x1, ht, new, g, _⟩ := swapMint_opens ho hne h0 h1 hc hx
  refine grown_tidy g ?_
  unfold Tidy Clean
  rw [ht.pos, swapOf_pos ht.swap]
  exact h

theorem openFirst_tidy {m : List Entry} {s s' : Strat} {fuel : Nat} (ho : Owns m s.positions s.pool)
    (hw : MaySwap s (s.amount0, s.amount1) (book m s)) (hx : s.openFirst fuel = .ok s') (h : Tidy s.pool s.positions) :
    Tidy s'.pool s'.positions := by
  by_cases hs : ∃ w, s.kind = .swapHalf w
  · obtain ⟨w, hk⟩ := hs
    obtain ⟨n1, n2, n3, n4⟩ := hw w hk
    unfold openFirst at hx
    rw [hk] at hx
    exact swapMint_tidy ho n1 n2 n3 n4 hx h
  · obtain ⟨rs, _, new, g, _⟩ := openFirst_opens m (fun w h => hs ⟨w, h⟩) hx
    exact grown_tidy g h

theorem openAgain_tidy {m : List Entry} {s s' : Strat} {fuel : Nat} (ho : Owns m s.positions s.pool)
    (hw : MaySwap s (s.amount0, s.amount1) (book m s)) (hx : s.openAgain fuel = .ok s') (h : Tidy s.pool s.positions) :
    Tidy s'.pool s'.positions := by
  by_cases hs : ∃ w, s.kind = .swapHalf w
  · obtain ⟨w, hk⟩ := hs
    obtain ⟨n1, n2, n3, n4⟩ := hw w hk
    unfold openAgain at hx
    rw [hk] at hx
    exact swapMint_tidy ho n1 n2 n3 n4 hx h
  · obtain ⟨rs, _, new, g, _⟩ := openAgain_opens m (fun w h => hs ⟨w, h⟩) hx
    exact grown_tidy g h

theorem runs_tidy {m : List Entry} {s : Strat} (hr : Runs m s) : Tidy s.pool s.positions := by
  induction hr with
  | start hf hn hs =>
    intro k _
    obtain ⟨h1, _⟩ := new_owns hf hn hs
    have hp := (new_inv hf hn).2.2.2.2.2.2.2.2.2
    rw [h1]
    unfold Clean
    rw [hp k]
    exact ⟨rfl, rfl⟩
  | trade fuel op _ hb hx ih =>
    unfold Tidy Clean
    dsimp only
    rw [trade_liq hb hx]
    exact ih
  | snapshot _ hx ih =>
    obtain ⟨h1, h2⟩ := makeSnapshot_eq hx
    rw [h1, h2]; exact ih
  | init fuel hr0 hx hf hw ih =>
    obtain ⟨h1, rfl⟩ := init_eq hx
    exact openFirst_tidy (runs_owns hr0) hw h1 ih
  | rebalance fuel hr0 hx hf hw ih =>
    rcases rebalance_eq hx with ⟨_, _, rfl⟩ | ⟨_, c0, s1, h1, h2, rfl⟩
    · exact ih
    · obtain ⟨o, e, hb, hk, _, _, _, hst, rfl⟩ := closed_owns (runs_owns hr0) h1
      obtain ⟨_, _, _, _, h4⟩ := closeAll_spec (runs_owns hr0) h1
      have h5 := burnLoop_tidy h4 ih
      exact openAgain_tidy o (closed_swap hk hb hst (hw _ rfl)) h2 (by rw [e]; exact h5)
  | burnAll hr0 hx he ih =>
    rcases burnAll_eq hx with ⟨_, _, rfl⟩ | ⟨t, h1, _, h2⟩
    · exact ih
    · have h5 := burnLoop_tidy h1 ih
      rw [he]
      rcases h2 with rfl | rfl <;> exact h5

end Strat
end Uni
