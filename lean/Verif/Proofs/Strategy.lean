import Verif.Proofs.Solvency
import Verif.Spec.Strategy
import Verif.Props.LiquidityAmounts
import Verif.Proofs.Prices
import Verif.Props.TickRound
/-! # Strategies -/
namespace Uni
open U256 Spec TickData TickMath SwapMath FullMath SqrtPriceMath LiquidityAmounts Pool
namespace Strat

/-! ### Ledgers with the same sums -/

/-- Two ledgers in which all weighted sums agree. -/
def SameBook (h h' : List Entry) : Prop := ∀ (R : Type) [CommRing R] (w : Int → Int → R), wsum w h = wsum w h'

theorem SameBook.refl (h : List Entry) : SameBook h h := fun _ _ _ => rfl

theorem wsum_append {R : Type} [Ring R] (w : Int → Int → R) (a b : List Entry) : wsum w (a ++ b) = wsum w a + wsum w b := by
  unfold wsum
  rw [List.map_append, List.sum_append]

theorem wsum_cons' {R : Type} [CommRing R] (w : Int → Int → R) (e : Entry) (h : List Entry) :
    wsum w (e :: h) = w e.lower e.upper * (e.delta : R) + wsum w h := by
  unfold wsum; rw [List.map_cons, List.sum_cons]

theorem SameBook.cons {h h' : List Entry} (hs : SameBook h h') (e : Entry) : SameBook (e :: h) (e :: h') := by
  intro R _ w
  rw [wsum_cons', wsum_cons', hs R w]

theorem SameBook.total {h h' : List Entry} (hs : SameBook h h') : Spec.total h = Spec.total h' := hs Int _
theorem SameBook.outstanding {h h' : List Entry} (hs : SameBook h h') (l u : Int) :
    Spec.outstanding h l u = Spec.outstanding h' l u := hs Int _
theorem SameBook.active {h h' : List Entry} (hs : SameBook h h') (t : Int) : Spec.active h t = Spec.active h' t := hs Int _
theorem SameBook.grossAt {h h' : List Entry} (hs : SameBook h h') (t : Int) : Spec.grossAt h t = Spec.grossAt h' t := hs Int _
theorem SameBook.clear {h h' : List Entry} (hs : SameBook h h') {sp t : Int} (hc : ClearAbove sp t h') : ClearAbove sp t h := by
  intro k h1 h2 j h3 h4
  rw [hs.grossAt]
  exact hc k h1 h2 j h3 h4

/-- Move an entry to the front. -/
theorem sameBook_front (a b : List Entry) (e : Entry) : SameBook (e :: (a ++ b)) (a ++ e :: b) := by
  intro R _ w
  rw [wsum_cons', wsum_append, wsum_append, wsum_cons']
  abel

theorem sameBook_mint (ps : List StratPos) (q : StratPos) (m : List Entry) :
    SameBook (⟨q.lower, q.upper, q.amount.toNat⟩ :: (entries ps ++ m)) (entries (ps ++ [q]) ++ m) := by
  intro R _ w
  unfold entries
  rw [List.map_append, wsum_cons', wsum_append, wsum_append, wsum_append]
  show _ = wsum w _ + wsum w [_] + _
  rw [wsum_cons', show wsum w [] = 0 from rfl]
  abel

theorem sameBook_burn (ps : List StratPos) (q : StratPos) (m : List Entry) {h : List Entry}
    (hs : SameBook h (entries (q :: ps) ++ m)) : SameBook (⟨q.lower, q.upper, -q.amount.toNat⟩ :: h) (entries ps ++ m) := by
  intro R _ w
  rw [wsum_cons', hs R w]
  show _ + wsum w (⟨q.lower, q.upper, q.amount.toNat⟩ :: (entries ps ++ m)) = _
  rw [wsum_cons']
  push_cast
  rw [mul_neg]
  abel

theorem total_append (a b : List Entry) : total (a ++ b) = total a + total b := wsum_append _ a b
theorem outstanding_append (a b : List Entry) (l u : Int) : outstanding (a ++ b) l u = outstanding a l u + outstanding b l u :=
  wsum_append _ a b

theorem entries_append (a b : List StratPos) : entries (a ++ b) = entries a ++ entries b := List.map_append

theorem total_entries_nonneg (ps : List StratPos) : 0 ≤ total (entries ps) := by
  induction ps with
  | nil => exact le_refl _
  | cons q ps ih =>
    show 0 ≤ total (⟨q.lower, q.upper, q.amount.toNat⟩ :: entries ps)
    rw [total_cons]
    have : (0 : Int) ≤ (q.amount.toNat : Int) := Int.natCast_nonneg _
    show 0 ≤ (q.amount.toNat : Int) + total (entries ps)
    omega

theorem outstanding_entries_nonneg (ps : List StratPos) (l u : Int) : 0 ≤ outstanding (entries ps) l u := by
  induction ps with
  | nil => exact le_refl _
  | cons q ps ih =>
    show 0 ≤ outstanding (⟨q.lower, q.upper, q.amount.toNat⟩ :: entries ps) l u
    rw [outstanding_cons]
    dsimp only
    split <;> omega

/-! ### States reached by runs -/

/-- A position is well formed. -/
def WellFormed (q : StratPos) : Prop := 0 < q.amount.toNat ∧ q.lower < q.upper ∧ -887272 ≤ q.lower ∧ q.upper ≤ 887272

/-- The pool is reachable with a ledger that consists of the positions and of the ledger of the others. -/
structure Owns (m : List Entry) (ps : List StratPos) (p : Pool) : Prop where
  pool : ∃ h, Reachable h p ∧ SameBook h (entries ps ++ m)
  nonneg : ∀ l u, 0 ≤ outstanding m l u
  wf : ∀ q ∈ ps, WellFormed q

theorem reachable_step {h : List Entry} {p p' : Pool} (hr : Reachable h p) (fuel : Nat) (op : PoolOp) (ha : op.Admissible p h)
    (hx : op.exec fuel p = .ok p') : Reachable (op.ledger h) p' := by
  obtain ⟨a, b, fee, price, p0, hf, hn, hr⟩ := hr
  exact ⟨a, b, fee, price, p0, hf, hn, .step fuel op hr ha hx⟩

theorem reachable_unit {h : List Entry} {p : Pool} (hr : Reachable h p) :
    Cons.tickSpaces p.fee = p.spacing ∧ (p.spacing = 10 ∨ p.spacing = 60 ∨ p.spacing = 200) := by
  obtain ⟨a, b, fee, price, p0, hf, hn, hr⟩ := hr
  obtain ⟨_, h1, h2, _⟩ := reaches_inv (new_inv hf hn).1 hr
  unfold Pool.new at hn
  obtain ⟨_, _, hn⟩ := bind_ok hn
  obtain ⟨_, _, hn⟩ := bind_ok hn
  cases hn
  rw [h1, h2]
  refine ⟨rfl, ?_⟩
  show Cons.tickSpaces fee = _ ∨ _
  rcases hf with rfl | rfl | rfl
  · exact Or.inl rfl
  · exact Or.inr (Or.inl rfl)
  · exact Or.inr (Or.inr rfl)

theorem Owns.inv {m : List Entry} {ps : List StratPos} {p : Pool} (ho : Owns m ps p) :
    ∃ h, Inv h p ∧ SameBook h (entries ps ++ m) := by
  obtain ⟨h, h1, h2⟩ := ho.pool
  exact ⟨h, Props.reachable_inv h1, h2⟩

/-! ### Minting -/

theorem wsum_total_fits {m : List Entry} {ps qs : List StratPos} (h : total (entries (ps ++ qs) ++ m) < 2 ^ 128) :
    total (entries ps ++ m) < 2 ^ 128 := by
  rw [total_append, entries_append, total_append] at h
  rw [total_append]
  have := total_entries_nonneg qs
  omega

/-- Everything but liquidity, ticks and position records is unchanged. -/
structure Still (p p' : Pool) : Prop where
  price : p'.price = p.price
  tick : p'.tick = p.tick
  growth0 : p'.growth0 = p.growth0
  growth1 : p'.growth1 = p.growth1
  same : SameId p p'

theorem Still.refl (p : Pool) : Still p p := ⟨rfl, rfl, rfl, rfl, rfl, rfl, rfl, rfl⟩

theorem Still.trans {a b c : Pool} (h1 : Still a b) (h2 : Still b c) : Still a c :=
  ⟨h2.price.trans h1.price, h2.tick.trans h1.tick, h2.growth0.trans h1.growth0, h2.growth1.trans h1.growth1,
    h2.same.1.trans h1.same.1, h2.same.2.1.trans h1.same.2.1, h2.same.2.2.1.trans h1.same.2.2.1, h2.same.2.2.2.trans h1.same.2.2.2⟩

theorem updatePosition_still {p p' : Pool} {pos : Info} {l u : Int} {d : U256} (hx : p.updatePosition l u d = .ok (pos, p')) : Still p p' := by
  unfold updatePosition at hx
  obtain ⟨_, _, hx⟩ := bind_ok hx
  obtain ⟨_, _, hx⟩ := bind_ok hx
  obtain ⟨_, _, hx⟩ := bind_ok hx
  dsimp only at hx
  obtain ⟨_, _, hx⟩ := bind_ok hx
  obtain ⟨_, _, hx⟩ := bind_ok hx
  cases hx
  exact ⟨rfl, rfl, rfl, rfl, rfl, rfl, rfl, rfl⟩

theorem modifyStrategy_still {p p' : Pool} {pos : Info} {l u : Int} {d a0 a1 : U256}
    (hx : p.modifyPositionStrategy l u d = .ok (pos, a0, a1, p')) : Still p p' := by
  obtain ⟨_, _, _, q, h1, h2, h3⟩ := modifyStrategy_eq hx
  have h4 := updatePosition_still h1
  by_cases hz : d.toNat = 0
  · obtain ⟨_, _, rfl⟩ := h2 hz; exact h4
  · obtain ⟨_, rfl⟩ := h3 hz; exact ⟨h4.price, h4.tick, h4.growth0, h4.growth1, h4.same⟩

theorem burnStrategy_still {p p' : Pool} {l u : Int} {L b0 b1 : U256} (hx : p.burnStrategy l u L = .ok (b0, b1, p')) : Still p p' := by
  obtain ⟨pos, a0, a1, q, h1, _, _, rfl⟩ := burnStrategy_eq hx
  have h := modifyStrategy_still h1
  exact ⟨h.price, h.tick, h.growth0, h.growth1, h.same⟩

theorem collectStrategy_still {p p' : Pool} {l u : Int} {b0 b1 : U256} (hx : p.collectStrategy l u = .ok (b0, b1, p')) : Still p p' := by
  unfold collectStrategy at hx
  split at hx
  · cases hx
  · cases hx; exact ⟨rfl, rfl, rfl, rfl, rfl, rfl, rfl, rfl⟩

/-- The liquidity in the position record with the key `k`. -/
def liqAt (p : Pool) (k : String) : U256 := (posOrNew (p.positions k)).liquidity

/-- The liquidity of the positions that use the record with the key `k`, modulo `2^256`. -/
def sumAt (ps : List StratPos) (k : String) : U256 := (ps.map (fun q => if posKey q.lower q.upper = k then q.amount else 0)).sum

theorem sumAt_append (a b : List StratPos) (k : String) : sumAt (a ++ b) k = sumAt a k + sumAt b k := by
  unfold sumAt; rw [List.map_append, List.sum_append]

theorem modifyStrategy_liq {p p' : Pool} {pos : Info} {l u : Int} {d a0 a1 : U256}
    (hx : p.modifyPositionStrategy l u d = .ok (pos, a0, a1, p')) :
    pos.liquidity = liqAt p (posKey l u) + d := by
  obtain ⟨_, _, _, q, h1, _⟩ := modifyStrategy_eq hx
  unfold updatePosition at h1
  obtain ⟨_, _, h1⟩ := bind_ok h1
  obtain ⟨_, _, h1⟩ := bind_ok h1
  obtain ⟨i, hu, h1⟩ := bind_ok h1
  dsimp only at h1
  obtain ⟨_, _, h1⟩ := bind_ok h1
  obtain ⟨_, _, h1⟩ := bind_ok h1
  cases h1
  unfold Info.update at hu
  obtain ⟨_, _, hu⟩ := bind_ok hu
  obtain ⟨_, _, hu⟩ := bind_ok hu
  cases hu
  rfl

theorem liqAt_set {p p' : Pool} {k : String} {i : Info} {d : U256} (hp : p'.positions = setPos p.positions k i)
    (hi : i.liquidity = liqAt p k + d) (k' : String) : liqAt p' k' = liqAt p k' + if k = k' then d else 0 := by
  by_cases h : k = k'
  · subst h
    rw [if_pos rfl, ← hi]
    unfold liqAt
    rw [hp]
    unfold setPos
    rw [if_pos rfl]
    rfl
  · rw [if_neg h, add_zero]
    unfold liqAt
    rw [hp]
    unfold setPos
    rw [if_neg (fun e => h e.symm)]

/-- Minting the positions one after the other leads from the first pool to the second. -/
inductive MintsAll : Pool → List StratPos → Pool → Prop
  | nil (p : Pool) : MintsAll p [] p
  | cons {p p1 p2 : Pool} {x : StratPos} {xs : List StratPos} {a0 a1 : U256}
      (hm : p.mintStrategy x.lower x.upper x.amount = .ok (a0, a1, p1)) (hr : MintsAll p1 xs p2) : MintsAll p (x :: xs) p2

theorem MintsAll.append {p q r : Pool} {a b : List StratPos} (h1 : MintsAll p a q) (h2 : MintsAll q b r) : MintsAll p (a ++ b) r := by
  induction h1 with
  | nil p => exact h2
  | cons hm _ ih => exact .cons hm (ih h2)

/-- From one state to the next by opening the positions `new`: they are paid for exactly and recorded. -/
structure Grown (m : List Entry) (s s' : Strat) (new : List StratPos) : Prop where
  pos : s'.positions = s.positions ++ new
  kind : s'.kind = s.kind
  history : s'.history = s.history
  still : Still s.pool s'.pool
  own : Owns m s.positions s.pool → Fits m s' → Owns m s'.positions s'.pool ∧
    (s.amount0.toNat : Int) = s'.amount0.toNat + cost0 s.pool.price.toNat new ∧
    (s.amount1.toNat : Int) = s'.amount1.toNat + cost1 s.pool.price.toNat new
  recs : ∀ k, liqAt s'.pool k = liqAt s.pool k + sumAt new k
  path : MintsAll s.pool new s'.pool

theorem cost0_append (P : Nat) (a b : List StratPos) : cost0 P (a ++ b) = cost0 P a + cost0 P b := by
  unfold cost0; rw [List.map_append, List.sum_append]
theorem cost1_append (P : Nat) (a b : List StratPos) : cost1 P (a ++ b) = cost1 P a + cost1 P b := by
  unfold cost1; rw [List.map_append, List.sum_append]
theorem cost0_single (P : Nat) (q : StratPos) : cost0 P [q] = ⌈q.amount.toNat * holding0 P q.lower q.upper⌉ := by
  unfold cost0; rw [List.map_singleton, List.sum_singleton]
theorem cost1_single (P : Nat) (q : StratPos) : cost1 P [q] = ⌈q.amount.toNat * holding1 P q.lower q.upper⌉ := by
  unfold cost1; rw [List.map_singleton, List.sum_singleton]

theorem Grown.refl (m : List Entry) (s : Strat) : Grown m s s [] := by
  refine ⟨(List.append_nil _).symm, rfl, rfl, Still.refl _, fun ho _ => ⟨ho, ?_, ?_⟩, fun k => (add_zero _).symm, .nil _⟩
  · show _ = _ + (0 : Int); omega
  · show _ = _ + (0 : Int); omega

theorem Grown.trans {m : List Entry} {s t r : Strat} {a b : List StratPos} (h1 : Grown m s t a) (h2 : Grown m t r b) :
    Grown m s r (a ++ b) := by
  refine ⟨by rw [h2.pos, h1.pos, List.append_assoc], h2.kind.trans h1.kind, h2.history.trans h1.history, h1.still.trans h2.still, ?_,
    fun k => by rw [h2.recs, h1.recs, sumAt_append, add_assoc], h1.path.append h2.path⟩
  intro ho hf
  have hft : Fits m t := by
    unfold Fits book at hf ⊢
    rw [h2.pos] at hf
    exact wsum_total_fits hf
  obtain ⟨o1, c1, d1⟩ := h1.own ho hft
  obtain ⟨o2, c2, d2⟩ := h2.own o1 hf
  have p1 := h1.still.price
  refine ⟨o2, ?_, ?_⟩
  · rw [cost0_append, c1, c2, p1]; omega
  · rw [cost1_append, d1, d2, p1]; omega

theorem exec_mint {p p' : Pool} {l u : Int} {L a0 a1 : U256} (h : p.mintStrategy l u L = .ok (a0, a1, p')) :
    PoolOp.exec 0 p (.mintStrategy l u L) = .ok p' := by
  show (p.mintStrategy l u L >>= _) = _
  rw [h]; rfl
theorem exec_burn {p p' : Pool} {l u : Int} {L a0 a1 : U256} (h : p.burnStrategy l u L = .ok (a0, a1, p')) :
    PoolOp.exec 0 p (.burnStrategy l u L) = .ok p' := by
  show (p.burnStrategy l u L >>= _) = _
  rw [h]; rfl
theorem exec_collect {p p' : Pool} {l u : Int} {a0 a1 : U256} (h : p.collectStrategy l u = .ok (a0, a1, p')) :
    PoolOp.exec 0 p (.collectStrategy l u) = .ok p' := by
  show (p.collectStrategy l u >>= _) = _
  rw [h]; rfl
theorem exec_input {fuel : Nat} {p p' : Pool} {t : String} {a lim a0 a1 : U256} (h : p.exactInputSwap fuel a t lim = .ok (a0, a1, p')) :
    PoolOp.exec fuel p (.exactInput a t lim) = .ok p' := by
  show (p.exactInputSwap fuel a t lim >>= _) = _
  rw [h]; rfl

theorem ratio_lt {l u : Int} (hl : -887272 ≤ l) (hlu : l < u) (hu : u ≤ 887272) : 0 < ratioN l ∧ ratioN l < ratioN u := by
  have h1 := ratioN_ge hl (by omega)
  exact ⟨by omega, ratioN_lt hl hlu hu⟩

theorem forAmount_cost {p a b x0 x1 L L' : U256} {l u : Int} (ha : getSqrtRatioAtTick l = .ok a) (hb : getSqrtRatioAtTick u = .ok b)
    (hx : getLiquidityForAmount p a b x0 x1 = .ok L) (hle : L'.toNat ≤ L.toNat)
    (hl : -887272 ≤ l) (hlu : l < u) (hu : u ≤ 887272) :
    ⌈L'.toNat * holding0 p.toNat l u⌉ ≤ (x0.toNat : Int) ∧ ⌈L'.toNat * holding1 p.toNat l u⌉ ≤ (x1.toNat : Int) := by
  obtain ⟨a', ha', ha2⟩ := getSqrtRatioAtTick_spec l hl (by omega)
  obtain ⟨b', hb', hb2⟩ := getSqrtRatioAtTick_spec u (by omega) hu
  rw [ha] at ha'
  rw [hb] at hb'
  cases ha'
  cases hb'
  obtain ⟨r1, r2⟩ := ratio_lt hl hlu hu
  rw [← ha2] at r1
  rw [← ha2, ← hb2] at r2
  obtain ⟨c0, c1⟩ := Props.C38_affordable p a b x0 x1 L r1 r2 hx
  obtain ⟨f0, f1⟩ := holding_ratio (P := p.toNat) hl hlu hu L.toNat
  rw [← ha2, ← hb2] at f0 f1
  rw [f0] at c0
  rw [f1] at c1
  have hn := holding_nonneg (P := p.toNat) (l := l) (u := u)
  have hq : ((L'.toNat : Int) : ℚ) ≤ ((L.toNat : Int) : ℚ) := by exact_mod_cast hle
  refine ⟨le_trans (Int.ceil_le_ceil ?_) c0, le_trans (Int.ceil_le_ceil ?_) c1⟩
  · exact_mod_cast mul_le_mul_of_nonneg_right hq hn.1
  · exact_mod_cast mul_le_mul_of_nonneg_right hq hn.2

/-- The new position is paid for exactly, if the balances suffice. -/
theorem mintAmount_grown {m : List Entry} {s s' : Strat} {l u : Int} {L : U256}
    (hx : s.mintAmount l u L = .ok s')
    (hc : -887272 ≤ l → l < u → u ≤ 887272 → ⌈L.toNat * holding0 s.pool.price.toNat l u⌉ ≤ (s.amount0.toNat : Int) ∧
      ⌈L.toNat * holding1 s.pool.price.toNat l u⌉ ≤ (s.amount1.toNat : Int)) : Grown m s s' [⟨L, l, u⟩] := by
  unfold mintAmount at hx
  obtain ⟨⟨a0, a1, q⟩, h1, hx⟩ := bind_ok hx
  cases hx
  have hst : Still s.pool q := by
    obtain ⟨_, _, pos, b3⟩ := mintStrategy_eq h1
    exact modifyStrategy_still b3
  have hrec : ∀ k, liqAt q k = liqAt s.pool k + sumAt [⟨L, l, u⟩] k := by
    intro k
    obtain ⟨_, _, pos, b3⟩ := mintStrategy_eq h1
    rw [liqAt_set (modifyStrategy_pos b3) (modifyStrategy_liq b3) k]
    unfold sumAt
    rw [List.map_singleton, List.sum_singleton]
  refine ⟨rfl, rfl, rfl, hst, ?_, hrec, .cons h1 (.nil _)⟩
  intro ho hf
  obtain ⟨h, hr, hs⟩ := ho.pool
  have hi := Props.reachable_inv hr
  have hs2 : SameBook (⟨l, u, L.toNat⟩ :: h) (entries (s.positions ++ [⟨L, l, u⟩]) ++ m) := by
    intro R _ w
    rw [(hs.cons _) R w, sameBook_mint s.positions ⟨L, l, u⟩ m R w]
  have ht : total h + L.toNat < 2 ^ 128 := by
    have h2 := hs2.total
    rw [total_cons] at h2
    unfold Fits book at hf
    dsimp only at hf h2
    rw [← h2] at hf
    omega
  have hL : L.toNat < 2 ^ 128 := by
    have : 0 ≤ total h := wsum_nonneg hi.cov.nonneg (fun _ _ _ => by decide)
    omega
  obtain ⟨b1, b2, pos, b3⟩ := mintStrategy_eq h1
  obtain ⟨hlu, hl, hu, _⟩ := modifyStrategy_eq b3
  obtain ⟨e0, e1⟩ := mintStrategy_amounts hi hL h1
  obtain ⟨c0, c1⟩ := hc hl hlu hu
  refine ⟨⟨⟨_, reachable_step hr 0 (.mintStrategy l u L) ht (exec_mint h1), hs2⟩, ho.nonneg, ?_⟩,
    ?_, ?_⟩
  · intro q hq
    rcases List.mem_append.1 hq with hq | hq
    · exact ho.wf q hq
    · rw [List.mem_singleton] at hq
      subst hq
      exact ⟨by dsimp only; omega, hlu, hl, hu⟩
  · dsimp only
    rw [cost0_single, toNat_sub_of_le (by omega)]
    dsimp only
    omega
  · dsimp only
    rw [cost1_single, toNat_sub_of_le (by omega)]
    dsimp only
    omega

/-- What `getLiquidityForAmount` returns is affordable, and so is anything less. -/
theorem affordable_cost {s : Strat} {l u : Int} {L L' : U256} (hx : s.affordable l u = .ok L) (hle : L'.toNat ≤ L.toNat)
    (hl : -887272 ≤ l) (hlu : l < u) (hu : u ≤ 887272) :
    ⌈L'.toNat * holding0 s.pool.price.toNat l u⌉ ≤ (s.amount0.toNat : Int) ∧
      ⌈L'.toNat * holding1 s.pool.price.toNat l u⌉ ≤ (s.amount1.toNat : Int) := by
  unfold affordable at hx
  obtain ⟨a, ha, hx⟩ := bind_ok hx
  obtain ⟨b, hb, hx⟩ := bind_ok hx
  exact forAmount_cost ha hb hx hle hl hlu hu

/-! ### The positions of the strategies -/

theorem ranges_append (a b : List StratPos) : ranges (a ++ b) = ranges a ++ ranges b := List.map_append

/-- Positions in some of the ranges, in this order, are opened and paid for. -/
def Opens (m : List Entry) (s s' : Strat) (rs : List (Int × Int)) : Prop := ∃ new, Grown m s s' new ∧ (ranges new).Sublist rs

theorem Opens.none (m : List Entry) (s : Strat) (rs : List (Int × Int)) : Opens m s s rs :=
  ⟨[], Grown.refl m s, List.nil_sublist _⟩

theorem Opens.trans {m : List Entry} {s t r : Strat} {a b : List (Int × Int)} (h1 : Opens m s t a) (h2 : Opens m t r b) :
    Opens m s r (a ++ b) := by
  obtain ⟨x, g1, s1⟩ := h1
  obtain ⟨y, g2, s2⟩ := h2
  exact ⟨x ++ y, g1.trans g2, by rw [ranges_append]; exact s1.append s2⟩

theorem Opens.weaken {m : List Entry} {s t : Strat} {a b : List (Int × Int)} (h : Opens m s t a) (hs : a.Sublist b) : Opens m s t b := by
  obtain ⟨x, g, s1⟩ := h
  exact ⟨x, g, s1.trans hs⟩

theorem mintPosition_opens (m : List Entry) {s s' : Strat} {l u : Int} (hx : s.mintPosition l u = .ok s') : Opens m s s' [(l, u)] := by
  unfold mintPosition at hx
  obtain ⟨L, h1, hx⟩ := bind_ok hx
  by_cases hz : L.isZero
  · rw [if_pos hz] at hx
    cases hx
    exact Opens.none _ _ _
  · rw [if_neg hz] at hx
    exact ⟨_, mintAmount_grown hx (affordable_cost h1 (le_refl _)), List.Sublist.refl _⟩

theorem mintUnchecked_opens (m : List Entry) {s s' : Strat} {l u : Int} (hx : s.mintUnchecked l u = .ok s') : Opens m s s' [(l, u)] := by
  unfold mintUnchecked at hx
  obtain ⟨L, h1, hx⟩ := bind_ok hx
  exact ⟨_, mintAmount_grown hx (affordable_cost h1 (le_refl _)), List.Sublist.refl _⟩

theorem half_le {a b : U256} (h : div a (ofWord 2) = .ok b) : b.toNat = a.toNat / 2 := by
  obtain ⟨r, h1, h2⟩ := div_spec a (ofWord 2)
  rw [h] at h1
  cases h1
  exact h2

theorem mintHalf_opens (m : List Entry) {s s' : Strat} {l u : Int} (hx : s.mintHalf l u = .ok s') : Opens m s s' [(l, u)] := by
  unfold mintHalf at hx
  obtain ⟨L, h1, hx⟩ := bind_ok hx
  obtain ⟨H, h2, hx⟩ := bind_ok hx
  have h3 := half_le h2
  by_cases hz : H.isZero
  · rw [if_pos hz] at hx
    cases hx
    exact Opens.none _ _ _
  · rw [if_neg hz] at hx
    exact ⟨_, mintAmount_grown hx (affordable_cost h1 (by omega)), List.Sublist.refl _⟩

theorem twoAbove_opens (m : List Entry) {s s' : Strat} {unit b : Int} (hx : s.twoAbove unit b = .ok s') :
    Opens m s s' [(TickRound.ceil s.pool.tick unit, TickRound.ceil s.pool.tick unit + b)] := by
  unfold twoAbove at hx
  split at hx
  · cases hx; exact Opens.none _ _ _
  · exact mintPosition_opens m hx

theorem twoBelow_opens (m : List Entry) {s s' : Strat} {unit b : Int} (hx : s.twoBelow unit b = .ok s') :
    Opens m s s' [(TickRound.floor s.pool.tick unit - b, TickRound.floor s.pool.tick unit)] := by
  unfold twoBelow at hx
  split at hx
  · cases hx; exact Opens.none _ _ _
  · exact mintPosition_opens m hx

theorem setTwo_opens (m : List Entry) {s s' : Strat} {a b : Int} (hx : s.setTwo a b = .ok s') :
    Opens m s s' [s.around s.pool.tick a, (TickRound.ceil s.pool.tick s.unit, TickRound.ceil s.pool.tick s.unit + b),
      (TickRound.floor s.pool.tick s.unit - b, TickRound.floor s.pool.tick s.unit)] := by
  unfold setTwo at hx
  dsimp only at hx
  obtain ⟨s1, h1, hx⟩ := bind_ok hx
  obtain ⟨s2, h2, hx⟩ := bind_ok hx
  have k1 := mintPosition_opens m h1
  have k2 := twoAbove_opens m h2
  have k3 := twoBelow_opens m hx
  have t1 : s1.pool.tick = s.pool.tick := by obtain ⟨_, g, _⟩ := k1; exact g.still.tick
  have t2 : s2.pool.tick = s1.pool.tick := by obtain ⟨_, g, _⟩ := k2; exact g.still.tick
  rw [t1] at k2
  rw [t2, t1] at k3
  exact (k1.trans k2).trans k3

theorem limitAbove_opens (m : List Entry) {s s' : Strat} {unit : Int} (hx : s.limitAbove unit = .ok s') :
    Opens m s s' [(TickRound.ceil s.pool.tick unit, TickRound.ceil s.pool.tick unit + 10)] := by
  unfold limitAbove at hx
  split at hx
  · cases hx; exact Opens.none _ _ _
  · obtain ⟨s1, h1, hx⟩ := bind_ok hx
    cases hx
    obtain ⟨n, g, hs⟩ := mintHalf_opens m h1
    exact ⟨n, ⟨g.pos, g.kind, g.history, g.still, g.own, g.recs, g.path⟩, hs⟩

theorem limitBelow_opens (m : List Entry) {s s' : Strat} {unit : Int} (hx : s.limitBelow unit = .ok s') :
    Opens m s s' [(TickRound.floor s.pool.tick unit - 10, TickRound.floor s.pool.tick unit)] := by
  unfold limitBelow at hx
  split at hx
  · cases hx; exact Opens.none _ _ _
  · obtain ⟨s1, h1, hx⟩ := bind_ok hx
    cases hx
    obtain ⟨n, g, hs⟩ := mintHalf_opens m h1
    exact ⟨n, ⟨g.pos, g.kind, g.history, g.still, g.own, g.recs, g.path⟩, hs⟩

theorem setLimit_opens (m : List Entry) {s s' : Strat} {w : Int} (hx : s.setLimit w = .ok s') :
    Opens m s s' [s.around s.pool.tick w, (TickRound.ceil s.pool.tick s.unit, TickRound.ceil s.pool.tick s.unit + 10),
      (TickRound.floor s.pool.tick s.unit - 10, TickRound.floor s.pool.tick s.unit)] := by
  unfold setLimit at hx
  dsimp only at hx
  obtain ⟨s1, h1, hx⟩ := bind_ok hx
  obtain ⟨s2, h2, hx⟩ := bind_ok hx
  have k1 := mintPosition_opens m h1
  have k2 := limitAbove_opens m h2
  have k3 := limitBelow_opens m hx
  have t1 : s1.pool.tick = s.pool.tick := by obtain ⟨_, g, _⟩ := k1; exact g.still.tick
  have t2 : s2.pool.tick = s1.pool.tick := by obtain ⟨_, g, _⟩ := k2; exact g.still.tick
  rw [t1] at k2
  rw [t2, t1] at k3
  exact (k1.trans k2).trans k3

/-- What the fill-up step may open. -/
def fillPlan (unit tick : Int) (r : Int × Int) (rs : List (Int × Int)) : Prop :=
  rs = [] ∨ (TickRound.ceil tick unit < r.2 ∧ rs = [(TickRound.ceil tick unit, r.2)]) ∨
    (r.1 < TickRound.floor tick unit ∧ rs = [(r.1, TickRound.floor tick unit)])

theorem fillSide_opens (m : List Entry) {s s' : Strat} {l u : Int} (hx : s.fillSide l u = .ok s') :
    ∃ rs, fillPlan s.unit s.pool.tick (l, u) rs ∧ Opens m s s' rs := by
  unfold fillSide at hx
  split at hx
  · split at hx
    · rename_i _ hc
      exact ⟨_, Or.inr (Or.inl ⟨hc, rfl⟩), mintPosition_opens m hx⟩
    · cases hx; exact ⟨[], Or.inl rfl, Opens.none _ _ _⟩
  · split at hx
    · split at hx
      · rename_i _ _ hc
        exact ⟨_, Or.inr (Or.inr ⟨hc, rfl⟩), mintPosition_opens m hx⟩
      · cases hx; exact ⟨[], Or.inl rfl, Opens.none _ _ _⟩
    · cases hx; exact ⟨[], Or.inl rfl, Opens.none _ _ _⟩

theorem unit_still {s s' : Strat} (h : Still s.pool s'.pool) : s'.unit = s.unit := by
  unfold unit
  rw [h.same.2.1]

theorem setFill_opens (m : List Entry) {s s' : Strat} {w : Int} (hx : s.setFill w = .ok s') :
    ∃ rs, fillPlan s.unit s.pool.tick (s.around s.pool.tick w) rs ∧ Opens m s s' (s.around s.pool.tick w :: rs) := by
  unfold setFill at hx
  dsimp only at hx
  obtain ⟨s1, h1, hx⟩ := bind_ok hx
  have k1 := mintPosition_opens m h1
  obtain ⟨rs, k2, k3⟩ := fillSide_opens m hx
  have t1 : Still s.pool s1.pool := by obtain ⟨_, g, _⟩ := k1; exact g.still
  rw [unit_still t1, t1.tick] at k2
  exact ⟨rs, k2, k1.trans k3⟩

theorem setBollingerFill_opens (m : List Entry) {s s' : Strat} {k : Int} (hx : s.setBollingerFill k = .ok s') :
    ∃ r rs, s.bollingerTicks k = .ok r ∧ fillPlan s.unit s.pool.tick r rs ∧ Opens m s s' (r :: rs) := by
  unfold setBollingerFill at hx
  obtain ⟨r, h0, hx⟩ := bind_ok hx
  obtain ⟨s1, h1, hx⟩ := bind_ok hx
  have k1 := mintPosition_opens m h1
  have t1 : Still s.pool s1.pool := by obtain ⟨_, g, _⟩ := k1; exact g.still
  split at hx
  · obtain ⟨rs, k2, k3⟩ := fillSide_opens m hx
    rw [unit_still t1, t1.tick] at k2
    exact ⟨r, rs, h0, k2, k1.trans k3⟩
  · cases hx
    exact ⟨r, [], h0, Or.inl rfl, k1⟩

end Strat
end Uni
