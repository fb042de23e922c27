import Verif.Proofs.Value
import Verif.Proofs.Gains
import Verif.Props.Start
import Verif.Props.SwapPath
import Verif.Props.Positions
/-! # C90–C92: values at a price -/
namespace Uni
namespace Props
open U256 Spec TickData TickMath FullMath _root_.Uni.Pool Strat

/-! ### C91: trades -/

/-- C91: no swap gets a better price than the price of the pool before it, and the fee is charged on top of that: the amount
bought is worth at most the amount sold less the fee, at the old price. -/
theorem C91_swap (h : List Entry) (p : Pool) (hr : Reachable h p) (fuel : Nat) (z : Bool) (amount limit : U256)
    (r : U256 × U256 × Pool) (ha : amount.toInt < 2 ^ 160) (hg : z = true → ¬ SearchBroken p.spacing p.tick)
    (hx : p.swap fuel z amount limit = .ok r) :
    if z then ((-bought z r : Int) : ℚ) ≤ (sold z r : Int) * (1 - p.fee / 1000000) * ((p.price.toNat : ℚ) / 2 ^ 96) ^ 2
    else ((-bought z r : Int) : ℚ) * ((p.price.toNat : ℚ) / 2 ^ 96) ^ 2 ≤ (sold z r : Int) * (1 - p.fee / 1000000) := by
  obtain ⟨legs, rem, h1, h2, h3, h4, h5⟩ := C72_path h p hr fuel z amount limit r ha hg hx
  have hi := reachable_inv hr
  have f0 := hi.fee0
  have f1 := hi.fee1
  obtain ⟨e1, e2⟩ := path_price (by omega) h1 (A := p.price.toNat) (by cases z <;> simp)
  have ef : ((p.fee.toNat : Nat) : ℚ) = (p.fee : ℚ) := by
    have : ((p.fee.toNat : Nat) : Int) = p.fee := Int.toNat_of_nonneg (by omega)
    exact_mod_cast congrArg (Int.cast (R := ℚ)) this
  have e3 : (((legs.map (·.input)).sum : Nat) : ℚ) ≤ ((legs.map (fun l => l.input + l.fee)).sum : Nat) * (1 - p.fee / 1000000) := by
    have hle : p.fee.toNat ≤ 1000000 := by omega
    have : ((((legs.map (·.input)).sum * 1000000 : Nat)) : ℚ) ≤ (((legs.map (fun l => l.input + l.fee)).sum * (1000000 - p.fee.toNat) : Nat) : ℚ) := by
      exact_mod_cast e2
    push_cast [Nat.cast_sub hle] at this
    rw [ef] at this
    push_cast
    linarith
  rw [h2, h3]
  push_cast at e1 e3 ⊢
  rw [neg_neg]
  have sq : (0 : ℚ) ≤ ((p.price.toNat : ℚ) / 2 ^ 96) ^ 2 := by positivity
  cases z
  · rw [if_neg (by decide)] at e1 ⊢
    linarith
  · rw [if_pos rfl] at e1 ⊢
    have := mul_le_mul_of_nonneg_right e3 sq
    linarith

/-- C91: valued at the price before, no sequence of swaps by any number of traders gains, as long as the liquidity stays as
it is. -/
theorem C91_trades (h : List Entry) (p q : Pool) (hr : Reachable h p) (d0 d1 : Int) (ht : Trades h p q d0 d1) :
    0 ≤ value p.price.toNat d0 d1 := trades_value (reachable_inv hr) ht

/-- C91: the other side.  An exact input that stops at its limit before everything is sold gets at least the price of the
pool after it, for the amount sold less the fee, up to two units of the token sold and one of the token bought per
iteration.  `n` is the number of iterations. -/
theorem C91_floor (h : List Entry) (p : Pool) (hr : Reachable h p) (fuel : Nat) (z : Bool) (amount limit : U256)
    (r : U256 × U256 × Pool) (h0 : 0 < amount.toInt) (ha : amount.toInt < 2 ^ 160) (hg : z = true → ¬ SearchBroken p.spacing p.tick)
    (hx : p.swap fuel z amount limit = .ok r) (hs : sold z r ≠ amount.toInt) :
    ∃ n : Nat, n < fuel ∧ p.swap (n + 1) z amount limit = .ok r ∧
      if z then ((sold z r : Int) * (1 - p.fee / 1000000) - 2 * n) * ((r.2.2.price.toNat : ℚ) / 2 ^ 96) ^ 2 ≤ ((-bought z r : Int) : ℚ) + n
      else (sold z r : Int) * (1 - p.fee / 1000000) - 2 * n ≤ (((-bought z r : Int) : ℚ) + n) * ((r.2.2.price.toNat : ℚ) / 2 ^ 96) ^ 2 := by
  obtain ⟨legs, rem, h1, h2, h3, h4, h5⟩ := C72_path h p hr fuel z amount limit r ha hg hx
  have hi := reachable_inv hr
  have f0 := hi.fee0
  have f1 := hi.fee1
  refine ⟨legs.length, h4, h5, ?_⟩
  obtain ⟨e1, e2, e3, e4⟩ := path_floor (by omega) h1 h0.le
  have e4 := e4 (by rw [h2] at hs; omega)
  have ef : ((p.fee.toNat : Nat) : ℚ) = (p.fee : ℚ) := by
    have : ((p.fee.toNat : Nat) : Int) = p.fee := Int.toNat_of_nonneg (by omega)
    exact_mod_cast congrArg (Int.cast (R := ℚ)) this
  have e5 : (((legs.map (fun l => l.input + l.fee)).sum : Nat) : ℚ) * (1 - p.fee / 1000000) - legs.length ≤ ((legs.map (·.input)).sum : Nat) := by
    have hle : p.fee.toNat ≤ 1000000 := by omega
    have : (((legs.map (fun l => l.input + l.fee)).sum * (1000000 - p.fee.toNat) : Nat) : ℚ) ≤
        (((legs.map (·.input)).sum * 1000000 + legs.length * (1000000 - p.fee.toNat) : Nat) : ℚ) := by exact_mod_cast e4
    push_cast [Nat.cast_sub hle] at this
    rw [ef] at this
    have n0 : (0 : ℚ) ≤ legs.length := Nat.cast_nonneg _
    have p0 : (0 : ℚ) ≤ p.fee := by exact_mod_cast f0
    push_cast
    nlinarith [mul_nonneg n0 p0]
  rw [h2, h3]
  push_cast at e1 e5 ⊢
  rw [neg_neg]
  have sq : (0 : ℚ) ≤ ((r.2.2.price.toNat : ℚ) / 2 ^ 96) ^ 2 := by positivity
  cases z
  · rw [if_neg (by decide)] at e1 ⊢
    linarith
  · rw [if_pos rfl] at e1 ⊢
    refine le_trans (mul_le_mul_of_nonneg_right ?_ sq) e1
    linarith

/-! ### C92: holding or providing liquidity -/

/-- C92: one position.  What burning it pays at a later price is worth at most what it cost, at the later price. -/
theorem C92_position (h h' : List Entry) (p p' q q' : Pool) (hr : Reachable h p) (hq : Reachable h' q)
    (l u : Int) (L a0 a1 b0 b1 : U256) (hL : L.toNat < 2 ^ 128)
    (hm : p.mintStrategy l u L = .ok (a0, a1, p')) (hb : q.burnStrategy l u L = .ok (b0, b1, q')) :
    valueOf q.price (b0, b1) ≤ valueOf q.price (a0, a1) := by
  obtain ⟨e0, e1⟩ := C30_mint h p p' hr l u L a0 a1 hL hm
  obtain ⟨f0, f1⟩ := C30_burn h' q q' hq l u L b0 b1 hL hb
  obtain ⟨_, _, pos, h3⟩ := mintStrategy_eq hm
  obtain ⟨hlu, hl, hu, _⟩ := modifyStrategy_eq h3
  have c := holding_convex p.price.toNat (Q := q.price.toNat) hl hlu hu
  have c' : value q.price.toNat (L.toNat * holding0 q.price.toNat l u) (L.toNat * holding1 q.price.toNat l u) ≤
      value q.price.toNat (L.toNat * holding0 p.price.toNat l u) (L.toNat * holding1 p.price.toNat l u) := by
    rw [value_smul, value_smul]
    exact mul_le_mul_of_nonneg_left c (Nat.cast_nonneg _)
  have k0 : ∀ P : Nat, exact0 (clamp P (tickPrice l) (tickPrice u)) (tickPrice u) L.toNat = L.toNat * holding0 P l u := by
    intro P; unfold holding0; rw [exact0_smul]; push_cast; ring
  have k1 : ∀ P : Nat, exact1 (tickPrice l) (clamp P (tickPrice l) (tickPrice u)) L.toNat = L.toNat * holding1 P l u := by
    intro P; unfold holding1; rw [exact1_smul]; push_cast; ring
  rw [k0] at e0 f0
  rw [k1] at e1 f1
  unfold valueOf
  have g0 : (b0.toNat : ℚ) ≤ L.toNat * holding0 q.price.toNat l u := by
    have := Int.floor_le (L.toNat * holding0 q.price.toNat l u)
    rw [← f0] at this; exact_mod_cast this
  have g1 : (b1.toNat : ℚ) ≤ L.toNat * holding1 q.price.toNat l u := by
    have := Int.floor_le (L.toNat * holding1 q.price.toNat l u)
    rw [← f1] at this; exact_mod_cast this
  have g2 : L.toNat * holding0 p.price.toNat l u ≤ (a0.toNat : ℚ) := by
    have := Int.le_ceil (L.toNat * holding0 p.price.toNat l u)
    rw [← e0] at this; exact_mod_cast this
  have g3 : L.toNat * holding1 p.price.toNat l u ≤ (a1.toNat : ℚ) := by
    have := Int.le_ceil (L.toNat * holding1 p.price.toNat l u)
    rw [← e1] at this; exact_mod_cast this
  exact (value_mono g0 g1).trans (c'.trans (value_mono g2 g3))

theorem later_runs {m m' : List Entry} {s t : Strat} (hr : Runs m s) (h : Later m s m' t) :
    Runs m' t ∧ t.positions = s.positions ∧ t.amount0 = s.amount0 ∧ t.amount1 = s.amount1 := by
  induction h with
  | now => exact ⟨hr, rfl, rfl, rfl⟩
  | trade fuel op h ho hx ih => exact ⟨.trade fuel op ih.1 ho hx, ih.2⟩
  | snapshot h hx ih =>
    obtain ⟨e2, e3⟩ := snapshot_balances hx
    exact ⟨.snapshot ih.1 hx, by rw [(makeSnapshot_eq hx).2, ih.2.1], by rw [e2, ih.2.2.1], by rw [e3, ih.2.2.2]⟩

/-- C92: at every point of a run: what the strategy holds later according to `GetAmounts`, if it keeps its positions while
others trade, is worth at most what it holds now, at the price of the later time, up to one unit of each token per
position. -/
theorem C92_later {m m' : List Entry} {s t : Strat} {d g : U256 × U256} (hr : Runs m s) (hl : Later m s m' t)
    (hb : s.amount0.toNat < 2 ^ 255 ∧ s.amount1.toNat < 2 ^ 255) (hd : s.getAmounts = .ok d) (hg : t.getAmounts = .ok g) :
    valueOf t.pool.price g ≤ value t.pool.price.toNat (d.1.toNat + s.positions.length) (d.2.toNat + s.positions.length) := by
  obtain ⟨ht, e1, e2, e3⟩ := later_runs hr hl
  obtain ⟨g', k1, k2, k3⟩ := C41_amounts ht
  rw [hg] at k1
  cases k1
  obtain ⟨d', l1, l2, l3⟩ := C41_amounts hr
  rw [hd] at l1
  cases l1
  rw [e1, e2] at k2
  rw [e1, e3] at k3
  have w := worth_nonneg t.pool.price.toNat s.positions
  have w' := worth_nonneg s.pool.price.toNat s.positions
  have htot : total (entries s.positions) < 2 ^ 128 := by
    obtain ⟨h, hre, hsame⟩ := (runs_owns hr).pool
    have := (reachable_inv hre).cov.total_lt
    rw [hsame.total, total_append] at this
    have t2 : 0 ≤ total m := wsum_nonneg (runs_owns hr).nonneg (fun _ _ _ => by norm_num)
    omega
  obtain ⟨b0, b1⟩ := worth_lt (P := s.pool.price.toNat) (fun q hq => (C42_wellformed hr hq).2) htot
  obtain ⟨q0, q1, q2, q3⟩ := cost_worth s.pool.price.toNat s.positions
  have c0 : (g.1.toNat : Int) ≤ s.amount0.toNat + worth0 t.pool.price.toNat s.positions := by omega
  have c1 : (g.2.toNat : Int) ≤ s.amount1.toNat + worth1 t.pool.price.toNat s.positions := by omega
  have d0 : (g.1.toNat : ℚ) ≤ s.amount0.toNat + (worth0 t.pool.price.toNat s.positions : Int) := by exact_mod_cast c0
  have d1 : (g.2.toNat : ℚ) ≤ s.amount1.toNat + (worth1 t.pool.price.toNat s.positions : Int) := by exact_mod_cast c1
  have i0 : (s.amount0.toNat : Int) + cost0 s.pool.price.toNat s.positions ≤ d.1.toNat + s.positions.length := by omega
  have i1 : (s.amount1.toNat : Int) + cost1 s.pool.price.toNat s.positions ≤ d.2.toNat + s.positions.length := by omega
  have f0 : (s.amount0.toNat : ℚ) + (cost0 s.pool.price.toNat s.positions : Int) ≤ d.1.toNat + s.positions.length := by exact_mod_cast i0
  have f1 : (s.amount1.toNat : ℚ) + (cost1 s.pool.price.toNat s.positions : Int) ≤ d.2.toNat + s.positions.length := by exact_mod_cast i1
  unfold valueOf
  refine (value_mono d0 d1).trans (le_trans ?_ (value_mono f0 f1))
  rw [value_add, value_add]
  have := positions_convex s.pool.price.toNat t.pool.price.toNat (fun q hq => (C42_wellformed hr hq).2)
  linarith

/-- C92: a strategy that holds `c` and does not swap opens its positions and keeps them while others trade.  What it then
holds according to `GetAmounts` is worth at most `c` at the price of that time. -/
theorem C92_hold {m m' : List Entry} {s s' t : Strat} {fuel : Nat} {c g : U256 × U256} (hr : Runs m s) (hx : Invests fuel s c s')
    (hf : Fits m s') (hns : ∀ w, s.kind ≠ .swapHalf w) (hl : Later m s' m' t) (hg : t.getAmounts = .ok g) :
    valueOf t.pool.price g ≤ valueOf t.pool.price c := by
  have hw : MaySwap s c m := fun w h => absurd h (hns w)
  have key : Runs m s' ∧ (c.1.toNat : Int) = s'.amount0.toNat + cost0 s'.pool.price.toNat s'.positions ∧
      (c.2.toNat : Int) = s'.amount1.toNat + cost1 s'.pool.price.toNat s'.positions := by
    rcases hx with ⟨he, hx⟩ | hx
    · have hw' : MaySwap s c (book m s) := by unfold book; rw [he]; exact hw
      obtain ⟨_, new, x0, x1, p1, h1, h2, h3, h4, h5, h6, h7, h8, h9⟩ := C39_init hr hx hf hw'
      rw [he, List.nil_append] at h1
      rw [h1]
      obtain ⟨rfl, rfl, _⟩ := h9 hns
      exact ⟨.init fuel hr hx hf hw', by omega, by omega⟩
    · obtain ⟨x0, x1, p0, p1, h2, h3, h4, _, h5, h6, h7, h8, h8', h9⟩ := C39_rebalance hr hx hf hw
      obtain ⟨rfl, rfl, _⟩ := h9 hns
      exact ⟨.rebalance fuel hr hx hf (fun x e => by cases e; exact hw), by omega, by omega⟩
  obtain ⟨hr', h2, h3⟩ := key
  obtain ⟨ht, e1, e2, e3⟩ := later_runs hr' hl
  obtain ⟨g', k1, k2, k3⟩ := C41_amounts ht
  rw [hg] at k1
  cases k1
  rw [e1, e2] at k2
  rw [e1, e3] at k3
  have w := worth_nonneg t.pool.price.toNat s'.positions
  have c0 : (g.1.toNat : Int) ≤ s'.amount0.toNat + worth0 t.pool.price.toNat s'.positions := by omega
  have c1 : (g.2.toNat : Int) ≤ s'.amount1.toNat + worth1 t.pool.price.toNat s'.positions := by omega
  have d0 : (g.1.toNat : ℚ) ≤ s'.amount0.toNat + (worth0 t.pool.price.toNat s'.positions : Int) := by exact_mod_cast c0
  have d1 : (g.2.toNat : ℚ) ≤ s'.amount1.toNat + (worth1 t.pool.price.toNat s'.positions : Int) := by exact_mod_cast c1
  have f0 : (c.1.toNat : ℚ) = s'.amount0.toNat + (cost0 s'.pool.price.toNat s'.positions : Int) := by
    have : ((c.1.toNat : Int) : ℚ) = _ := congrArg _ h2
    push_cast at this
    linarith
  have f1 : (c.2.toNat : ℚ) = s'.amount1.toNat + (cost1 s'.pool.price.toNat s'.positions : Int) := by
    have : ((c.2.toNat : Int) : ℚ) = _ := congrArg _ h3
    push_cast at this
    linarith
  unfold valueOf
  rw [f0, f1, value_add]
  refine (value_mono d0 d1).trans ?_
  rw [value_add]
  have := positions_convex s'.pool.price.toNat t.pool.price.toNat (fun q hq => (C42_wellformed hr' hq).2)
  linarith

/-- C92: so a strategy that does not swap and liquidates then gets at most the value of what it held before, plus the value of the
fees it has earned, at the price of that time. -/
theorem C92_close {m m' : List Entry} {s s' t t' : Strat} {fuel : Nat} {c b : U256 × U256} (hr : Runs m s) (hx : Invests fuel s c s')
    (hf : Fits m s') (hns : ∀ w, s.kind ≠ .swapHalf w) (hl : Later m s' m' t) (hb : t.burnAll = .ok (b, t'))
    (hd : t.positions.Pairwise (fun q q' => posKey q.lower q.upper ≠ posKey q'.lower q'.upper)) :
    valueOf t.pool.price b ≤ valueOf t.pool.price c + value t.pool.price.toNat (fees0 t.pool t.positions) (fees1 t.pool t.positions) := by
  have hr' : Runs m s' := by
    rcases hx with ⟨he, hx⟩ | hx
    · exact .init fuel hr hx hf (fun w h => absurd h (hns w))
    · exact .rebalance fuel hr hx hf (fun x e w h => absurd h (hns w))
  obtain ⟨g, hg, _⟩ := C41_amounts (later_runs hr' hl).1
  have h1 := C92_hold hr hx hf hns hl hg
  obtain ⟨e0, e1⟩ := C41_burnAll (later_runs hr' hl).1 hb hg hd
  have f0 : b.1.toNat ≤ g.1.toNat + fees0 t.pool t.positions := by rw [e0]; exact Nat.mod_le _ _
  have f1 : b.2.toNat ≤ g.2.toNat + fees1 t.pool t.positions := by rw [e1]; exact Nat.mod_le _ _
  have d0 : (b.1.toNat : ℚ) ≤ g.1.toNat + (fees0 t.pool t.positions : Nat) := by exact_mod_cast f0
  have d1 : (b.2.toNat : ℚ) ≤ g.2.toNat + (fees1 t.pool t.positions : Nat) := by exact_mod_cast f1
  unfold valueOf at h1 ⊢
  refine (value_mono d0 d1).trans ?_
  rw [value_add]
  linarith

/-! ### C90: opening and moving positions -/

/-- C90, `Init` of a strategy that does not swap: the amounts `GetAmounts` reports do not grow, and of each token they shrink
by at most one unit per new position, of which there are at most three; the price stays. -/
theorem C90_init {m : List Entry} {s s' : Strat} {fuel : Nat} {c d d' : U256 × U256} (hr : Runs m s) (hx : s.init fuel = .ok (c, s'))
    (hf : Fits m s') (hs : Kind.Sane s.kind) (hns : ∀ w, s.kind ≠ .swapHalf w) (hb : c.1.toNat < 2 ^ 255 ∧ c.2.toNat < 2 ^ 255)
    (hg : s.getAmounts = .ok d) (hg' : s'.getAmounts = .ok d') :
    ∃ n ≤ 3, s'.positions.length = s.positions.length + n ∧ s'.pool.price = s.pool.price ∧
      d'.1.toNat ≤ d.1.toNat ∧ d.1.toNat ≤ d'.1.toNat + n ∧ d'.2.toNat ≤ d.2.toNat ∧ d.2.toNat ≤ d'.2.toNat + n := by
  obtain ⟨e, new, x0, x1, p1, h1, h2, h3, h4, h5, h6, h7, h8, h9⟩ := C39_init hr hx hf (fun w h => absurd h (hns w))
  obtain ⟨rfl, rfl, hp, _⟩ := h9 hns
  obtain ⟨_, new', h1', hbuy⟩ := C86_init hr hx hf hs hns
  obtain rfl : new' = new := List.append_cancel_left (h1'.symm.trans h1)
  have hn := initBuys_length hbuy
  have hr' : Runs m s' := .init fuel hr hx hf (fun w h => absurd h (hns w))
  obtain ⟨d1, k1, k2, k3⟩ := C41_amounts hr
  rw [hg] at k1
  cases k1
  obtain ⟨d2, l1, l2, l3⟩ := C41_amounts hr'
  rw [hg'] at l1
  cases l1
  rw [hp] at h2 h3 l2 l3
  obtain ⟨w0, w1⟩ := worth_append s.pool.price.toNat s.positions new'
  rw [h1, w0] at l2
  rw [h1, w1] at l3
  obtain ⟨q0, q1, q2, q3⟩ := cost_worth s.pool.price.toNat new'
  have ht : total (entries s.positions) < 2 ^ 128 := by
    have := hf
    unfold Fits book at this
    rw [h1, entries_append, total_append, total_append] at this
    have t1 := total_entries_nonneg new'
    have t2 : 0 ≤ total m := wsum_nonneg (runs_owns hr).nonneg (fun _ _ _ => by norm_num)
    omega
  obtain ⟨b0, b1⟩ := worth_lt (P := s.pool.price.toNat) (fun q hq => (C42_wellformed hr hq).2) ht
  obtain ⟨z0, z1⟩ := worth_nonneg s.pool.price.toNat s.positions
  obtain ⟨z2, z3⟩ := worth_nonneg s.pool.price.toNat new'
  rw [e] at h2 h3 hb
  dsimp only at h2 h3 hb
  refine ⟨new'.length, hn, by rw [h1, List.length_append], hp, ?_⟩
  omega

/-- C90, `Rebalance` of a strategy that does not swap: afterwards `GetAmounts` reports what it reported before plus the fees
earned, except for at most one unit per position and token; there are at most three positions; the price stays. -/
theorem C90_rebalance {m : List Entry} {s s' : Strat} {fuel : Nat} {c d d' : U256 × U256} (hr : Runs m s)
    (hx : s.rebalance fuel = .ok (some c, s')) (hf : Fits m s') (hs : Kind.Sane s.kind) (hns : ∀ w, s.kind ≠ .swapHalf w)
    (hd : s.positions.Pairwise (fun q q' => posKey q.lower q.upper ≠ posKey q'.lower q'.upper))
    (hg : s.getAmounts = .ok d) (hg' : s'.getAmounts = .ok d')
    (hb : d.1.toNat + fees0 s.pool s.positions < 2 ^ 256 ∧ d.2.toNat + fees1 s.pool s.positions < 2 ^ 256) :
    ∃ n ≤ 3, s'.positions.length = n ∧ s'.pool.price = s.pool.price ∧
      d'.1.toNat ≤ d.1.toNat + fees0 s.pool s.positions ∧ d.1.toNat + fees0 s.pool s.positions ≤ d'.1.toNat + n ∧
      d'.2.toNat ≤ d.2.toNat + fees1 s.pool s.positions ∧ d.2.toNat + fees1 s.pool s.positions ≤ d'.2.toNat + n := by
  obtain ⟨x0, x1, p0, p1, h2, h3, h4, _, h5, h6, h7, h8, h8', h9⟩ := C39_rebalance hr hx hf (fun w h => absurd h (hns w))
  obtain ⟨rfl, rfl, hp, _⟩ := h9 hns
  have hn := rebalanceBuys_length (C86_rebalance hr hx hf hs hns)
  have hr' : Runs m s' := .rebalance fuel hr hx hf (fun x e w h => absurd h (hns w))
  obtain ⟨s1, hb1⟩ := C87_rebalance_needs hx
  obtain ⟨k1, k2⟩ := C41_burnAll hr hb1 hg hd
  obtain ⟨d2, l1, l2, l3⟩ := C41_amounts hr'
  rw [hg'] at l1
  cases l1
  rw [hp] at h2 h3 l2 l3
  obtain ⟨q0, q1, q2, q3⟩ := cost_worth s.pool.price.toNat s'.positions
  obtain ⟨z2, z3⟩ := worth_nonneg s.pool.price.toNat s'.positions
  have c0 := toNat_lt c.1
  have c1 := toNat_lt c.2
  refine ⟨_, hn, rfl, hp, ?_⟩
  omega

theorem sells_value {h : List Entry} {p p' : Pool} (hr : Reachable h p) (hg : ¬ SearchBroken p.spacing p.tick) {fuel n : Nat} (hn : n < 2 ^ 160)
    {t : String} {x z : U256 × U256} (hs : Sells fuel p p' n t x z) : valueOf p.price z ≤ valueOf p.price x := by
  unfold Sells at hs
  by_cases h0 : n = 0
  · rw [if_pos h0] at hs
    rw [hs.2]
  · rw [if_neg h0] at hs
    obtain ⟨a, r0, r1, e, hx, e0, e1⟩ := hs
    have ha : a.toInt < 2 ^ 160 := by
      have : a.toInt = a.toNat := by unfold toInt; rw [if_pos (by omega)]
      omega
    have hexec : (PoolOp.exactInput a t zero).exec fuel p = .ok p' := by
      show (do let r ← p.exactInputSwap fuel a t zero; return r.2.2) = _
      rw [hx]; rfl
    have ht := Trades.swap fuel (.exactInput a t zero) (.none (h := h) (p := p)) trivial ⟨ha, fun _ => clear_good hg⟩ (fun _ => hg) hexec
    have hv := C91_trades h p p' hr _ _ ht
    have hflow : (PoolOp.exactInput a t zero).flow fuel p = (r0.toInt, r1.toInt) := by
      show (match p.exactInputSwap fuel a t zero with
        | .ok r => (r.1.toInt, r.2.1.toInt)
        | .error _ => (0, 0)) = _
      rw [hx]
    rw [hflow] at hv
    dsimp only at hv
    rw [Int.zero_add, Int.zero_add] at hv
    unfold valueOf
    have f0 : (x.1.toNat : ℚ) = z.1.toNat + (r0.toInt : Int) := by exact_mod_cast congrArg (Int.cast (R := ℚ)) e0
    have f1 : (x.2.toNat : ℚ) = z.2.toNat + (r1.toInt : Int) := by exact_mod_cast congrArg (Int.cast (R := ℚ)) e1
    rw [f0, f1, value_add]
    linarith

theorem buys_balance {P : U256} {plan : List Purchase} {x y : U256 × U256} {ps : List StratPos} (h : Buys P plan x ps y) :
    (x.1.toNat : Int) = y.1.toNat + cost0 P.toNat ps ∧ (x.2.toNat : Int) = y.2.toNat + cost1 P.toNat ps := by
  induction h with
  | done x => unfold cost0 cost1; simp
  | skip hs h ih => exact ih
  | @step o plan x z y ps a b A L hs hv ha hb hA hL h0 h1 h ih =>
    unfold cost0 cost1 at *
    rw [List.map_append, List.sum_append, List.map_append, List.sum_append]
    by_cases hz : L.toNat = 0
    · rw [if_pos hz]
      rw [hz] at h0 h1
      simp at h0 h1 ⊢
      omega
    · rw [if_neg hz]
      simp only [List.map_cons, List.map_nil, List.sum_cons, List.sum_nil]
      omega

theorem swapBuys_value {h : List Entry} {s : Strat} {p' : Pool} {fuel : Nat} {w : Int} {x y : U256 × U256} {ps : List StratPos}
    (hr : Reachable h s.pool) (hg : ¬ SearchBroken s.pool.spacing s.pool.tick) (h0 : x.1.toNat < 2 ^ 160) (h1 : x.2.toNat < 2 ^ 160)
    (hs : SwapBuys fuel s w p' x ps y) {d : U256 × U256} (e0 : (d.1.toNat : Int) ≤ y.1.toNat + worth0 p'.price.toNat ps)
    (e1 : (d.2.toNat : Int) ≤ y.2.toNat + worth1 p'.price.toNat ps) : valueOf s.pool.price d ≤ valueOf s.pool.price x := by
  obtain ⟨r, a, b, L, u, z, d0, d1, _, _, _, _, _, k0, k1, k2, k3⟩ := hs
  have hv : valueOf s.pool.price z ≤ valueOf s.pool.price x := by
    split at k2
    · exact sells_value hr hg (by omega) k2
    · exact sells_value hr hg (by omega) k2
  obtain ⟨b0, b1⟩ := buys_balance k3
  obtain ⟨q0, q1, q2, q3⟩ := cost_worth p'.price.toNat ps
  refine le_trans (value_mono ?_ ?_) hv
  · exact_mod_cast (show d.1.toNat ≤ z.1.toNat by omega)
  · exact_mod_cast (show d.2.toNat ≤ z.2.toNat by omega)

/-- C90, the swapping strategy: valued at the price before its swap, `Init` gains nothing. -/
theorem C90_swap_init {m : List Entry} {s s' : Strat} {fuel : Nat} {c d' : U256 × U256} {w : Int} (hr : Runs m s)
    (he : s.positions = []) (hx : s.init fuel = .ok (c, s')) (hf : Fits m s') (hw : MaySwap s c (book m s)) (hk : s.kind = .swapHalf w)
    (hs : |w| ≤ 2 ^ 30) (hg : ¬ SearchBroken s.pool.spacing s.pool.tick) (hg' : s'.getAmounts = .ok d') :
    valueOf s.pool.price d' ≤ valueOf s.pool.price c := by
  obtain ⟨p', new, h1, h2, h3, h4⟩ := C86_swap_init hr hx hf hw hk hs
  obtain ⟨_, n2, n3, _⟩ := hw w hk
  obtain ⟨d2, l1, l2, l3⟩ := C41_amounts (.init fuel hr hx hf hw)
  rw [hg'] at l1
  cases l1
  rw [he, List.nil_append] at h1
  rw [h1, h2] at l2 l3
  obtain ⟨z2, z3⟩ := worth_nonneg p'.price.toNat new
  obtain ⟨h, hre, _⟩ := (runs_owns hr).pool
  exact swapBuys_value hre hg n2 n3 h4 (by dsimp only; omega) (by dsimp only; omega)

/-- C90, the swapping strategy: valued at the price before its swap, the amounts after `Rebalance` are worth at most what
it had after closing its positions. -/
theorem C90_swap_rebalance {m : List Entry} {s s' : Strat} {fuel : Nat} {c d' : U256 × U256} {w : Int} (hr : Runs m s)
    (hx : s.rebalance fuel = .ok (some c, s')) (hf : Fits m s') (hw : MaySwap s c m) (hk : s.kind = .swapHalf w)
    (hs : |w| ≤ 2 ^ 30) (hg : ¬ SearchBroken s.pool.spacing s.pool.tick) (hg' : s'.getAmounts = .ok d') :
    valueOf s.pool.price d' ≤ valueOf s.pool.price c := by
  obtain ⟨s1, p', hb, h2, h3, h4, h5, h6⟩ := C86_swap_rebalance hr hx hf hw hk hs
  obtain ⟨_, n2, n3, _⟩ := hw w hk
  obtain ⟨d2, l1, l2, l3⟩ := C41_amounts (.rebalance fuel hr hx hf (fun x e => by cases e; exact hw))
  rw [hg'] at l1
  cases l1
  rw [h4] at l2 l3
  obtain ⟨z2, z3⟩ := worth_nonneg p'.price.toNat s'.positions
  have hnl : s1.positions = [] := (C40_again hr hb (by rw [hk]; exact fun h => h)).1
  obtain ⟨h, hre, _⟩ := (runs_owns (.burnAll hr hb hnl)).pool
  have hsp : s1.pool.spacing = s.pool.spacing := by
    have hb' := hb
    unfold Strat.burnAll at hb'
    rw [hk] at hb'
    exact (closed_owns (runs_owns hr) hb').2.2.2.2.2.2.2.1.same.1
  rw [← h2]
  exact swapBuys_value hre (by rw [hsp, h3]; exact hg) n2 n3 h6 (by dsimp only; omega) (by dsimp only; omega)

/-! ### Concrete cases -/

namespace ValueDemo
open StratDemo

theorem fills {s : Strat} (hk : s.kind = .fillUp 120) : ∀ w, s.kind ≠ .swapHalf w := by
  intro w hw
  rw [hk] at hw
  cases hw

theorem later : Later m1 f2 m1 f3 :=
  .trade 10 swapOp .now ⟨by decide +kernel, fun h => absurd h (by decide +kernel)⟩ (eq_getOk _ (by decide +kernel))

theorem clear : ¬ SearchBroken g1.pool.spacing g1.pool.tick := by
  rw [show g1.pool.spacing = 60 by decide +kernel, show g1.pool.tick = 0 by decide +kernel]
  rintro ⟨k, _, h2, h3⟩
  omega

/-- A price limit a little above the price 1. -/
def limit : U256 := ofNat (2 ^ 96 + 2 ^ 84)

end ValueDemo

open StratDemo ValueDemo in
/-- C90, C92: the fill-up run: `Init` with 1000000 and 2000000, somebody else's swap that moves the tick to 9, `Rebalance`
with a fee of 230; the reported amounts lose one or two units each time. -/
example : Runs m1 f1 ∧ f1.init 10 = .ok (i2.1, f2) ∧ Fits m1 f2 ∧ Kind.Sane f1.kind ∧ (∀ w, f1.kind ≠ .swapHalf w) ∧
    i2.1 = (ofNat 1000000, ofNat 2000000) ∧ f1.getAmounts = .ok (ofNat 1000000, ofNat 2000000) ∧
    f2.getAmounts = .ok (ofNat 999999, ofNat 1999998) ∧ Runs m1 f3 ∧
    f3.rebalance 10 = .ok (some (ofNat 923288, ofNat 2076975), f4) ∧ Fits m1 f4 ∧ Kind.Sane f3.kind ∧ (∀ w, f3.kind ≠ .swapHalf w) ∧
    f3.positions.Pairwise (fun q q' => posKey q.lower q.upper ≠ posKey q'.lower q'.upper) ∧
    f3.getAmounts = .ok (ofNat 923288, ofNat 2076745) ∧ fees0 f3.pool f3.positions = 0 ∧ fees1 f3.pool f3.positions = 230 ∧
    f4.getAmounts = .ok (ofNat 923287, ofNat 2076973) :=
  ⟨r1, e2, fits2, sane.1, fills (by decide +kernel), by decide +kernel, by decide +kernel, by decide +kernel, r3, e4', fits4, sane.2,
    fills (by decide +kernel), distinct.1, by decide +kernel, by decide +kernel, by decide +kernel, by decide +kernel⟩

open StratDemo ValueDemo in
/-- C90: the swapping strategy, whose swap moves the tick from 0 to 198. -/
example : Runs m1 g1 ∧ g1.positions = [] ∧ g1.init 10 = .ok (j2.1, g2) ∧ Fits m1 g2 ∧ MaySwap g1 j2.1 (book m1 g1) ∧
    g1.kind = .swapHalf 120 ∧ ¬ SearchBroken g1.pool.spacing g1.pool.tick ∧ g2.getAmounts = .ok (ofNat 1493579, ofNat 1499999) :=
  ⟨s1, by decide +kernel, eq_getOk _ _, gfits, may, by decide +kernel, clear, by decide +kernel⟩

open StratDemo ValueDemo in
/-- C92: the positions opened by `Init`, kept during the swap of somebody else and then liquidated. -/
example : Invests 10 f1 i2.1 f2 ∧ Later m1 f2 m1 f3 ∧ f3.getAmounts = .ok (ofNat 923288, ofNat 2076745) ∧
    f3.burnAll = .ok (getOk f3.burnAll (by decide +kernel)) ∧ (getOk f3.burnAll (by decide +kernel)).1 = (ofNat 923288, ofNat 2076975) ∧
    f2.amount0.toNat < 2 ^ 255 ∧ f2.amount1.toNat < 2 ^ 255 :=
  ⟨Or.inl ⟨by decide +kernel, e2⟩, later, by decide +kernel, eq_getOk _ _, by decide +kernel, by decide +kernel, by decide +kernel⟩

open StratDemo in
/-- C92: a position minted before the swap and burned after it. -/
example : isOk (f1.pool.mintStrategy (-120) 120 (ofNat 1000)) = true ∧ isOk (f3.pool.burnStrategy (-120) 120 (ofNat 1000)) = true ∧
    (∃ h, Reachable h f1.pool) ∧ (∃ h, Reachable h f3.pool) :=
  ⟨by decide +kernel, by decide +kernel, let ⟨h, k, _⟩ := (runs_owns r1).pool; ⟨h, k⟩, let ⟨h, k, _⟩ := (runs_owns r3).pool; ⟨h, k⟩⟩

/-- C91: an exact input that stops at its limit with 246 of 800000 sold and 244 bought. -/
example : ∃ r, Demo.p2.swap 10 false (ofNat 800000) ValueDemo.limit = .ok r ∧ Reachable Demo.h3 Demo.p2 ∧
    sold false r = 246 ∧ bought false r = -244 ∧ r.2.2.price.toNat = 79247505327378171660339249152 :=
  ⟨_, eq_getOk _ (by decide +kernel), Demo.reachable Demo.r2, by decide +kernel, by decide +kernel, by decide +kernel⟩

/-- C91: two trades in opposite directions. -/
example : ∃ q d0 d1, Trades Demo.h3 Demo.p2 q d0 d1 ∧ d0 < 0 ∧ 0 < d1 := by
  have k1 := Trades.swap 10 Demo.op3 (.none (h := Demo.h3) (p := Demo.p2)) trivial Demo.a3 (fun h => absurd h (by decide +kernel))
    (demo_swap (q := Demo.p3) (by decide +kernel) rfl)
  have k2 := Trades.swap 10 (.exactInput (ofNat 500) "WETH" zero) k1 trivial ⟨by decide +kernel, fun _ => clear_good Demo.good93⟩ (fun _ => Demo.good93)
    (eq_getOk _ (by decide +kernel))
  exact ⟨_, _, _, k2, by decide +kernel, by decide +kernel⟩

end Props
end Uni
