import Verif.Proofs.Gains
import Verif.Props.Executor
/-! # C89: who pays for the gains of a strategy -/
namespace Uni
namespace Props
open U256 Spec TickData TickMath FullMath _root_.Uni.Pool Strat Execution

/-- C89: at every point of a run the balances of the strategy, the exact value of its positions and of the liquidity of all
others, and all its uncollected fees together are at most what it started with plus what the others have paid in, for
each token. -/
theorem C89_covered {rs : List (Int × Int)} (hor : OwnRecords rs) {x : U256 × U256} {m : List Entry} {s : Strat} {n : Int × Int}
    (h : Accounts rs x m s n) :
    s.amount0.toNat + principal0 (book m s) s.pool.price.toNat + ((rs.map (claim0 s.pool)).sum : Nat) ≤ x.1.toNat + (n.1 : ℚ) ∧
    s.amount1.toNat + principal1 (book m s) s.pool.price.toNat + ((rs.map (claim1 s.pool)).sum : Nat) ≤ x.2.toNat + (n.2 : ℚ) := by
  obtain ⟨p0, a, b, fee, price, hf, hn, k⟩ := accounts_kept hor h
  obtain ⟨hl, b0, b1, hc, hs, l0, l1⟩ := k.cash
  obtain ⟨e0, e1⟩ := C57_covered a b fee price p0 hf hn rs hor hl s.pool b0 b1 hc
  have f0 : principal0 hl s.pool.price.toNat = principal0 (book m s) s.pool.price.toNat := hs ℚ _
  have f1 : principal1 hl s.pool.price.toNat = principal1 (book m s) s.pool.price.toNat := hs ℚ _
  rw [f0] at e0
  rw [f1] at e1
  have g0 : ((s.amount0.toNat : Int) : ℚ) + b0 ≤ ((x.1.toNat : Int) : ℚ) + n.1 := by exact_mod_cast l0
  have g1 : ((s.amount1.toNat : Int) : ℚ) + b1 ≤ ((x.2.toNat : Int) : ℚ) + n.2 := by exact_mod_cast l1
  push_cast at g0 g1
  constructor <;> linarith

/-- C89: what `BurnAll` returns, together with the exact value of the liquidity of all others, is at most what the strategy
started with plus what the others have paid in. -/
theorem C89_liquidated {rs : List (Int × Int)} (hor : OwnRecords rs) {x : U256 × U256} {m : List Entry} {s s' : Strat} {n : Int × Int}
    {c : U256 × U256} (h : Accounts rs x m s n) (hx : s.burnAll = .ok (c, s')) :
    c.1.toNat + principal0 m s.pool.price.toNat ≤ x.1.toNat + (n.1 : ℚ) ∧
    c.2.toNat + principal1 m s.pool.price.toNat ≤ x.2.toNat + (n.2 : ℚ) := by
  obtain ⟨p0, a, b, fee, price, hf, hn, k⟩ := accounts_kept hor h
  have fin : ∀ {t : Strat}, Kept rs p0 m [] t (x.1.toNat + n.1, x.2.toNat + n.2) → t.pool.price = s.pool.price →
      t.amount0.toNat + principal0 m s.pool.price.toNat ≤ x.1.toNat + (n.1 : ℚ) ∧
      t.amount1.toNat + principal1 m s.pool.price.toNat ≤ x.2.toNat + (n.2 : ℚ) := by
    intro t k hp
    obtain ⟨hl, b0, b1, hc, hs, l0, l1⟩ := k.cash
    obtain ⟨e0, e1⟩ := C57_covered a b fee price p0 hf hn rs hor hl t.pool b0 b1 hc
    rw [hp] at e0 e1
    have f0 : principal0 hl s.pool.price.toNat = principal0 m s.pool.price.toNat := hs ℚ _
    have f1 : principal1 hl s.pool.price.toNat = principal1 m s.pool.price.toNat := hs ℚ _
    rw [f0] at e0
    rw [f1] at e1
    have g0 : ((t.amount0.toNat : Int) : ℚ) + b0 ≤ ((x.1.toNat : Int) : ℚ) + n.1 := by exact_mod_cast l0
    have g1 : ((t.amount1.toNat : Int) : ℚ) + b1 ≤ ((x.2.toNat : Int) : ℚ) + n.2 := by exact_mod_cast l1
    push_cast at g0 g1
    have z0 : (0 : ℚ) ≤ ((rs.map (claim0 t.pool)).sum : Nat) := Nat.cast_nonneg _
    have z1 : (0 : ℚ) ≤ ((rs.map (claim1 t.pool)).sum : Nat) := Nat.cast_nonneg _
    constructor <;> linarith
  rcases burnAll_eq hx with ⟨hk, rfl, rfl⟩ | ⟨t, h1, rfl, h2⟩
  · have e := (C40_pool (accounts_runs h) hx)
    obtain ⟨e0, e1⟩ := C89_covered hor h
    have hb : ∀ w : Int → Int → ℚ, (∀ l u, 0 ≤ w l u) → wsum w m ≤ wsum w (book m s') := by
      intro w hw
      unfold book
      rw [wsum_append]
      have : 0 ≤ wsum w (entries s'.positions) := wsum_nonneg (outstanding_entries_nonneg _) (fun _ _ _ => hw _ _)
      linarith
    have f0 : principal0 m s'.pool.price.toNat ≤ principal0 (book m s') s'.pool.price.toNat := hb _ (fun _ _ => holding_nonneg.1)
    have f1 : principal1 m s'.pool.price.toNat ≤ principal1 (book m s') s'.pool.price.toNat := hb _ (fun _ _ => holding_nonneg.2)
    have z0 : (0 : ℚ) ≤ ((rs.map (claim0 s'.pool)).sum : Nat) := Nat.cast_nonneg _
    have z1 : (0 : ℚ) ≤ ((rs.map (claim1 s'.pool)).sum : Nat) := Nat.cast_nonneg _
    dsimp only
    constructor <;> linarith
  · exact fin (k.burnLoop h1) (burnLoop_spec k.own h1).2.1.price

/-- C89: so the gain of a strategy in a token is at most what the others have paid in of it; if they have paid in nothing,
there is none. -/
theorem C89_gain {rs : List (Int × Int)} (hor : OwnRecords rs) {x : U256 × U256} {m : List Entry} {s s' : Strat} {n : Int × Int}
    {c : U256 × U256} (h : Accounts rs x m s n) (hx : s.burnAll = .ok (c, s')) :
    (c.1.toNat : Int) - x.1.toNat ≤ n.1 ∧ (c.2.toNat : Int) - x.2.toNat ≤ n.2 := by
  obtain ⟨e0, e1⟩ := C89_liquidated hor h hx
  have hn := (runs_owns (accounts_runs h)).nonneg
  have z0 : 0 ≤ principal0 m s.pool.price.toNat := wsum_nonneg hn (fun _ _ _ => holding_nonneg.1)
  have z1 : 0 ≤ principal1 m s.pool.price.toNat := wsum_nonneg hn (fun _ _ _ => holding_nonneg.2)
  have g0 : (c.1.toNat : ℚ) ≤ x.1.toNat + (n.1 : ℚ) := by linarith
  have g1 : (c.2.toNat : ℚ) ≤ x.2.toNat + (n.2 : ℚ) := by linarith
  have i0 : ((c.1.toNat : Int) : ℚ) ≤ ((x.1.toNat + n.1 : Int) : ℚ) := by push_cast; exact g0
  have i1 : ((c.2.toNat : Int) : ℚ) ≤ ((x.2.toNat + n.2 : Int) : ℚ) := by push_cast; exact g1
  have j0 : (c.1.toNat : Int) ≤ x.1.toNat + n.1 := by exact_mod_cast i0
  have j1 : (c.2.toNat : Int) ≤ x.2.toNat + n.2 := by exact_mod_cast i1
  omega

/-! ### Runs of the executor -/

theorem does_accounts {rs : List (Int × Int)} {x : U256 × U256} {fuel : Nat} {m : List Entry} {s s' : Strat} {n : Int × Int} {e : Event}
    {vs : List U256} (hr : Accounts rs x m s n) (hw : e.Within fuel m s) (hsafe : e.Safely fuel rs s) (hd : e.Does fuel s vs s') :
    Accounts rs x (othersLedger m [e]) s' (n.1 + (e.paid fuel s.pool).1, n.2 + (e.paid fuel s.pool).2) := by
  have hz : (n.1 + 0, n.2 + 0) = n := by rw [Int.add_zero, Int.add_zero]
  cases e with
  | init =>
    obtain ⟨c, v, h, _⟩ := hd
    obtain ⟨h1, h2⟩ := hw c s' h
    have := Accounts.init fuel hr h h1 h2 hsafe.1 (hsafe.2 c s' h)
    show Accounts rs x _ _ (n.1 + 0, n.2 + 0)
    rw [hz]; exact this
  | price =>
    have := Accounts.snapshot hr hd.1
    show Accounts rs x _ _ (n.1 + 0, n.2 + 0)
    rw [hz]; exact this
  | value =>
    obtain ⟨_, _, _, rfl, _⟩ := hd
    show Accounts rs x _ _ (n.1 + 0, n.2 + 0)
    rw [hz]; exact hr
  | rebalance =>
    obtain ⟨c, h, _⟩ := hd
    obtain ⟨h1, h2⟩ := hw c s' h
    have := Accounts.rebalance fuel hr h h1 h2 hsafe.1 (hsafe.2 c s' h)
    show Accounts rs x _ _ (n.1 + 0, n.2 + 0)
    rw [hz]; exact this
  | apply t =>
    obtain ⟨p', h, rfl, _⟩ := hd
    unfold Applies at h
    unfold Event.paid
    dsimp only
    split at h
    · rename_i op ho
      rw [ledger_some ho, ho]
      exact .trade fuel op hr (hw op ho) (hsafe op ho) h
    · rename_i ho
      rw [ledger_none ho, h, ho]
      dsimp only
      rw [hz]
      exact hr

theorem payments_accounts {rs : List (Int × Int)} {x : U256 × U256} {fuel : Nat} {es : List Event} {s s' : Strat} {vs : List U256}
    (ht : Trace fuel es s vs s') : ∀ {m : List Entry} {n : Int × Int}, Accounts rs x m s n → AllWithin fuel m s es → AllSafely fuel rs s es →
      ∃ k, Payments fuel es s k s' ∧ Accounts rs x (othersLedger m es) s' (n.1 + k.1, n.2 + k.2) := by
  induction ht with
  | nil =>
    intro m n hr _ _
    exact ⟨_, .nil, by rw [Int.add_zero, Int.add_zero]; exact hr⟩
  | @cons e es s s1 s' vs ws h ht ih =>
    intro m n hr hw hsafe
    have h1 := does_accounts hr (hw [] e es s [] rfl .nil) (hsafe [] e es s [] rfl .nil) h
    obtain ⟨k, k1, k2⟩ := ih h1 (by
      intro pre ev post s2 us he hp
      have := hw (e :: pre) ev post s2 (vs ++ us) (by rw [he]; rfl) (.cons h hp)
      rw [show e :: pre = [e] ++ pre from rfl, othersLedger_append] at this
      exact this) (by
      intro pre ev post s2 us he hp
      exact hsafe (e :: pre) ev post s2 (vs ++ us) (by rw [he]; rfl) (.cons h hp))
    refine ⟨_, .cons h k1, ?_⟩
    rw [show e :: es = [e] ++ es from rfl, othersLedger_append]
    dsimp only at k2 ⊢
    rw [← Int.add_assoc, ← Int.add_assoc]
    exact k2

/-- C89: a run of the executor.  The value recorded at the end is that of two amounts `c`, and `c` together with the exact
value of the liquidity that the transactions leave in the pool is at most what the strategy started with plus what the
transactions have paid in, for each token. -/
theorem C89_run {e e' : Execution} {fuel : Nat} {a b : String} {fee : Int} {price x0 x1 : U256} {p0 : Pool} {kind : Kind}
    (hf : fee = 500 ∨ fee = 3000 ∨ fee = 10000) (hn : Pool.new a b fee price = .ok p0)
    (hs : Strat.new kind x0 x1 p0 = .ok e.strategy) (hc : Clock e) (h : e.run fuel = .ok e') :
    ∃ rows vs s c v, Scheduled e rows ∧ Trace fuel (rows.flatMap Row.events) e.strategy vs s ∧ s.burnAll = .ok (c, e'.strategy) ∧
      e'.snapshots = e.snapshots ++ vs ++ [v] ∧ v.toNat = usdValue c e'.strategy.pool.price ∧
      ∀ rs, OwnRecords rs → AllWithin fuel [] e.strategy (rows.flatMap Row.events) → AllSafely fuel rs e.strategy (rows.flatMap Row.events) →
        ∃ n, Payments fuel (rows.flatMap Row.events) e.strategy n s ∧
          c.1.toNat + principal0 (othersLedger [] (rows.flatMap Row.events)) s.pool.price.toNat ≤ x0.toNat + (n.1 : ℚ) ∧
          c.2.toNat + principal1 (othersLedger [] (rows.flatMap Row.events)) s.pool.price.toNat ≤ x1.toNat + (n.2 : ℚ) := by
  obtain ⟨rows, vs, s, c, v, h1, h2, h3, h4, h5⟩ := run_spec hc h
  refine ⟨rows, vs, s, c, v, h1, h2, h3, by rw [h4], h5, fun rs hor hw hsafe => ?_⟩
  obtain ⟨k, k1, k2⟩ := payments_accounts h2 (Accounts.start (rs := rs) (x := (x0, x1)) hf hn hs) hw hsafe
  have e : ((0 : Int) + k.1, (0 : Int) + k.2) = k := by rw [Int.zero_add, Int.zero_add]
  rw [e] at k2
  obtain ⟨l0, l1⟩ := C89_liquidated hor k2 h3
  exact ⟨k, k1, l0, l1⟩

/-! ### Concrete runs -/
namespace GainsDemo
open StratDemo

def rs : List (Int × Int) := [(-120, 120), (-120, 0)]

theorem own : OwnRecords rs := by
  refine ⟨by decide, ?_⟩
  intro r h r' h'
  rcases List.mem_cons.1 h with rfl | h
  · rcases List.mem_cons.1 h' with rfl | h'
    · exact fun _ => rfl
    · rw [List.mem_singleton.1 h']; exact fun e => absurd e (by decide +kernel)
  · rw [List.mem_singleton.1 h]
    rcases List.mem_cons.1 h' with rfl | h'
    · exact fun e => absurd e (by decide +kernel)
    · rw [List.mem_singleton.1 h']; exact fun _ => rfl

theorem safely {s : Strat} (hk : s.kind = .fillUp 120) : SwapsSafely s := by
  intro w h; rw [hk] at h; cases h

theorem uses2 : Uses rs f2 := by
  intro q hq
  rw [values.1] at hq
  rcases List.mem_cons.1 hq with rfl | hq
  · decide
  · rw [List.mem_singleton.1 hq]; decide

theorem uses4 : Uses rs f4 := by
  intro q hq
  rw [values.2.2.1] at hq
  rcases List.mem_cons.1 hq with rfl | hq
  · decide
  · rw [List.mem_singleton.1 hq]; decide

/-- The fill-up run: the others provide liquidity and buy token0; the strategy starts and rebalances. -/
theorem accounts : ∃ n, Accounts rs (ofNat 1000000, ofNat 2000000) m1 f4 n ∧ n = (1377997, 1577651) := by
  have k0 : Accounts rs (ofNat 1000000, ofNat 2000000) [] f0 (0, 0) :=
    .start (Or.inr (Or.inl rfl)) Demo.n0 (eq_getOk (Strat.new (.fillUp 120) (ofNat 1000000) (ofNat 2000000) Demo.p0) (by decide +kernel))
  have k1 : Accounts rs (ofNat 1000000, ofNat 2000000) m1 f1 _ := .trade 10 mintOp k0
    (show total (book [] f0) + ((ofNat 50000000).toNat : Int) < 2 ^ 128 by decide +kernel) trivial (eq_getOk _ (by decide +kernel))
  have k2 := Accounts.init 10 k1 e2 fits2 (noSwap (by decide +kernel)) (safely (by decide +kernel)) uses2
  have k3 : Accounts rs (ofNat 1000000, ofNat 2000000) m1 f3 _ := .trade 10 swapOp k2
    ⟨by decide +kernel, fun h => absurd h (by decide +kernel)⟩ (fun h => absurd h (by decide +kernel)) (eq_getOk _ (by decide +kernel))
  have k4 := Accounts.rebalance 10 k3 e4 fits4 (fun _ _ => noSwap (by decide +kernel)) (safely (by decide +kernel)) uses4
  exact ⟨_, k4, by decide +kernel⟩

theorem safely_cons {fuel : Nat} {rs : List (Int × Int)} {s : Strat} {e : Event} {es : List Event} (h : e.Safely fuel rs s)
    (ht : ∀ vs s1, e.Does fuel s vs s1 → AllSafely fuel rs s1 es) : AllSafely fuel rs s (e :: es) := by
  intro pre ev post s1 ws he hp
  cases hp with
  | nil => cases he; exact h
  | @cons x pre s t1 t2 vs us h1 h2 =>
    rw [List.cons_append] at he
    obtain rfl := (List.cons.inj he).1
    exact ht vs t1 h1 pre ev post _ us (List.cons.inj he).2 h2

open ExecDemo in
theorem allSafely : AllSafely 10 rs f0 events := by
  unfold events
  refine safely_cons trivial ?_
  rintro vs s1 ⟨h, _⟩
  rw [price0] at h
  cases h
  have ho1 : opOf (tx "Mint" 100 0) f0.pool = some mintOp := rfl
  refine safely_cons ?_ ?_
  · intro op ho
    rw [ho1] at ho
    cases ho
    trivial
  rintro vs s1 ⟨p', h, rfl, _⟩
  have h' : mintOp.exec 10 f0.pool = .ok p' := h
  rw [eq_getOk (mintOp.exec 10 f0.pool) (by decide +kernel)] at h'
  have hf1 : { f0 with pool := p' } = f1 := by rw [← Except.ok.inj h']; rfl
  rw [hf1]
  refine safely_cons ⟨safely (by decide +kernel), ?_⟩ ?_
  · intro c s' h
    rw [e2] at h
    obtain ⟨rfl, rfl⟩ := Prod.mk.inj (Except.ok.inj h)
    exact uses2
  rintro vs s1 ⟨c, v, h, _⟩
  rw [e2] at h
  obtain ⟨_, rfl⟩ := Prod.mk.inj (Except.ok.inj h)
  have ht : f2.pool.token1 = "USDC" := by decide +kernel
  have ho2 : opOf (tx "Swap" 200 100000) f2.pool = some swapOp := by
    show (if 0 < zero.toInt then some (PoolOp.exactInput zero f2.pool.token0 zero)
      else if 0 < (ofNat 100000).toInt then some (PoolOp.exactInput (ofNat 100000) f2.pool.token1 zero) else none) = _
    rw [if_neg (by decide +kernel), if_pos (by decide +kernel), ht]
    rfl
  refine safely_cons ?_ ?_
  · intro op ho
    rw [ho2] at ho
    cases ho
    exact fun h => absurd h (by decide +kernel)
  rintro vs s1 ⟨p', h, rfl, _⟩
  unfold Applies at h
  rw [ho2] at h
  have h' : swapOp.exec 10 f2.pool = .ok p' := h
  rw [eq_getOk (swapOp.exec 10 f2.pool) (by decide +kernel)] at h'
  have hf3 : { f2 with pool := p' } = f3 := by rw [← Except.ok.inj h']; rfl
  rw [hf3]
  refine safely_cons trivial ?_
  rintro vs s1 ⟨c, v, _, rfl, _⟩
  refine safely_cons ⟨safely (by decide +kernel), ?_⟩ ?_
  · intro c s' h
    rw [e4] at h
    obtain ⟨rfl, rfl⟩ := Prod.mk.inj (Except.ok.inj h)
    exact uses4
  rintro vs s1 ⟨c, h, _⟩
  refine safely_cons ?_ ?_
  · intro op ho; cases ho
  rintro vs s1 _ pre ev post s2 ws he
  cases pre <;> cases he

/-! A fill-up strategy whose two ranges lie below tick zero: they share one position record. -/
def h0 : Pool := getOk (Pool.new "WETH" "USDC" 3000 (ofNat 58692000000000000000000000000)) (by decide +kernel)
def w0 : Strat := getOk (Strat.new (.fillUp 120) (ofNat 1000000) (ofNat 2000000) h0) (by decide +kernel)
def w1 : (U256 × U256) × Strat := getOk (w0.init 10) (by decide +kernel)
def flashOp : PoolOp := .flash (ofNat 1000000) (ofNat 1000000)
def w2 : Strat := { w1.2 with pool := getOk (flashOp.exec 10 w1.2.pool) (by decide +kernel) }
def w3 : (U256 × U256) × Strat := getOk w2.burnAll (by decide +kernel)

end GainsDemo

open GainsDemo StratDemo in
/-- C89: without separate records a strategy is paid from nowhere.  Here it starts with 1000000 and 2000000, opens two
ranges below tick zero, the others pay 3000 of each token as the fees of one flash loan, and `BurnAll` returns more than
2^150 of each token. -/
theorem C89_shared : ∃ (l u u' : Int) (s s' : Strat) (c : U256 × U256),
    Accounts [(l, u), (l, u')] (ofNat 1000000, ofNat 2000000) [] s (3000, 3000) ∧ u ≠ u' ∧
    s.burnAll = .ok (c, s') ∧ 2 ^ 150 < c.1.toNat ∧ 2 ^ 150 < c.2.toNat := by
  have hk : w0.kind = .fillUp 120 := by decide +kernel
  have ns : ∀ {c : U256 × U256} {m : List Entry}, MaySwap w0 c m := by
    intro c m w h; rw [hk] at h; cases h
  have k0 : Accounts [(-6120, -5880), (-6120, -6060)] (ofNat 1000000, ofNat 2000000) [] w0 (0, 0) :=
    .start (Or.inr (Or.inl rfl)) (eq_getOk (Pool.new "WETH" "USDC" 3000 (ofNat 58692000000000000000000000000)) (by decide +kernel))
      (eq_getOk (Strat.new (.fillUp 120) (ofNat 1000000) (ofNat 2000000) h0) (by decide +kernel))
  have hp : w1.2.positions = [⟨ofNat 122956587, -6120, -5880⟩, ⟨ofNat 659499192, -6120, -6060⟩] := by decide +kernel
  have hi : w0.init 10 = .ok (w1.1, w1.2) := eq_getOk (w0.init 10) (by decide +kernel)
  have k1 := Accounts.init 10 k0 hi (show total (book [] w1.2) < 2 ^ 128 by decide +kernel) ns (safely hk) (by
    intro q hq
    rw [hp] at hq
    rcases List.mem_cons.1 hq with rfl | hq
    · decide
    · rw [List.mem_singleton.1 hq]; decide)
  have k2 : Accounts [(-6120, -5880), (-6120, -6060)] (ofNat 1000000, ofNat 2000000) [] w2 _ :=
    .trade 10 flashOp k1 trivial trivial (eq_getOk _ (by decide +kernel))
  have e : ((0 : Int) + (flashOp.cash 10 w1.2.pool).1, (0 : Int) + (flashOp.cash 10 w1.2.pool).2) = (3000, 3000) := by decide +kernel
  rw [show ((0 : Int), (0 : Int)).1 = 0 from rfl, show ((0 : Int), (0 : Int)).2 = 0 from rfl] at k2
  refine ⟨-6120, -5880, -6060, w2, w3.2, w3.1, ?_, by decide, eq_getOk w2.burnAll (by decide +kernel), by decide +kernel, by decide +kernel⟩
  rw [← e]
  exact k2

open GainsDemo StratDemo in
/-- C89: the fill-up run meets the hypotheses: after trades of the others and a rebalancing `BurnAll` returns a little less
of token0 and a little more of token1 than the strategy started with. -/
example : OwnRecords rs ∧ (∃ n, Accounts rs (ofNat 1000000, ofNat 2000000) m1 f4 n ∧ n = (1377997, 1577651)) ∧
    (∃ c s', f4.burnAll = .ok (c, s') ∧ c.1.toNat = 923287 ∧ c.2.toNat = 2076973) :=
  ⟨own, accounts, _, _, eq_getOk f4.burnAll (by decide +kernel), by decide +kernel, by decide +kernel⟩

open GainsDemo ExecDemo in
/-- C89: so does the run of the executor. -/
example : OwnRecords rs ∧ Clock e0 ∧ e0.run 10 = .ok e1 ∧ AllWithin 10 [] e0.strategy events ∧ AllSafely 10 rs e0.strategy events :=
  ⟨own, clock, run1, within, allSafely⟩

end Props
end Uni
