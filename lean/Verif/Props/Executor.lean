import Verif.Proofs.ExecRuns
import Verif.Props.Strategy
/-! # Properties of the executor -/
namespace Uni
namespace Props
open U256 Spec Pool Execution

/-! ### C47: the transactions -/

/-- C47: `Run` applies to the pool exactly the transactions before the first one later than the end time, in their order and
once each, with calls of the strategy in between; then it liquidates the strategy and records the value. -/
theorem C47_order {e e' : Execution} {fuel : Nat} (h : e.run fuel = .ok e') :
    ∃ events vs s c v, events.filterMap Event.tx? = upTo e.endTime e.transactions ∧ Trace fuel events e.strategy vs s ∧
      s.burnAll = .ok (c, e'.strategy) ∧ e'.snapshots = e.snapshots ++ vs ++ [v] ∧ v.toNat = usdValue c e'.strategy.pool.price := by
  unfold Execution.run at h
  obtain ⟨st, h1, h⟩ := bind_ok h
  obtain ⟨b, h2, h⟩ := bind_ok h
  obtain ⟨v, h3, h⟩ := bind_ok h
  cases h
  obtain ⟨rows, vs, k1, k2, k3⟩ := loop_order e.transactions h1
  exact ⟨rows.flatMap Row.events, vs, st.strategy, b.1, v, by rw [applied_rows, k1], k2, h2, by rw [k3]; rfl, usd_eq h3⟩

/-- C47–C50: a run is a sequence of rows, one for each of these transactions, that follows the schedule; within a row the
order is: start, price snapshot, value snapshot, rebalance, transaction. -/
theorem C47_run {e e' : Execution} {fuel : Nat} (hc : Clock e) (h : e.run fuel = .ok e') :
    ∃ rows vs s c v, Scheduled e rows ∧ Trace fuel (rows.flatMap Row.events) e.strategy vs s ∧ s.burnAll = .ok (c, e'.strategy) ∧
      e' = { e with strategy := e'.strategy, snapshots := e.snapshots ++ vs ++ [v] } ∧ v.toNat = usdValue c e'.strategy.pool.price :=
  run_spec hc h

/-! ### C48: value snapshots -/

/-- C48: the strategy is started at most once, and it is started if and only if some transaction of the run is at or after
the start time. -/
theorem C48_start {e : Execution} {rows : List Row} (h : Scheduled e rows) : rows.countP Row.init ≤ 1 ∧
    (rows.countP Row.init = 1 ↔ ∃ t ∈ upTo e.endTime e.transactions, e.startTime ≤ t.timestamp) := by
  refine ⟨(start_unique h.start).1, ?_⟩
  rw [← h.txs]
  constructor
  · intro hc
    obtain ⟨r, hr, hi⟩ := List.countP_pos_iff.1 (show 0 < rows.countP Row.init by omega)
    obtain ⟨pre, post, he⟩ := List.append_of_mem hr
    exact ⟨r.tx, List.mem_map.2 ⟨r, hr, rfl⟩, ((h.start pre r post he).1 hi).1⟩
  · rintro ⟨t, ht, hst⟩
    obtain ⟨r, hr, rfl⟩ := List.mem_map.1 ht
    have : 0 < rows.countP Row.init := by
      rw [List.countP_pos_iff]
      by_contra hno
      have hno' : ∀ q ∈ rows, q.init ≠ true := fun q hq hqi => hno ⟨q, hq, hqi⟩
      -- no row at or after the start time
      have key : ∀ more : List Row, ∀ pre, rows = pre ++ more → (∀ q ∈ pre, q.time < e.startTime) → ∀ q ∈ more, q.time < e.startTime := by
        intro more
        induction more with
        | nil => intro _ _ _ q hq; cases hq
        | cons x more ih =>
          intro pre he hp q hq
          have hx : x.time < e.startTime := by
            by_contra hlt
            exact hno' x (he ▸ List.mem_append_right _ List.mem_cons_self) ((h.start pre x more he).2 ⟨by omega, hp⟩)
          rcases List.mem_cons.1 hq with rfl | hq
          · exact hx
          · refine ih (pre ++ [x]) (by rw [he, List.append_assoc]; rfl) ?_ q hq
            intro y hy
            rcases List.mem_append.1 hy with hy | hy
            · exact hp y hy
            · rw [List.mem_singleton] at hy; subst hy; exact hx
      have := key rows [] rfl (fun q hq => by cases hq) r hr
      unfold Row.time at this
      omega
    have := (start_unique h.start).1
    omega

/-- C48: the number of recorded values: one for the start, one per value snapshot, one at the end. -/
theorem C48_count {e e' : Execution} {fuel : Nat} (hc : Clock e) (h : e.run fuel = .ok e') :
    ∃ rows, Scheduled e rows ∧ e'.snapshots.length = e.snapshots.length + rows.countP Row.init + rows.countP Row.value + 1 := by
  obtain ⟨rows, vs, s, c, v, h1, h2, _, h4, _⟩ := run_spec hc h
  refine ⟨rows, h1, ?_⟩
  have := trace_length rows h2
  rw [h4]
  simp only [List.length_append, List.length_singleton]
  omega

/-- C48: the `k`-th value snapshot after the start is taken at the first transaction (after the previous snapshot) at or
after the start plus `k` intervals.  Unfolded: a transaction at time `r.time` takes a snapshot if and only if the strategy
has started, at `σ`, and the next snapshot is due. -/
theorem C48_due {e : Execution} {rows pre post : List Row} {r : Row} (h : Scheduled e rows) (hr : rows = pre ++ r :: post) :
    r.value = true ↔ ∃ σ, StartedAt (pre ++ [r]) σ ∧ σ + (pre.countP Row.value + 1) * e.snapShotInterval ≤ r.time :=
  h.value pre r post hr

/-- C48: if transactions are in order of time and never more than one interval apart, then after each transaction the number
of value snapshots is the number of whole intervals since the start: the series is sampled at the given rate. -/
theorem C48_dense {e : Execution} {rows pre post : List Row} {r : Row} {σ : Int} (h : Scheduled e rows) (hI : 0 < e.snapShotInterval)
    (hd : Dense e.snapShotInterval rows) (hr : rows = pre ++ r :: post) (hs : StartedAt (pre ++ [r]) σ) :
    ((pre ++ [r]).countP Row.value : Int) = (r.time - σ) / e.snapShotInterval := by
  have he : rows = (pre ++ [r]) ++ post := by rw [hr, List.append_assoc]; rfl
  obtain ⟨h1, h2⟩ := count_dense (act := Row.value) hI pre r (startsAt_prefix (he ▸ h.start)) (every_prefix (he ▸ h.value))
    (dense_prefix (he ▸ hd)) hs
  symm
  rw [Int.ediv_eq_iff_of_pos hI]
  exact ⟨h1, by linarith⟩

/-! ### C49: rebalances -/

/-- C49: the same for rebalances and the update interval. -/
theorem C49_due {e : Execution} {rows pre post : List Row} {r : Row} (h : Scheduled e rows) (hr : rows = pre ++ r :: post) :
    r.rebalance = true ↔ ∃ σ, StartedAt (pre ++ [r]) σ ∧ σ + (pre.countP Row.rebalance + 1) * e.updateInterval ≤ r.time :=
  h.rebalance pre r post hr

/-- C49: in particular the `k`-th rebalance is never earlier than `k` update intervals after the start. -/
theorem C49_never_early {e : Execution} {rows pre post : List Row} {r : Row} {σ : Int} (h : Scheduled e rows) (hr : rows = pre ++ r :: post)
    (hb : r.rebalance = true) (hs : StartedAt rows σ) : σ + ((pre ++ [r]).countP Row.rebalance) * e.updateInterval ≤ r.time := by
  obtain ⟨τ, h1, h2⟩ := (h.rebalance pre r post hr).1 hb
  have : τ = σ := by
    refine (start_unique h.start).2 τ σ ?_ hs
    obtain ⟨q, hq, k⟩ := h1
    refine ⟨q, ?_, k⟩
    rw [hr]
    rcases List.mem_append.1 hq with hq | hq
    · exact List.mem_append_left _ hq
    · rw [List.mem_singleton] at hq; subst hq; exact List.mem_append_right _ List.mem_cons_self
  subst this
  rw [countP_snoc, if_pos hb]
  push_cast
  exact h2

/-- C49: if transactions are in order of time and never more than one update interval apart, the number of rebalances is the
number of whole intervals since the start. -/
theorem C49_dense {e : Execution} {rows pre post : List Row} {r : Row} {σ : Int} (h : Scheduled e rows) (hI : 0 < e.updateInterval)
    (hd : Dense e.updateInterval rows) (hr : rows = pre ++ r :: post) (hs : StartedAt (pre ++ [r]) σ) :
    ((pre ++ [r]).countP Row.rebalance : Int) = (r.time - σ) / e.updateInterval := by
  have he : rows = (pre ++ [r]) ++ post := by rw [hr, List.append_assoc]; rfl
  obtain ⟨h1, h2⟩ := count_dense (act := Row.rebalance) hI pre r (startsAt_prefix (he ▸ h.start)) (every_prefix (he ▸ h.rebalance))
    (dense_prefix (he ▸ hd)) hs
  symm
  rw [Int.ediv_eq_iff_of_pos hI]
  exact ⟨h1, by linarith⟩

/-! ### C50: price snapshots -/

/-- C50: a transaction takes a price snapshot if and only if its time is later than the number of earlier snapshots times
the interval. -/
theorem C50_due {e : Execution} {rows pre post : List Row} {r : Row} (h : Scheduled e rows) (hr : rows = pre ++ r :: post) :
    r.price = true ↔ pre.countP Row.price * e.pricesSnapshotsInterval < r.time := h.price pre r post hr

/-- C50: the due time starts at zero, so with real timestamps (seconds since 1970) the interval has no effect: as long as
the times are later than the number of transactions times the interval, every transaction takes a price snapshot. -/
theorem C50_every {e : Execution} {rows : List Row} (h : Scheduled e rows) (hP : 0 ≤ e.pricesSnapshotsInterval)
    (hlate : ∀ r ∈ rows, rows.length * e.pricesSnapshotsInterval < r.time) : ∀ r ∈ rows, r.price = true := by
  intro r hr
  obtain ⟨pre, post, he⟩ := List.append_of_mem hr
  rw [h.price pre r post he]
  refine lt_of_le_of_lt ?_ (hlate r hr)
  refine mul_le_mul_of_nonneg_right ?_ hP
  have := List.countP_le_length (p := Row.price) (l := pre)
  rw [he, List.length_append]
  push_cast
  omega

/-! ### C51: buy and hold -/

/-- C51: with the no-provision strategy the pool ends as in a plain replay, the balances never change, and every recorded
value is the value of the initial amounts at the price of that moment. -/
theorem C51_hold {e e' : Execution} {fuel : Nat} (hc : Clock e) (hk : e.strategy.kind = .noProvision) (h : e.run fuel = .ok e') :
    ∃ rows vs, Scheduled e rows ∧
      Hold fuel (e.strategy.amount0, e.strategy.amount1) rows e.strategy.pool vs e'.strategy.pool ∧
      Replay fuel (upTo e.endTime e.transactions) e.strategy.pool e'.strategy.pool ∧
      e'.strategy = { e.strategy with pool := e'.strategy.pool } ∧
      e'.snapshots.map toNat = e.snapshots.map toNat ++ vs ++ [usdValue (e.strategy.amount0, e.strategy.amount1) e'.strategy.pool.price] := by
  obtain ⟨rows, vs, s, c, v, h1, h2, h3, h4, h5⟩ := run_spec hc h
  obtain ⟨k1, k2⟩ := idle_trace rows hk h2
  have hks : s.kind = .noProvision := by rw [k1]; exact hk
  have h3' : ((s.amount0, s.amount1), s) = (c, e'.strategy) := by
    unfold Strat.burnAll at h3
    rw [hks] at h3
    exact Except.ok.inj h3
  obtain ⟨rfl, hs⟩ := Prod.mk.inj h3'
  rw [← hs] at h5 ⊢
  have e0 : s.amount0 = e.strategy.amount0 := by rw [k1]
  have e1 : s.amount1 = e.strategy.amount1 := by rw [k1]
  refine ⟨rows, vs.map toNat, h1, k2, ?_, k1, ?_⟩
  · rw [← h1.txs]; exact hold_replay k2
  · rw [h4]
    dsimp only
    rw [List.map_append, List.map_append, List.map_cons, List.map_nil, h5, e0, e1]

/-! ### C61: the strategy theorems apply to every state of a run -/

/-- C61: in a run of a new strategy on a new pool, every state between two events is a state the theorems C39–C42 and C60
speak about, as long as the events stay within their presuppositions. -/
theorem C61_runs {e e' : Execution} {fuel : Nat} {a b : String} {fee : Int} {price x0 x1 : U256} {p0 : Pool} {kind : Kind}
    (hf : fee = 500 ∨ fee = 3000 ∨ fee = 10000) (hn : Pool.new a b fee price = .ok p0)
    (hs : Strat.new kind x0 x1 p0 = .ok e.strategy) (hc : Clock e) (h : e.run fuel = .ok e') :
    ∃ rows vs s c v, Scheduled e rows ∧ Trace fuel (rows.flatMap Row.events) e.strategy vs s ∧ s.burnAll = .ok (c, e'.strategy) ∧
      e'.snapshots = e.snapshots ++ vs ++ [v] ∧ v.toNat = usdValue c e'.strategy.pool.price ∧
      (AllWithin fuel [] e.strategy (rows.flatMap Row.events) →
        Runs (othersLedger [] (rows.flatMap Row.events)) s ∧
        ∀ pre post s1 ws, rows.flatMap Row.events = pre ++ post → Trace fuel pre e.strategy ws s1 → Runs (othersLedger [] pre) s1) := by
  obtain ⟨rows, vs, s, c, v, h1, h2, h3, h4, h5⟩ := run_spec hc h
  refine ⟨rows, vs, s, c, v, h1, h2, h3, by rw [h4], h5, fun hw => ?_⟩
  have hr : Runs [] e.strategy := .start hf hn hs
  refine ⟨trace_runs h2 hr hw, ?_⟩
  intro pre post s1 ws he ht
  refine trace_runs ht hr ?_
  intro pre' ev post' s2 us he' ht'
  exact hw pre' ev (post' ++ post) s2 us (by rw [he, he', List.append_assoc]; rfl) ht'

/-- C61: hence the value recorded at the end is the value, at the last price, of the balances plus, for each open position,
its exact holdings rounded down plus its uncollected fees; the liquidity that remains is that of the transactions. -/
theorem C61_final {m : List Entry} {s s' : Strat} {c : U256 × U256} {v : U256} (hr : Runs m s)
    (hb : s.burnAll = .ok (c, s')) (hv : v.toNat = usdValue c s'.pool.price)
    (hd : s.positions.Pairwise (fun q q' => posKey q.lower q.upper ≠ posKey q'.lower q'.upper)) :
    s'.pool.price = s.pool.price ∧ (s'.pool.liquidity.toNat : Int) = active m s.pool.tick ∧
    ∃ a0 a1 : Nat, (a0 : Int) = (s.amount0.toNat + worth0 s.pool.price.toNat s.positions + fees0 s.pool s.positions) % 2 ^ 256 ∧
      (a1 : Int) = (s.amount1.toNat + worth1 s.pool.price.toNat s.positions + fees1 s.pool s.positions) % 2 ^ 256 ∧
      v.toNat = (a0 + a1 * 2 ^ 192 / (s.pool.price.toNat * s.pool.price.toNat % 2 ^ 256)) % 2 ^ 256 := by
  obtain ⟨h1, _, h3, _⟩ := C40_pool hr hb
  obtain ⟨h4, h5⟩ := C40_amounts hr hb hd
  exact ⟨h3, h1, c.1.toNat, c.2.toNat, h4, h5, by rw [hv, h3]; rfl⟩

/-! ### C62: creating an execution -/

/-- C62: `CreateExecution` panics unless there is a transaction, the update interval is not zero, and the number of update
intervals from the start time to the last transaction (rounded towards zero) is not negative. -/
theorem C62_create (s : Strat) (start endT upd snap price : Int) (ts : List Transaction)
    (hr : ∀ t ∈ ts, -(2 ^ 63) ≤ t.timestamp - start ∧ t.timestamp - start < 2 ^ 63) :
    (∃ e, Execution.create s start endT upd snap price ts = .ok e) ↔
      ∃ last, ts.getLast? = some last ∧ upd ≠ 0 ∧ 0 ≤ (last.timestamp - start).tdiv upd := by
  unfold Execution.create idx
  rcases List.eq_nil_or_concat ts with rfl | ⟨l, x, rfl⟩
  · constructor
    · rintro ⟨e, h⟩; cases h
    · rintro ⟨x, h, _⟩; cases h
  · rw [List.concat_eq_append] at hr ⊢
    have hx := hr x (List.mem_append_right _ (List.mem_singleton.2 rfl))
    have hlen : ((l ++ [x]).length : Int) - 1 = l.length := by rw [List.length_append]; push_cast; rw [List.length_singleton]; push_cast; omega
    have hsub : subInt x.timestamp start = x.timestamp - start := by
      unfold subInt; rw [Int.bmod_def]; omega
    rw [hlen, if_pos (Int.natCast_nonneg _), Int.toNat_natCast, List.getElem?_concat_length, List.getLast?_concat]
    show (∃ e, (if upd = 0 then goPanic else if (subInt x.timestamp start).tdiv upd < 0 then goPanic else _) = Except.ok e) ↔ _
    rw [hsub]
    split
    · rename_i h0
      constructor
      · rintro ⟨e, h⟩; cases h
      · rintro ⟨_, _, h, _⟩; exact absurd h0 h
    · rename_i h0
      split
      · rename_i h1
        constructor
        · rintro ⟨e, h⟩; cases h
        · rintro ⟨y, h, _, h2⟩; cases h; omega
      · rename_i h1
        constructor
        · rintro _; exact ⟨x, rfl, h0, by omega⟩
        · rintro _; exact ⟨_, rfl⟩

/-! ### C63: the recorded value -/

/-- C63: for square root prices below `2^128` (ticks below 443636) and values below `2^256`, the recorded value is the value
of both amounts in token0, `a0 + a1 / price` with `price = (P / 2^96)²`, rounded down: the error is less than one unit. -/
theorem C63_value {c : U256 × U256} {P : U256} (h0 : 0 < P.toNat) (hP : P.toNat < 2 ^ 128)
    (hv : (c.1.toNat : ℚ) + c.2.toNat / ((P.toNat : ℚ) / 2 ^ 96) ^ 2 < 2 ^ 256) :
    (usdValue c P : Int) = ⌊(c.1.toNat : ℚ) + c.2.toNat / ((P.toNat : ℚ) / 2 ^ 96) ^ 2⌋ := by
  have hsq : P.toNat * P.toNat < 2 ^ 256 := by
    have : (2 : Nat) ^ 256 = 2 ^ 128 * 2 ^ 128 := by rw [← pow_add]
    rw [this]
    exact Nat.mul_lt_mul_of_lt_of_lt hP hP
  have hpp : (0 : ℚ) < (P.toNat : ℚ) := by exact_mod_cast h0
  have hfl : ⌊(c.1.toNat : ℚ) + c.2.toNat / ((P.toNat : ℚ) / 2 ^ 96) ^ 2⌋ = c.1.toNat + ((c.2.toNat * 2 ^ 192 / (P.toNat * P.toNat) : Nat) : Int) := by
    have e1 : (c.2.toNat : ℚ) / ((P.toNat : ℚ) / 2 ^ 96) ^ 2 = ((c.2.toNat * 2 ^ 192 : Nat) : ℚ) / ((P.toNat * P.toNat : Nat) : ℚ) := by
      push_cast
      field_simp
      norm_num
    rw [e1, Int.floor_natCast_add, Rat.floor_natCast_div_natCast]
    rfl
  have hlt : c.1.toNat + c.2.toNat * 2 ^ 192 / (P.toNat * P.toNat) < 2 ^ 256 := by
    have h1 : (⌊(c.1.toNat : ℚ) + c.2.toNat / ((P.toNat : ℚ) / 2 ^ 96) ^ 2⌋ : ℚ) < 2 ^ 256 := lt_of_le_of_lt (Int.floor_le _) hv
    rw [hfl] at h1
    exact_mod_cast h1
  rw [hfl]
  unfold usdValue
  rw [Nat.mod_eq_of_lt hsq, Nat.mod_eq_of_lt hlt]
  push_cast
  rfl

/-- C63: the same of the value the executor computes for two amounts. -/
theorem C63_recorded {c : U256 × U256} {P v : U256} (h : Execution.usd c P = .ok v) (h0 : 0 < P.toNat) (hP : P.toNat < 2 ^ 128)
    (hv : (c.1.toNat : ℚ) + c.2.toNat / ((P.toNat : ℚ) / 2 ^ 96) ^ 2 < 2 ^ 256) :
    (v.toNat : Int) = ⌊(c.1.toNat : ℚ) + c.2.toNat / ((P.toNat : ℚ) / 2 ^ 96) ^ 2⌋ := by
  rw [usd_eq h]; exact C63_value h0 hP hv

/-- C63: the last value of a run is the value, at the final price, of what the liquidation pays out. -/
theorem C63_last {e e' : Execution} {fuel : Nat} (h : e.run fuel = .ok e') :
    ∃ (s : Strat) (c : U256 × U256) (v : U256), s.burnAll = .ok (c, e'.strategy) ∧ e'.snapshots.getLast? = some v ∧
      (0 < e'.strategy.pool.price.toNat → e'.strategy.pool.price.toNat < 2 ^ 128 →
        (c.1.toNat : ℚ) + c.2.toNat / ((e'.strategy.pool.price.toNat : ℚ) / 2 ^ 96) ^ 2 < 2 ^ 256 →
        (v.toNat : Int) = ⌊(c.1.toNat : ℚ) + c.2.toNat / ((e'.strategy.pool.price.toNat : ℚ) / 2 ^ 96) ^ 2⌋) := by
  obtain ⟨_, vs, s, c, v, _, _, h3, h4, h5⟩ := C47_order h
  refine ⟨s, c, v, h3, by rw [h4, List.getLast?_concat], ?_⟩
  intro h0 hP hv
  rw [h5]; exact C63_value h0 hP hv

/-- C63: above `2^128` the square of the price wraps and the value is wrong: one unit of token1, worth less than `2^-63`
units of token0, is recorded as `2^63 - 1` units. -/
theorem C63_wraps : Execution.usd (zero, ofNat 1) (ofNat (2 ^ 128 + 1)) = .ok (ofNat (2 ^ 63 - 1)) := by decide +kernel

/-! ### Concrete runs -/

namespace ExecDemo
open StratDemo

def tx (type : String) (time : Int) (a1 : Nat) : Transaction :=
  ⟨type, ofNat 50000000, zero, ofNat a1, "", zero, 0, -600, 600, time, false⟩

/-- A mint, a swap of token1, a transaction of an unknown type and one after the end. -/
def txs : List Transaction := [tx "Mint" 100 0, tx "Swap" 200 100000, tx "Collect" 300 0, tx "Burn" 1000 0]

/-- Start at 150, end at 500, update interval 100, value snapshots every 60, price snapshots every 1000. -/
def e0 : Execution := getOk (Execution.create f0 150 500 100 60 1000 txs) (by decide +kernel)
def e1 : Execution := getOk (e0.run 10) (by decide +kernel)
theorem run1 : e0.run 10 = .ok e1 := eq_getOk _ _
theorem tx0 : e0.transactions = txs := by decide +kernel
theorem clock : Clock e0 := by
  have h1 : e0.updateInterval = 100 := by decide +kernel
  have h2 : e0.snapShotInterval = 60 := by decide +kernel
  have h3 : e0.pricesSnapshotsInterval = 1000 := by decide +kernel
  constructor <;> simp only [tx0, h1, h2, h3]
  · decide
  · decide
  · decide
  · decide

/-- Holding instead. -/
def n0 : Strat := getOk (Strat.new .noProvision (ofNat 1000000) (ofNat 2000000) Demo.p0) (by decide +kernel)
def g0 : Execution := { e0 with strategy := n0 }
def g1 : Execution := getOk (g0.run 10) (by decide +kernel)
theorem clock' : Clock g0 := ⟨clock.times, clock.update, clock.snapshot, clock.price⟩

/-- The rows of the run. -/
def rows : List Row := [⟨tx "Mint" 100 0, false, true, false, false⟩, ⟨tx "Swap" 200 100000, true, false, false, false⟩,
  ⟨tx "Collect" 300 0, false, false, true, true⟩]
def events : List Event := [.price, .apply (tx "Mint" 100 0), .init, .apply (tx "Swap" 200 100000), .value, .rebalance,
  .apply (tx "Collect" 300 0)]

theorem within_cons {fuel : Nat} {m : List Entry} {s : Strat} {e : Event} {es : List Event} (h : e.Within fuel m s)
    (ht : ∀ vs s1, e.Does fuel s vs s1 → AllWithin fuel (othersLedger m [e]) s1 es) : AllWithin fuel m s (e :: es) := by
  intro pre ev post s1 ws he hp
  cases hp with
  | nil => cases he; exact h
  | @cons x pre s t1 t2 vs us h1 h2 =>
    rw [List.cons_append] at he
    obtain rfl := (List.cons.inj he).1
    have := ht vs t1 h1 pre ev post _ us (List.cons.inj he).2 h2
    rw [← othersLedger_append] at this
    exact this

theorem price0 : f0.makeSnapshot = .ok f0 := by
  unfold Strat.makeSnapshot
  rw [show f0.kind = .fillUp 120 by decide +kernel]

/-- All events of the run are within the presuppositions of the strategy theorems. -/
theorem within : AllWithin 10 [] f0 events := by
  unfold events
  refine within_cons trivial ?_
  rintro vs s1 ⟨h, _⟩
  rw [price0] at h
  cases h
  have ho1 : opOf (tx "Mint" 100 0) f0.pool = some mintOp := rfl
  refine within_cons ?_ ?_
  · intro op ho
    rw [ho1] at ho
    cases ho
    show total (book [] f0) + ((ofNat 50000000).toNat : Int) < 2 ^ 128
    decide +kernel
  rintro vs s1 ⟨p', h, rfl, _⟩
  have h' : mintOp.exec 10 f0.pool = .ok p' := h
  rw [eq_getOk (mintOp.exec 10 f0.pool) (by decide +kernel)] at h'
  have hf1 : { f0 with pool := p' } = f1 := by rw [← Except.ok.inj h']; rfl
  rw [hf1, show othersLedger (othersLedger [] [Event.price]) [Event.apply (tx "Mint" 100 0)] = m1 by decide +kernel]
  refine within_cons ?_ ?_
  · intro c s' h
    rw [e2] at h
    obtain ⟨rfl, rfl⟩ := Prod.mk.inj (Except.ok.inj h)
    exact ⟨fits2, noSwap (by decide +kernel)⟩
  rintro vs s1 ⟨c, v, h, _⟩
  rw [e2] at h
  obtain ⟨_, rfl⟩ := Prod.mk.inj (Except.ok.inj h)
  have ht : f2.pool.token1 = "USDC" := by decide +kernel
  have ho2 : opOf (tx "Swap" 200 100000) f2.pool = some swapOp := by
    show (if 0 < zero.toInt then some (PoolOp.exactInput zero f2.pool.token0 zero)
      else if 0 < (ofNat 100000).toInt then some (PoolOp.exactInput (ofNat 100000) f2.pool.token1 zero) else none) = _
    rw [if_neg (by decide +kernel), if_pos (by decide +kernel), ht]
    rfl
  refine within_cons ?_ ?_
  · intro op ho
    rw [ho2] at ho
    cases ho
    exact ⟨by decide +kernel, fun h => absurd h (by decide +kernel)⟩
  rintro vs s1 ⟨p', h, rfl, _⟩
  unfold Applies at h
  rw [ho2] at h
  have h' : swapOp.exec 10 f2.pool = .ok p' := h
  rw [eq_getOk (swapOp.exec 10 f2.pool) (by decide +kernel)] at h'
  have hf3 : { f2 with pool := p' } = f3 := by rw [← Except.ok.inj h']; rfl
  rw [hf3]
  refine within_cons trivial ?_
  rintro vs s1 ⟨c, v, _, rfl, _⟩
  refine within_cons ?_ ?_
  · intro c s' h
    rw [e4] at h
    obtain ⟨rfl, rfl⟩ := Prod.mk.inj (Except.ok.inj h)
    exact ⟨fits4, fun _ _ => noSwap (by decide +kernel)⟩
  rintro vs s1 ⟨c, h, _⟩
  refine within_cons ?_ ?_
  · intro op ho; cases ho
  rintro vs s1 _ pre ev post s2 ws he
  cases pre <;> cases he

end ExecDemo

open ExecDemo in
/-- C47–C50, C61: a run that meets all hypotheses: the fill-up strategy is started once, its value is recorded three times
(start, snapshot, end), the transaction after the end time is not applied. -/
example : Clock e0 ∧ e0.run 10 = .ok e1 ∧ e1.snapshots = [ofNat 3000000, ofNat 2998127, ofNat 2998354] ∧
    Strat.new (.fillUp 120) (ofNat 1000000) (ofNat 2000000) Demo.p0 = .ok e0.strategy ∧
    AllWithin 10 [] e0.strategy events ∧ rows.flatMap Row.events = events :=
  ⟨clock, run1, by decide +kernel, eq_getOk (Strat.new (.fillUp 120) (ofNat 1000000) (ofNat 2000000) Demo.p0) (by decide +kernel), within, rfl⟩

open ExecDemo in
/-- C48, C49: the rows of that run, with transactions at most 100 apart. -/
example : Scheduled e0 rows ∧ Dense e0.updateInterval rows := by
  have hr : ∀ {Φ : List Row → Row → Prop}, Φ [] rows[0] → Φ [rows[0]] rows[1] → Φ [rows[0], rows[1]] rows[2] →
      ∀ pre r post, rows = pre ++ r :: post → Φ pre r := by
    intro Φ h0 h1 h2 pre r post he
    unfold rows at he
    rcases pre with _ | ⟨a, _ | ⟨b, _ | ⟨c, pre⟩⟩⟩
    · cases he; exact h0
    · cases he; exact h1
    · cases he; exact h2
    · cases pre <;> cases he
  have h1 : e0.updateInterval = 100 := by decide +kernel
  have h2 : e0.snapShotInterval = 60 := by decide +kernel
  have h3 : e0.pricesSnapshotsInterval = 1000 := by decide +kernel
  have h4 : e0.startTime = 150 := by decide +kernel
  have hs : ∀ l : List Row, (∀ q ∈ l, q.init = false) → ∀ σ, ¬ StartedAt l σ := by
    rintro l h σ ⟨q, hq, k, _⟩; rw [h q hq] at k; cases k
  refine ⟨⟨by decide +kernel, ?_, ?_, ?_, ?_⟩, ?_⟩
  · unfold StartsAt; rw [h4]; apply hr <;> decide
  · unfold Every; rw [h2]; apply hr
    · constructor
      · intro h; cases h
      · rintro ⟨σ, h, _⟩; exact absurd h (hs _ (by decide) σ)
    · constructor
      · intro h; cases h
      · rintro ⟨σ, ⟨q, hq, k1, k2⟩, h⟩
        rcases List.mem_cons.1 hq with rfl | hq
        · cases k1
        · have hq' := List.mem_singleton.1 hq; subst hq'
          rw [← k2] at h; revert h; decide
    · constructor
      · intro _; exact ⟨200, ⟨rows[1], List.mem_cons_of_mem _ List.mem_cons_self, rfl, rfl⟩, by decide⟩
      · intro _; rfl
  · unfold Every; rw [h1]; apply hr
    · constructor
      · intro h; cases h
      · rintro ⟨σ, h, _⟩; exact absurd h (hs _ (by decide) σ)
    · constructor
      · intro h; cases h
      · rintro ⟨σ, ⟨q, hq, k1, k2⟩, h⟩
        rcases List.mem_cons.1 hq with rfl | hq
        · cases k1
        · have hq' := List.mem_singleton.1 hq; subst hq'
          rw [← k2] at h; revert h; decide
    · constructor
      · intro _; exact ⟨200, ⟨rows[1], List.mem_cons_of_mem _ List.mem_cons_self, rfl, rfl⟩, by decide⟩
      · intro _; rfl
  · unfold EveryFromZero; rw [h3]; apply hr <;> decide
  · intro pre a b post he
    rw [h1]
    unfold rows at he
    rcases pre with _ | ⟨x, _ | ⟨y, pre⟩⟩
    · cases he; decide
    · cases he; decide
    · rcases pre with _ | ⟨z, pre⟩ <;> first | cases he | (cases pre <;> cases he)

open ExecDemo in
/-- C51: the holding run records the value of the same amounts at the prices before and after the swap. -/
example : Clock g0 ∧ g0.strategy.kind = .noProvision ∧ g0.run 10 = .ok g1 ∧
    g1.snapshots = [ofNat 3000000, ofNat 2992047, ofNat 2992047] :=
  ⟨clock', by decide +kernel, eq_getOk _ _, by decide +kernel⟩

open ExecDemo in
/-- C62: a start time later than the last transaction by an update interval makes the creation panic. -/
example : Execution.create StratDemo.f0 1100 500 100 60 1000 txs = .error .panic ∧
    Execution.create StratDemo.f0 150 500 100 60 1000 [] = .error .panic := ⟨rfl, rfl⟩

end Props
end Uni
