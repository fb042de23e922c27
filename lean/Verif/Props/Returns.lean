import Verif.Proofs.Returns
import Verif.Props.Executor
import Verif.Props.Sale
import Verif.Props.Total
/-! # C95, C96: exactly when a run returns; runs do not look ahead -/
namespace Uni
namespace Props
open U256 Spec Pool Execution TickData

/-- C95: the schedule determines the rows of a run. -/
theorem C95_schedule {e : Execution} (hc : Clock e) : ∃! rows, Scheduled e rows :=
  ⟨_, scheduled_rows hc, fun _ h => scheduled_unique h (scheduled_rows hc)⟩

/-- C95: `Run` returns exactly if all events of the schedule can take place one after another, the strategy can be liquidated
after them, and all values can be computed; and it then returns their outcome. -/
theorem C95_returns {e e' : Execution} {fuel : Nat} (hc : Clock e) : e.run fuel = .ok e' ↔
    ∃ rows vs s c v, Scheduled e rows ∧ Trace fuel (rows.flatMap Row.events) e.strategy vs s ∧
      AllValued fuel e.strategy (rows.flatMap Row.events) ∧ s.burnAll = .ok (c, e'.strategy) ∧
      Valuable c e'.strategy.pool.price ∧ v.toNat = usdValue c e'.strategy.pool.price ∧
      e' = { e with strategy := e'.strategy, snapshots := e.snapshots ++ vs ++ [v] } := by
  rw [run_perform]
  constructor
  · intro h
    obtain ⟨⟨vs, s⟩, h1, h⟩ := bind_ok h
    obtain ⟨b, h2, h⟩ := bind_ok h
    obtain ⟨v, h3, h⟩ := bind_ok h
    cases h
    obtain ⟨k1, k2⟩ := (performAll_ok _).1 h1
    obtain ⟨k3, k4⟩ := usd_val.1 h3
    exact ⟨_, vs, s, b.1, v, scheduled_rows hc, k1, k2, h2, k3, k4, rfl⟩
  · rintro ⟨rows, vs, s, c, v, h0, h1, h2, h3, h4, h5, h6⟩
    obtain rfl := scheduled_unique h0 (scheduled_rows hc)
    rw [(performAll_ok _).2 ⟨h1, h2⟩, Except_bind_ok]
    dsimp only
    rw [h3, Except_bind_ok]
    dsimp only
    rw [usd_val.2 ⟨h4, h5⟩, Except_bind_ok]
    exact congrArg _ h6.symm

/-- C95: `Run` fails exactly if an event of the schedule fails after the ones before it have taken place, or if the
liquidation or the value at the end fails; and it then fails in the same way (a panic, or running for ever). -/
theorem C95_fails {e : Execution} {fuel : Nat} {x : Err} (hc : Clock e) : e.run fuel = .error x ↔
    ∃ rows, Scheduled e rows ∧
      ((∃ pre ev post ws s, rows.flatMap Row.events = pre ++ ev :: post ∧ Trace fuel pre e.strategy ws s ∧
          AllValued fuel e.strategy pre ∧ ev.Fails fuel s x) ∨
       (∃ vs s, Trace fuel (rows.flatMap Row.events) e.strategy vs s ∧ AllValued fuel e.strategy (rows.flatMap Row.events) ∧
          EndFails s x)) := by
  rw [run_perform]
  constructor
  · intro h
    refine ⟨_, scheduled_rows hc, ?_⟩
    rcases bind_err h with h | ⟨⟨vs, s⟩, h1, h⟩
    · exact Or.inl ((performAll_err _).1 h)
    · obtain ⟨k1, k2⟩ := (performAll_ok _).1 h1
      refine Or.inr ⟨vs, s, k1, k2, ?_⟩
      rcases bind_err h with h | ⟨b, h2, h⟩
      · exact Or.inl h
      · rcases bind_err h with h | ⟨v, h3, h⟩
        · exact Or.inr ⟨b.1, b.2, h2, (usd_err_iff _ _ _).1 h⟩
        · cases h
  · rintro ⟨rows, h0, h⟩
    obtain rfl := scheduled_unique h0 (scheduled_rows hc)
    rcases h with h | ⟨vs, s, h1, h2, h3⟩
    · rw [(performAll_err _).2 h]; rfl
    · rw [(performAll_ok _).2 ⟨h1, h2⟩, Except_bind_ok]
      dsimp only
      rcases h3 with h3 | ⟨c, s', h3, h4⟩
      · rw [h3]; rfl
      · rw [h3, Except_bind_ok]
        dsimp only
        rw [(usd_err_iff _ _ _).2 h4]
        rfl

/-- C95: every execution either returns one result, or panics, however many loop iterations are allowed beyond some number,
or runs for ever. -/
theorem C95_outcome (e : Execution) :
    (∃ n r, ∀ fuel, n ≤ fuel → e.run fuel = .ok r) ∨ (∃ n, ∀ fuel, n ≤ fuel → e.run fuel = .error .panic) ∨
    Hangs fun fuel => e.run fuel := by
  by_cases h : ∀ fuel, e.run fuel = .error .fuel
  · exact Or.inr (Or.inr h)
  · rw [not_forall] at h
    obtain ⟨n, hn⟩ := h
    have key : ∀ fuel, n ≤ fuel → e.run fuel = e.run n := fun fuel hf => (stable_run e n fuel hf).resolve_left hn
    cases hr : e.run n with
    | ok r => exact Or.inl ⟨n, r, fun fuel hf => (key fuel hf).trans hr⟩
    | error x =>
      cases x with
      | panic => exact Or.inr (Or.inl ⟨n, fun fuel hf => (key fuel hf).trans hr⟩)
      | fuel => exact absurd hr hn

/-- C95: holding.  A run of the strategy that only holds returns exactly if the plain replay of the transactions does, as
long as the value of the amounts can be computed at the prices it meets. -/
theorem C95_hold {e : Execution} {fuel : Nat} (hc : Clock e) (hk : e.strategy.kind = .noProvision)
    (hv : ∀ ts p, ts <+: upTo e.endTime e.transactions → Replay fuel ts e.strategy.pool p →
      Valuable (e.strategy.amount0, e.strategy.amount1) p.price) :
    (∃ e', e.run fuel = .ok e') ↔ ∃ p, Replay fuel (upTo e.endTime e.transactions) e.strategy.pool p := by
  constructor
  · rintro ⟨e', h⟩
    obtain ⟨rows, vs, s, c, v, h0, h1, _⟩ := (C95_returns hc).1 h
    obtain ⟨_, h2⟩ := idle_trace rows hk h1
    have := hold_replay h2
    rw [h0.txs] at this
    exact ⟨_, this⟩
  · rintro ⟨p, h⟩
    have h0 := scheduled_rows hc
    rw [← h0.txs] at h hv
    obtain ⟨vs, h1⟩ := idle_performs _ hk h hv
    rw [run_perform, h1, Except_bind_ok]
    dsimp only
    have hb : ({ e.strategy with pool := p } : Strat).burnAll = .ok ((e.strategy.amount0, e.strategy.amount1), { e.strategy with pool := p }) := by
      unfold Strat.burnAll
      rw [hk]
    rw [hb, Except_bind_ok]
    dsimp only
    obtain ⟨v, hu⟩ := (usd_ok_iff _ _).2 (hv _ p (List.prefix_refl _) h)
    rw [hu]
    exact ⟨_, rfl⟩

/-- C95: the value of less than `2^192` of token1 can be computed at all square root prices from `2^32` to `2^128`; every
price of a pool is at least `2^32`. -/
theorem C95_valuable {c : U256 × U256} {P : U256} (h0 : 2 ^ 32 ≤ P.toNat) (h1 : P.toNat < 2 ^ 128) (hc : c.2.toNat < 2 ^ 192) : Valuable c P := by
  have e1 : P.toNat * P.toNat < 2 ^ 256 := by nlinarith
  have e2 : 2 ^ 64 ≤ P.toNat * P.toNat := by nlinarith
  rw [Valuable, Nat.mod_eq_of_lt e1]
  refine Or.inr ⟨by omega, ?_⟩
  rintro ⟨k, h2, h3⟩
  have hk : 2 ≤ k := by
    by_contra hlt
    have : 2 ^ (64 * k) ≤ 2 ^ 64 := Nat.pow_le_pow_right (by norm_num) (by omega)
    omega
  have h4 : 2 ^ 384 ≤ 2 ^ (64 * (k + 4)) := Nat.pow_le_pow_right (by norm_num) (by omega)
  have h5 : c.2.toNat * 2 ^ 192 < 2 ^ 192 * 2 ^ 192 := Nat.mul_lt_mul_of_pos_right hc (by norm_num)
  rw [← pow_add] at h5
  omega

/-- C95: without a price below `2^128` a run can panic although everything can be traded and liquidated: at the square root
price `2^128` no amount of token1 has a value. -/
theorem C95_invaluable (c : U256 × U256) (h : 0 < c.2.toNat) : ¬ Valuable c (ofNat (2 ^ 128)) := by
  rintro (h1 | ⟨h1, _⟩)
  · omega
  · exact h1 (by decide +kernel)

/-- C95: in every state of a run of a strategy, recording its value fails only if the value cannot be computed. -/
theorem C95_value {m : List Entry} {s : Strat} (hr : Runs m s) (fuel : Nat) (x : Err) :
    Event.value.Fails fuel s x ↔ x = .panic ∧ ∃ c, s.getAmounts = .ok c ∧ ¬ Valuable c s.pool.price := by
  obtain ⟨c, hc, _⟩ := C41_amounts hr
  constructor
  · rintro (h | ⟨d, h1, h2, h3⟩)
    · rw [hc] at h; cases h
    · exact ⟨h3, d, h1, h2⟩
  · rintro ⟨h3, d, h1, h2⟩
    exact Or.inr ⟨d, h1, h2, h3⟩

/-! ### C96 -/

/-- C96: no look-ahead.  Let `f` be an execution with the same set-up as `e` whose transactions begin with those of `e`.  If
`f` returns, then it has recorded all values that `e` records before its end, in the same order, and the strategy was in
the same state `s` at that point: `e` returns exactly if `s` can be liquidated, and adds only the value of that. -/
theorem C96_ahead {e f f' : Execution} {fuel : Nat} (h : SameSetup e f)
    (hp : upTo e.endTime e.transactions <+: upTo f.endTime f.transactions) (hf : f.run fuel = .ok f') :
    ∃ (vs ws : List U256) (s : Strat), f'.snapshots = f.snapshots ++ vs ++ ws ∧ ws ≠ [] ∧
      ∀ e', e.run fuel = .ok e' ↔ ∃ c v, s.burnAll = .ok (c, e'.strategy) ∧ Valuable c e'.strategy.pool.price ∧
        v.toNat = usdValue c e'.strategy.pool.price ∧ e' = { e with strategy := e'.strategy, snapshots := e.snapshots ++ vs ++ [v] } := by
  obtain ⟨more, hm⟩ := rows_ahead h hp
  rw [run_perform, hm, List.flatMap_append, performAll_append] at hf
  obtain ⟨q, h1, hf⟩ := bind_ok hf
  obtain ⟨b, h2, hf⟩ := bind_ok hf
  obtain ⟨v, h3, hf⟩ := bind_ok hf
  cases hf
  obtain ⟨⟨vs, s⟩, h4, h1⟩ := bind_ok h1
  obtain ⟨⟨ws, t⟩, h5, h1⟩ := bind_ok h1
  cases h1
  refine ⟨vs, ws ++ [v], s, by simp only [List.append_assoc], by simp, fun e' => ?_⟩
  rw [← h.strategy] at h4
  rw [run_perform, h4, Except_bind_ok]
  dsimp only
  constructor
  · intro he
    obtain ⟨b, k1, he⟩ := bind_ok he
    obtain ⟨v, k2, he⟩ := bind_ok he
    cases he
    obtain ⟨k3, k4⟩ := usd_val.1 k2
    exact ⟨b.1, v, k1, k3, k4, rfl⟩
  · rintro ⟨c, v, k1, k2, k3, k4⟩
    rw [k1, Except_bind_ok]
    dsimp only
    rw [usd_val.2 ⟨k2, k3⟩, Except_bind_ok]
    exact congrArg _ k4.symm

/-- C96: two executions with the same set-up whose transactions begin in the same way: all values but the last one of the
shorter are recorded by the longer, in the same order. -/
theorem C96_prefix {e f e' f' : Execution} {fuel : Nat} (h : SameSetup e f)
    (hp : upTo e.endTime e.transactions <+: upTo f.endTime f.transactions) (he : e.run fuel = .ok e') (hf : f.run fuel = .ok f') :
    ∃ vs v ws, e'.snapshots = e.snapshots ++ vs ++ [v] ∧ f'.snapshots = f.snapshots ++ vs ++ ws := by
  obtain ⟨vs, ws, s, h1, _, h2⟩ := C96_ahead h hp hf
  obtain ⟨c, v, _, _, _, h3⟩ := (h2 e').1 he
  exact ⟨vs, v, ws, by rw [h3], h1⟩

/-- C96: two executions with the same set-up whose transactions begin with those of `g`, and then differ in any way: what
happens up to there is the same, and so are the values recorded. -/
theorem C96_common {g e f e' f' : Execution} {fuel : Nat} (hc : Clock g) (h : SameSetup g e) (h' : SameSetup g f)
    (hp : upTo g.endTime g.transactions <+: upTo e.endTime e.transactions)
    (hp' : upTo g.endTime g.transactions <+: upTo f.endTime f.transactions) (he : e.run fuel = .ok e') (hf : f.run fuel = .ok f') :
    ∃ rows vs s ws ws', Scheduled g rows ∧ Trace fuel (rows.flatMap Row.events) g.strategy vs s ∧
      e'.snapshots = e.snapshots ++ vs ++ ws ∧ f'.snapshots = f.snapshots ++ vs ++ ws' := by
  have key : ∀ {k k' : Execution}, SameSetup g k → upTo g.endTime g.transactions <+: upTo k.endTime k.transactions → k.run fuel = .ok k' →
      ∃ vs s ws, performAll fuel ((rowsOf g g.transactions g.initial).flatMap Row.events) g.strategy = .ok (vs, s) ∧
        k'.snapshots = k.snapshots ++ vs ++ ws := by
    intro k k' hk hq hr
    obtain ⟨more, hm⟩ := rows_ahead hk hq
    rw [run_perform, hm, List.flatMap_append, performAll_append, ← hk.strategy] at hr
    obtain ⟨q, h1, hr⟩ := bind_ok hr
    obtain ⟨b, h2, hr⟩ := bind_ok hr
    obtain ⟨v, h3, hr⟩ := bind_ok hr
    cases hr
    obtain ⟨⟨vs, s⟩, h4, h1⟩ := bind_ok h1
    obtain ⟨⟨ws, t⟩, h5, h1⟩ := bind_ok h1
    cases h1
    exact ⟨vs, s, ws ++ [v], h4, by simp only [List.append_assoc]⟩
  obtain ⟨vs, s, ws, h1, h2⟩ := key h hp he
  obtain ⟨vs', s', ws', h3, h4⟩ := key h' hp' hf
  rw [h1] at h3
  cases h3
  exact ⟨_, vs, s, ws, ws', scheduled_rows hc, ((performAll_ok _).1 h1).1, h2, h4⟩

/-- C96: transactions after the first one later than the end time have no influence at all, and neither have the end time
and the transactions otherwise: executions with the same set-up that look at the same transactions do the same. -/
theorem C96_same {e f : Execution} {fuel : Nat} (h : SameSetup e f)
    (hp : upTo e.endTime e.transactions = upTo f.endTime f.transactions) (hs : e.snapshots = f.snapshots) :
    (e.run fuel).map (fun r => (r.strategy, r.snapshots)) = (f.run fuel).map (fun r => (r.strategy, r.snapshots)) := by
  have hr : rowsOf f f.transactions f.initial = rowsOf e e.transactions e.initial := by
    rw [rowsOf_in, rowsOf_in, hp, rowsIn_same h]
    exact (rowsIn_clock f _ f.initial e.strategy e.snapshots).symm
  rw [run_perform, run_perform, hr, h.strategy, hs]
  cases performAll fuel ((rowsOf e e.transactions e.initial).flatMap Row.events) f.strategy with
  | error x => rfl
  | ok r =>
    rw [Except_bind_ok, Except_bind_ok]
    cases r.2.burnAll with
    | error x => rfl
    | ok b =>
      rw [Except_bind_ok, Except_bind_ok]
      cases usd b.1 b.2.pool.price <;> rfl

/-! ### Concrete runs -/

namespace ReturnsDemo
open ExecDemo

/-- The run of `ExecDemo` with a later end. -/
def long : Execution := { e0 with endTime := 1000 }
def long1 : Execution := getOk (long.run 10) (by decide +kernel)

/-- A mint with an empty range. -/
def empty : Transaction := ⟨"Mint", ofNat 50000000, zero, zero, "", zero, 0, 600, 600, 100, false⟩
def bad : Execution := ⟨n0, 150, 500, 100, 60, 1000, [], [empty]⟩

/-- Holding while somebody sells token0 in a pool that stands on a wall. -/
def sale : Transaction := ⟨"Swap", zero, ofNat 1000, zero, "", zero, 0, 0, 0, 100, false⟩
def stuck : Execution := ⟨{ n0 with pool := Demo.p2 }, 150, 500, 100, 60, 1000, [], [sale]⟩

theorem clock_stuck : Clock stuck := ⟨by decide, by decide, by decide, by decide⟩
theorem clock_bad : Clock bad := ⟨by decide, by decide, by decide, by decide⟩

theorem replay_eq {fuel : Nat} (ts : List Transaction) : ∀ {p p' : Pool}, Replay fuel ts p p' ↔ ts.foldlM (fun p t => t.apply fuel p) p = .ok p' := by
  have ha : ∀ {t : Transaction} {p p' : Pool}, Applies fuel t p p' ↔ t.apply fuel p = .ok p' := by
    intro t p p'
    rw [apply_iff]
    unfold Applies
    cases opOf t p with
    | none => exact ⟨fun h => congrArg _ h.symm, fun h => (Except.ok.inj h).symm⟩
    | some op => exact Iff.rfl
  induction ts with
  | nil =>
    intro p p'
    constructor
    · intro h; cases h; rfl
    · intro h; cases h; exact .nil
  | cons t ts ih =>
    intro p p'
    rw [List.foldlM_cons]
    constructor
    · intro h
      cases h with
      | cons h1 h2 => rw [ha.1 h1]; exact ih.1 h2
    · intro h
      obtain ⟨p1, h1, h2⟩ := bind_ok h
      exact .cons (ha.2 h1) (ih.2 h2)

theorem upTo0 : upTo g0.endTime g0.transactions = [tx "Mint" 100 0, tx "Swap" 200 100000, tx "Collect" 300 0] := by
  have h1 : g0.transactions = txs := tx0
  rw [h1, show g0.endTime = 500 by decide +kernel]
  decide

/-- The price after some transactions, or else zero. -/
def priceAfter (ts : List Transaction) : U256 :=
  match ts.foldlM (fun p t => t.apply 10 p) g0.strategy.pool with
  | .ok p => p.price
  | .error _ => zero

end ReturnsDemo

open ReturnsDemo ExecDemo in
/-- C95: all three outcomes occur: a run that returns, a run that panics, and one that runs for ever because the sale of
token0 in it does. -/
example : (∃ n r, ∀ fuel, n ≤ fuel → e0.run fuel = .ok r) ∧ (∃ n, ∀ fuel, n ≤ fuel → bad.run fuel = .error .panic) ∧
    Hangs fun fuel => stuck.run fuel := by
  have hs := fun e : Execution => stable_run e 10
  dsimp only at hs
  refine ⟨⟨10, e1, fun f hf => ?_⟩, ⟨10, fun f hf => ?_⟩, fun fuel => ?_⟩
  · rcases hs e0 f hf with h | h
    · rw [run1] at h; cases h
    · exact h.trans run1
  · have h0 : bad.run 10 = .error .panic := TotalDemo.eq_panic (by decide +kernel)
    rcases hs bad f hf with h | h
    · rw [h0] at h; cases h
    · exact h.trans h0
  · refine (C95_fails clock_stuck).2 ⟨_, scheduled_rows clock_stuck, Or.inl ?_⟩
    have hk : stuck.strategy.kind = .noProvision := by decide +kernel
    have hd : Event.price.Does fuel stuck.strategy [] stuck.strategy := by
      refine ⟨?_, rfl⟩
      unfold Strat.makeSnapshot
      rw [hk]
    refine ⟨[.price], .apply sale, [], [] ++ [], stuck.strategy, rfl, .cons hd .nil, ?_, ?_⟩
    · intro pre ev post s1 ws h _
      cases pre with
      | nil => obtain rfl := (List.cons.inj h).1; exact trivial
      | cons a pre =>
        have := (List.cons.inj h).2
        simp at this
    · refine ⟨.exactInput (ofNat 1000) Demo.p2.token0 zero, rfl, ?_⟩
      have hh : Hangs fun fuel => Demo.p2.swap fuel true (ofNat 1000) zero :=
        C88_at (Demo.reachable Demo.r2) (by decide +kernel) (by decide +kernel) (by unfold LimitValid; decide +kernel) ⟨60, by decide +kernel⟩
          (w := 0) ⟨le_refl _, by norm_num, 0, by norm_num⟩ (by decide +kernel)
      have hh := hh fuel
      dsimp only at hh
      show (Demo.p2.exactInputSwap fuel (ofNat 1000) Demo.p2.token0 zero >>= fun r => Except.ok r.2.2) = .error .fuel
      unfold Pool.exactInputSwap
      rw [decide_eq_true rfl, hh]
      rfl

open ReturnsDemo ExecDemo in
/-- C95: the presuppositions about values are met by the run of the strategy that holds. -/
example : Clock g0 ∧ g0.strategy.kind = .noProvision ∧ (∃ p, Replay 10 (upTo g0.endTime g0.transactions) g0.strategy.pool p) ∧
    (∀ ts p, ts <+: upTo g0.endTime g0.transactions → Replay 10 ts g0.strategy.pool p →
      Valuable (g0.strategy.amount0, g0.strategy.amount1) p.price) := by
  refine ⟨clock', by decide +kernel, ?_, ?_⟩
  · rw [upTo0]
    exact ⟨_, (replay_eq _).2 (eq_getOk _ (by decide +kernel))⟩
  · intro ts p hp hr
    rw [replay_eq] at hr
    have hq : p.price = priceAfter ts := by unfold priceAfter; rw [hr]
    rw [hq]
    rw [upTo0, ← List.mem_inits] at hp
    simp only [List.inits, List.map_cons, List.map_nil, List.mem_cons, List.not_mem_nil, or_false] at hp
    rcases hp with rfl | rfl | rfl | rfl <;> exact C95_valuable (by decide +kernel) (by decide +kernel) (by decide +kernel)

open ReturnsDemo ExecDemo in
/-- C96: the run of `ExecDemo` and a longer one: the values before the end of the shorter one are the same. -/
example : SameSetup e0 long ∧ upTo e0.endTime e0.transactions <+: upTo long.endTime long.transactions ∧
    e0.run 10 = .ok e1 ∧ long.run 10 = .ok long1 ∧ e1.snapshots = [ofNat 3000000, ofNat 2998127] ++ [ofNat 2998354] ∧
    long1.snapshots = [ofNat 3000000, ofNat 2998127] ++ [ofNat 2998354, ofNat 2998351] := by
  have h1 : long.transactions = txs := tx0
  refine ⟨⟨rfl, rfl, rfl, rfl, rfl⟩, ?_, run1, eq_getOk _ _, by decide +kernel, by decide +kernel⟩
  rw [h1, tx0, show e0.endTime = 500 by decide +kernel, show long.endTime = 1000 by decide +kernel]
  decide

end Props
end Uni
