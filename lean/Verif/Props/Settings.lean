import Verif.Proofs.Settings
import Verif.Props.Later
/-! # C102: what the settings of a run influence -/
namespace Uni
namespace Props
open U256 Spec Pool Execution

/-- C102: recording values does not influence what is measured.  Two runs that differ only in the interval of the value
snapshots, if both return, end with the same strategy on the same pool and with the same last value. -/
theorem C102_values {e r q : Execution} {v w : Int} {fuel : Nat} (hr : Execution.run { e with snapShotInterval := v } fuel = .ok r)
    (hq : Execution.run { e with snapShotInterval := w } fuel = .ok q) :
    q.strategy = r.strategy ∧ q.snapshots.getLast? = r.snapshots.getLast? := by
  rw [run_perform] at hr hq
  dsimp only at hr hq
  have hb := rows_blind e v w e.transactions (a := Execution.initial { e with snapShotInterval := v })
    (b := Execution.initial { e with snapShotInterval := w }) rfl rfl rfl
  obtain ⟨x, h1, hr⟩ := bind_ok hr
  obtain ⟨y, h2, hq⟩ := bind_ok hq
  obtain ⟨xs, k1, _⟩ := performAll_fewer (blind_rows_fewer _) (vs := x.1) (s' := x.2) h1
  obtain ⟨ys, k2, _⟩ := performAll_fewer (blind_rows_fewer _) (vs := y.1) (s' := y.2) h2
  rw [hb] at k1
  rw [k1] at k2
  have hs : x.2 = y.2 := (Prod.mk.inj (Except.ok.inj k2)).2
  rw [hs] at hr
  obtain ⟨b, h3, hr⟩ := bind_ok hr
  obtain ⟨b', h3', hq⟩ := bind_ok hq
  rw [h3] at h3'
  cases h3'
  obtain ⟨u, h4, hr⟩ := bind_ok hr
  obtain ⟨u', h4', hq⟩ := bind_ok hq
  rw [h4] at h4'
  cases h4'
  cases hr
  cases hq
  refine ⟨rfl, ?_⟩
  dsimp only
  rw [List.getLast?_concat, List.getLast?_concat]

/-- C102: with the transactions in the order of time, the run that records a value at every transaction (interval zero)
contains the values of all other intervals: if it returns, the runs with all other intervals return, end in the same way and
record some of its values, in the same order. -/
theorem C102_every {e g : Execution} {fuel : Nat} (hc : Clock e)
    (ho : e.transactions.Pairwise fun t u => t.timestamp ≤ u.timestamp)
    (hg : Execution.run { e with snapShotInterval := 0 } fuel = .ok g) :
    ∃ r, e.run fuel = .ok r ∧ r.strategy = g.strategy ∧ r.snapshots.Sublist g.snapshots := by
  have hc0 : Clock { e with snapShotInterval := 0 } :=
    ⟨hc.times, hc.update, ⟨le_refl _, fun t ht => by have := (hc.times t ht).2; show t.timestamp + 0 < _; omega⟩, hc.price⟩
  have hs := scheduled_rows hc
  have hs0 := scheduled_rows hc0
  have hb : (rowsOf e e.transactions e.initial).map blind =
      (rowsOf { e with snapShotInterval := 0 } e.transactions (Execution.initial { e with snapShotInterval := 0 })).map blind :=
    rows_blind e e.snapShotInterval 0 e.transactions rfl rfl rfl
  have htx := hs0.txs
  have hval := hs.value
  have hval0 := hs0.value
  rw [run_perform] at hg ⊢
  dsimp only at hg htx hval0
  generalize rowsOf e e.transactions e.initial = xs at hb hval ⊢
  generalize rowsOf { e with snapShotInterval := 0 } e.transactions (Execution.initial { e with snapShotInterval := 0 }) = ys
    at hb hg htx hval0
  have hord : ys.Pairwise fun r q => r.time ≤ q.time := by
    have h0 : (upTo e.endTime e.transactions).Pairwise fun t u => t.timestamp ≤ u.timestamp :=
      ho.sublist (List.takeWhile_prefix _).sublist
    rw [← htx] at h0
    exact (List.pairwise_map (f := Row.tx) (R := fun t u => t.timestamp ≤ u.timestamp)).1 h0
  have hsub := rows_subset hb (by
    intro pre r post pre' q post' k1 k2 k3 k4 hv
    obtain ⟨σ, h1, h2⟩ := (hval pre r post k1).1 hv
    refine (hval0 pre' q post' k2).2 ⟨σ, ?_, ?_⟩
    · rw [← started_blind, List.map_append, List.map_singleton, ← k3, ← k4, ← List.map_singleton, ← List.map_append, started_blind]
      exact h1
    · rw [mul_zero, add_zero]
      rw [← started_blind, List.map_append, List.map_singleton, k3, k4, ← List.map_singleton, ← List.map_append, started_blind] at h1
      obtain ⟨z, hz, _, rfl⟩ := h1
      rcases List.mem_append.1 hz with hz | hz
      · rw [k2] at hord
        exact (List.pairwise_append.1 hord).2.2 z hz q List.mem_cons_self
      · rw [List.mem_singleton.1 hz])
  obtain ⟨x, h1, hg⟩ := bind_ok hg
  obtain ⟨vs, k1, k2⟩ := performAll_fewer (rows_fewer hsub) (vs := x.1) (s' := x.2) h1
  obtain ⟨b, h3, hg⟩ := bind_ok hg
  obtain ⟨u, h4, hg⟩ := bind_ok hg
  cases hg
  refine ⟨{ e with strategy := b.2, snapshots := e.snapshots ++ vs ++ [u] }, ?_, rfl, ?_⟩
  · rw [k1, Except_bind_ok]
    dsimp only
    rw [h3, Except_bind_ok, h4, Except_bind_ok]
  · exact ((List.append_sublist_append_left _).2 k2).append (List.Sublist.refl _)

/-- C102: the interval of the price snapshots matters only to strategies that keep prices. -/
theorem C102_prices {e : Execution} (hk : ¬ KeepsPrices e.strategy.kind) (v w : Int) (fuel : Nat) :
    SameOutcome fuel { e with pricesSnapshotsInterval := v } { e with pricesSnapshotsInterval := w } := by
  refine outcome_of_perform rfl rfl ?_
  dsimp only
  rw [performAll_unpriced _ hk]
  conv_rhs => rw [performAll_unpriced _ hk]
  exact performAll_same (rows_unpriced (rows_price e v w e.transactions rfl rfl rfl)) _

/-- C102: the interval of the rebalances does not matter to the strategy that provides nothing. -/
theorem C102_updates {e : Execution} (hk : e.strategy.kind = .noProvision) (v w : Int) (fuel : Nat) :
    SameOutcome fuel { e with updateInterval := v } { e with updateInterval := w } := by
  refine outcome_of_perform rfl rfl ?_
  dsimp only
  rw [performAll_idle _ hk]
  conv_rhs => rw [performAll_idle _ hk]
  rw [rows_idle e w v e.transactions (a := Execution.initial { e with updateInterval := w })
    (b := Execution.initial { e with updateInterval := v }) rfl rfl rfl]

/-- C102: of the start and the end only matters which transactions are before and after them. -/
theorem C102_bounds {e : Execution} {s s' f f' : Int} (hs : ∀ t ∈ e.transactions, s ≤ t.timestamp ↔ s' ≤ t.timestamp)
    (hf : ∀ t ∈ e.transactions, t.timestamp ≤ f ↔ t.timestamp ≤ f') (fuel : Nat) :
    SameOutcome fuel { e with startTime := s, endTime := f } { e with startTime := s', endTime := f' } := by
  refine outcome_of_perform rfl rfl ?_
  dsimp only
  have hi : Execution.initial { e with startTime := s', endTime := f' } = Execution.initial { e with startTime := s, endTime := f } := rfl
  rw [hi, rows_bounds e e.transactions hs hf]

namespace SettingsDemo
open ExecDemo

/-- The run of `ExecDemo` with a value at every transaction. -/
def all0 : Execution := { e0 with snapShotInterval := 0 }
def all1 : Execution := getOk (all0.run 10) (by decide +kernel)
theorem runAll : all0.run 10 = .ok all1 := eq_getOk _ _

end SettingsDemo

open SettingsDemo ExecDemo in
/-- C102: the run of `ExecDemo` with another interval of the value snapshots records more values. -/
example : Clock e0 ∧ (e0.transactions.Pairwise fun t u => t.timestamp ≤ u.timestamp) ∧ all0.run 10 = .ok all1 ∧ e0.run 10 = .ok e1 ∧
    e1.snapshots.length = 3 ∧ all1.snapshots.length = 4 ∧ e1.snapshots.Sublist all1.snapshots := by
  have ho : e0.transactions.Pairwise fun t u => t.timestamp ≤ u.timestamp := by rw [tx0]; decide
  refine ⟨clock, ho, runAll, run1, by decide +kernel, by decide +kernel, ?_⟩
  obtain ⟨r, h1, _, h2⟩ := C102_every clock ho runAll
  rw [run1] at h1
  cases h1
  exact h2

open SettingsDemo ExecDemo HistoryDemo LaterDemo in
/-- C102: the filling strategy keeps no prices; the interval around the average does, and there the interval matters. -/
example : (¬ KeepsPrices e0.strategy.kind ∧ ∃ t ∈ e0.transactions, 150 ≤ t.timestamp) ∧ g0.strategy.kind = .noProvision ∧
    (∀ t ∈ e0.transactions, (150 : Int) ≤ t.timestamp ↔ (101 : Int) ≤ t.timestamp) ∧
    (∀ t ∈ e0.transactions, t.timestamp ≤ (500 : Int) ↔ t.timestamp ≤ (300 : Int)) := by
  have h4 : e0.strategy.kind = .fillUp 120 := by decide +kernel
  refine ⟨⟨by rw [h4]; exact id, ?_⟩, by decide +kernel, ?_, ?_⟩
  · rw [tx0]; decide
  · rw [tx0]; decide
  · rw [tx0]; decide

namespace SettingsDemo
open ExecDemo HistoryDemo LaterDemo
def often : Execution := { avg with pricesSnapshotsInterval := 10 }
def often1 : Execution := getOk (often.run 10) (by decide +kernel)
end SettingsDemo

open SettingsDemo ExecDemo HistoryDemo LaterDemo in
/-- C102: to a strategy that keeps prices the interval of the price snapshots matters. -/
theorem C102_prices_counterexample : ∃ (e : Execution) (v w : Int) (fuel : Nat), Clock { e with pricesSnapshotsInterval := v } ∧
    Clock { e with pricesSnapshotsInterval := w } ∧
    ¬ SameOutcome fuel { e with pricesSnapshotsInterval := v } { e with pricesSnapshotsInterval := w } := by
  refine ⟨avg, 1000, 10, 10, clock_avg, ⟨by decide, by decide, by decide, by decide⟩, ?_⟩
  unfold SameOutcome
  rw [show Execution.run { avg with pricesSnapshotsInterval := 1000 } 10 = .ok avg1 from eq_getOk _ _,
    show Execution.run { avg with pricesSnapshotsInterval := 10 } 10 = .ok often1 from eq_getOk _ _]
  rintro ⟨h, _⟩
  revert h
  decide +kernel

end Props
end Uni
