import Verif.Proofs.Later
import Verif.Props.Executor
import Verif.Props.History
/-! # C99: what a run reads of its input -/
namespace Uni
namespace Props
open U256 Spec Pool Execution

/-- C99: a run reads only the type and the time of a transaction and what a transaction of this type is about. -/
theorem C99_reads {e f : Execution} (h : Moved 0 e f) (fuel : Nat) : SameOutcome fuel e f := by
  refine outcome_of_perform h.strategy h.snapshots ?_
  refine performAll_same (rows_events ?_) _
  have := still_rows h h.txs e.initial
  have hi : f.initial = e.initial := by unfold Execution.initial; rw [h.strategy, h.snapshots]
  rw [hi]
  exact this

/-- C99: for a strategy that keeps no prices only differences of time matter. -/
theorem C99_moved {k : Int} {e f : Execution} (h : Moved k e f) (hc : Clock e) (hf : Clock f)
    (hk : ¬ KeepsPrices e.strategy.kind) (fuel : Nat) : SameOutcome fuel e f := by
  refine outcome_of_perform h.strategy h.snapshots ?_
  rw [performAll_unpriced ((rowsOf f f.transactions f.initial).flatMap Row.events) hk,
    performAll_unpriced ((rowsOf e e.transactions e.initial).flatMap Row.events) hk]
  refine performAll_same (rows_unpriced ?_) _
  exact (moved_rows h hc hf).imp fun _ _ x => x.1

/-- C99: for every strategy only differences of time matter as long as the times are later than the number of transactions
times the price interval. -/
theorem C99_late {k : Int} {e f : Execution} (h : Moved k e f) (hc : Clock e) (hf : Clock f)
    (he : LatePrices e) (hl : LatePrices f) (fuel : Nat) : SameOutcome fuel e f := by
  have hrows : ∀ {g : Execution}, Clock g → LatePrices g → ∀ r ∈ rowsOf g g.transactions g.initial, r.price = true := by
    intro g hg hg'
    have hs := scheduled_rows hg
    refine C50_every hs hg.price.1 ?_
    intro r hr
    have hpre : upTo g.endTime g.transactions <+: g.transactions := List.takeWhile_prefix _
    have hm : r.tx ∈ g.transactions := by
      refine hpre.subset ?_
      rw [← hs.txs]
      exact List.mem_map_of_mem hr
    refine lt_of_le_of_lt (mul_le_mul_of_nonneg_right ?_ hg.price.1) (hg' r.tx hm)
    have := hpre.length_le
    rw [← hs.txs, List.length_map] at this
    exact_mod_cast this
  have h1 := hrows hc he
  have h2 := hrows hf hl
  refine outcome_of_perform h.strategy h.snapshots ?_
  refine performAll_same (rows_events ?_) _
  have key := moved_rows h hc hf
  generalize rowsOf e e.transactions e.initial = xs at h1 key
  generalize rowsOf f f.transactions f.initial = ys at h2 key
  clear he hl hrows
  induction key with
  | nil => exact .nil
  | cons hx _ ih =>
    rw [List.forall_mem_cons] at h1 h2
    exact .cons ⟨hx.1, h2.1.trans h1.1.symm⟩ (ih h1.2 h2.2)

namespace LaterDemo
open ExecDemo HistoryDemo

/-- The same transaction with another identifier, price, tick and number format, later. -/
def other (k : Int) (t : Transaction) : Transaction :=
  { t with id := "0x1", sqrtPrice := ofNat 7, tick := 5, useX96 := true, timestamp := t.timestamp + k }

/-- The execution moved by `k`. -/
def moved (k : Int) (e : Execution) : Execution :=
  { e with startTime := e.startTime + k, endTime := e.endTime + k, transactions := e.transactions.map (other k) }

theorem moved_moved (k : Int) (e : Execution) : Moved k e (moved k e) := by
  refine ⟨rfl, rfl, rfl, rfl, rfl, rfl, rfl, ?_⟩
  show List.Forall₂ _ e.transactions (e.transactions.map (other k))
  generalize e.transactions = ts
  induction ts with
  | nil => exact .nil
  | cons t ts ih => exact .cons ⟨rfl, rfl, fun _ => ⟨rfl, rfl, rfl⟩, fun _ => ⟨rfl, rfl⟩, fun _ => rfl⟩ ih

/-- An interval around the average of two prices that starts at the third transaction. -/
def avg : Execution := ⟨s0, 250, 500, 100, 60, 1000, [], txs⟩
/-- The same a little later in the day. -/
def avgLate : Execution := moved 3000 avg
/-- And on another day. -/
def avgLater : Execution := moved 90000 avg

theorem clock_avg : Clock avg := ⟨by decide, by decide, by decide, by decide⟩
theorem clock_late : Clock avgLate := ⟨by decide, by decide, by decide, by decide⟩
theorem clock_later : Clock avgLater := ⟨by decide, by decide, by decide, by decide⟩

def avg1 : Execution := getOk (avg.run 10) (by decide +kernel)
def avgLate1 : Execution := getOk (avgLate.run 10) (by decide +kernel)

end LaterDemo

open LaterDemo ExecDemo HistoryDemo in
/-- C99: for a strategy that keeps prices the time of day matters: the due time of the first price snapshot is the absolute
time zero, and the snapshots catch up one by one.  The same run an hour later gives other values. -/
theorem C99_absolute_counterexample : ∃ (k : Int) (e f : Execution) (fuel : Nat), Moved k e f ∧ Clock e ∧ Clock f ∧
    ¬ SameOutcome fuel e f := by
  refine ⟨3000, avg, avgLate, 10, moved_moved _ _, clock_avg, clock_late, ?_⟩
  unfold SameOutcome
  rw [show avg.run 10 = .ok avg1 from eq_getOk _ _, show avgLate.run 10 = .ok avgLate1 from eq_getOk _ _]
  rintro ⟨h, _⟩
  revert h
  decide +kernel

open LaterDemo ExecDemo in
/-- C99: the run of `ExecDemo` with other records: the outcome is the same. -/
example : Moved 0 e0 (moved 0 e0) ∧ e0.transactions.map (fun t => t.id) ≠ (moved 0 e0).transactions.map (fun t => t.id) ∧
    e0.run 10 = .ok e1 ∧ ∃ r, (moved 0 e0).run 10 = .ok r ∧ r.snapshots = e1.snapshots := by
  refine ⟨moved_moved _ _, by decide +kernel, run1, ?_⟩
  have := C99_reads (moved_moved 0 e0) 10
  unfold SameOutcome at this
  rw [run1] at this
  cases h : (moved 0 e0).run 10 with
  | error x => rw [h] at this; exact this.elim
  | ok r => rw [h] at this; exact ⟨r, rfl, this.1⟩

open LaterDemo ExecDemo HistoryDemo in
/-- C99: the run of `ExecDemo` at a real time of the year 2021; the run with the average on two days. -/
example : Moved 1620000000 e0 (moved 1620000000 e0) ∧ Clock e0 ∧ Clock (moved 1620000000 e0) ∧ ¬ KeepsPrices e0.strategy.kind ∧
    Moved 86400 avgLater (moved 86400 avgLater) ∧ Clock avgLater ∧ Clock (moved 86400 avgLater) ∧
    LatePrices avgLater ∧ LatePrices (moved 86400 avgLater) ∧ KeepsPrices avgLater.strategy.kind := by
  have h1 : e0.updateInterval = 100 := by decide +kernel
  have h2 : e0.snapShotInterval = 60 := by decide +kernel
  have h3 : e0.pricesSnapshotsInterval = 1000 := by decide +kernel
  have h4 : e0.strategy.kind = .fillUp 120 := by decide +kernel
  have h5 : avgLater.strategy.kind = .aroundAverage 600 2 := by decide +kernel
  refine ⟨moved_moved _ _, clock, ?_, by rw [h4]; exact id, moved_moved _ _, clock_later, ?_, ?_, ?_, by rw [h5]; exact trivial⟩
  · constructor <;> simp only [moved, tx0, h1, h2, h3] <;> decide
  · exact ⟨by decide, by decide, by decide, by decide⟩
  · unfold LatePrices; decide
  · unfold LatePrices; decide

end Props
end Uni
