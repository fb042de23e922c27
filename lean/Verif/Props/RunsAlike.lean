import Verif.Proofs.RunsAlike
import Verif.Props.Elsewhere
import Verif.Props.Executor
/-! # C107 for whole runs -/
namespace Uni
namespace Props
open U256 Spec Pool Execution

/-- C107: two runs with the same settings and transactions, of strategies of the same kind that start with the same balances
in pools that offer the same market, record the same values (start, value snapshots, end) and end at the same price, if both
return. -/
theorem C107_run {m m' : List Entry} {e f e' f' : Execution} {fuel : Nat} {rows : List Row} (h0 : SameStart m m' e.strategy f.strategy)
    (hs : SameJob e f) (hc : Clock e) (hr : Scheduled e rows) (hw : AllWithin fuel m e.strategy (rows.flatMap Row.events))
    (ha : AllSeparate fuel e.strategy (rows.flatMap Row.events)) (hx : e.run fuel = .ok e') (hy : f.run fuel = .ok f') :
    e'.snapshots = f'.snapshots ∧ e'.strategy.pool.price = f'.strategy.pool.price :=
  run_together h0 hs hc hr hw ha hx hy

namespace AlikeDemo
open StratDemo ExecDemo

/-- A swap while the strategy of `StratDemo` runs, and a transaction of an unknown type. -/
def ts : List Transaction := [tx "Swap" 200 100000, tx "Collect" 300 0]
def job (s : Strat) : Execution := ⟨s, 150, 500, 100, 60, 1000, [], ts⟩
def rowsA : List Row := [⟨tx "Swap" 200 100000, true, true, false, false⟩, ⟨tx "Collect" 300 0, false, false, true, true⟩]
def eventsA : List Event := [.init, .price, .apply (tx "Swap" 200 100000), .value, .rebalance, .apply (tx "Collect" 300 0)]

theorem clockA : Clock (job f1) := ⟨by decide, by decide, by decide, by decide⟩
theorem rowsA_of : rowsOf (job f1) ts (job f1).initial = rowsA := rfl
theorem scheduled : Scheduled (job f1) rowsA := rowsA_of ▸ scheduled_rows clockA

theorem separate_cons {fuel : Nat} {s : Strat} {e : Event} {es : List Event} (h : SeparateRecords s.positions)
    (ht : ∀ vs s1, e.Does fuel s vs s1 → AllSeparate fuel s1 es) : AllSeparate fuel s (e :: es) := by
  intro pre post s1 ws he hp
  cases hp with
  | nil => exact h
  | @cons x pre s t1 t2 vs us h1 h2 =>
    rw [List.cons_append] at he
    obtain rfl := (List.cons.inj he).1
    exact ht vs t1 h1 pre post _ us (List.cons.inj he).2 h2

theorem price2 : f2.makeSnapshot = .ok f2 := by
  unfold Strat.makeSnapshot
  rw [show f2.kind = .fillUp 120 by decide +kernel]

theorem does_init {vs : List U256} {s1 : Strat} (h : Event.Does 10 f1 vs s1 .init) : s1 = f2 := by
  obtain ⟨c, v, h, _⟩ := h
  rw [StratDemo.e2] at h
  exact (Prod.mk.inj (Except.ok.inj h)).2.symm

theorem does_price {vs : List U256} {s1 : Strat} (h : Event.Does 10 f2 vs s1 .price) : s1 = f2 := by
  have h := h.1
  rw [price2] at h
  exact (Except.ok.inj h).symm

theorem op2 : opOf (tx "Swap" 200 100000) f2.pool = some swapOp := by
  have ht : f2.pool.token1 = "USDC" := by decide +kernel
  show (if 0 < zero.toInt then some (PoolOp.exactInput zero f2.pool.token0 zero)
    else if 0 < (ofNat 100000).toInt then some (PoolOp.exactInput (ofNat 100000) f2.pool.token1 zero) else none) = _
  rw [if_neg (by decide +kernel), if_pos (by decide +kernel), ht]
  rfl

theorem does_swap {vs : List U256} {s1 : Strat} (h : Event.Does 10 f2 vs s1 (.apply (tx "Swap" 200 100000))) : s1 = f3 := by
  obtain ⟨p', h, rfl, _⟩ := h
  unfold Applies at h
  rw [op2] at h
  have h' : swapOp.exec 10 f2.pool = .ok p' := h
  rw [eq_getOk (swapOp.exec 10 f2.pool) (by decide +kernel)] at h'
  rw [← Except.ok.inj h']
  rfl

theorem does_value {s : Strat} {vs : List U256} {s1 : Strat} (h : Event.Does 10 s vs s1 .value) : s1 = s := by
  obtain ⟨c, v, _, h, _⟩ := h
  exact h

theorem does_rebalance {vs : List U256} {s1 : Strat} (h : Event.Does 10 f3 vs s1 .rebalance) : s1 = f4 := by
  obtain ⟨c, h, _⟩ := h
  rw [StratDemo.e4] at h
  exact (Prod.mk.inj (Except.ok.inj h)).2.symm

theorem does_other {vs : List U256} {s1 : Strat} (h : Event.Does 10 f4 vs s1 (.apply (tx "Collect" 300 0))) : s1 = f4 := by
  obtain ⟨p', h, rfl, _⟩ := h
  have h' : p' = f4.pool := h
  rw [h']

theorem withinA : AllWithin 10 m1 f1 eventsA := by
  refine within_cons ?_ fun vs s1 h => ?_
  · intro c s' h
    rw [StratDemo.e2] at h
    obtain ⟨rfl, rfl⟩ := Prod.mk.inj (Except.ok.inj h)
    exact ⟨fits2, noSwap (by decide +kernel)⟩
  rw [does_init h]
  refine within_cons trivial fun vs s1 h => ?_
  rw [does_price h]
  refine within_cons ?_ fun vs s1 h => ?_
  · intro op ho
    rw [op2] at ho
    cases ho
    exact ⟨by decide +kernel, fun h => absurd h (by decide +kernel)⟩
  rw [does_swap h]
  refine within_cons trivial fun vs s1 h => ?_
  rw [does_value h]
  refine within_cons ?_ fun vs s1 h => ?_
  · intro c s' h
    rw [StratDemo.e4] at h
    obtain ⟨rfl, rfl⟩ := Prod.mk.inj (Except.ok.inj h)
    exact ⟨fits4, fun _ _ => noSwap (by decide +kernel)⟩
  rw [does_rebalance h]
  refine within_cons ?_ fun vs s1 h => ?_
  · intro op ho; cases ho
  intro pre ev post s2 ws he
  cases pre <;> cases he

theorem separateA : AllSeparate 10 f1 eventsA := by
  have h1 : SeparateRecords f1.positions := by rw [show f1.positions = [] by decide +kernel]; exact .nil
  refine separate_cons h1 fun vs s1 h => ?_
  rw [does_init h]
  refine separate_cons ElsewhereDemo.apart2 fun vs s1 h => ?_
  rw [does_price h]
  refine separate_cons ElsewhereDemo.apart2 fun vs s1 h => ?_
  rw [does_swap h]
  refine separate_cons distinct.1 fun vs s1 h => ?_
  rw [does_value h]
  refine separate_cons distinct.1 fun vs s1 h => ?_
  rw [does_rebalance h]
  refine separate_cons ElsewhereDemo.apart4 fun vs s1 h => ?_
  rw [does_other h]
  intro pre post s2 ws he hp
  obtain ⟨rfl, _⟩ := List.append_eq_nil_iff.1 he.symm
  cases hp
  exact ElsewhereDemo.apart4

theorem oksA : isOk ((job f1).run 10) ∧ isOk ((job ElsewhereDemo.t1).run 10) := by decide +kernel
def endA : Execution := getOk ((job f1).run 10) oksA.1
def endB : Execution := getOk ((job ElsewhereDemo.t1).run 10) oksA.2

end AlikeDemo

open AlikeDemo StratDemo in
/-- C107: the strategies of `ElsewhereDemo` in whole runs: all hypotheses are met, and the recorded values are these. -/
example : SameStart m1 ElsewhereDemo.mB (job f1).strategy (job ElsewhereDemo.t1).strategy ∧ SameJob (job f1) (job ElsewhereDemo.t1) ∧
    Clock (job f1) ∧ Scheduled (job f1) rowsA ∧ AllWithin 10 m1 f1 (rowsA.flatMap Row.events) ∧
    AllSeparate 10 f1 (rowsA.flatMap Row.events) ∧ (job f1).run 10 = .ok endA ∧ (job ElsewhereDemo.t1).run 10 = .ok endB ∧
    endA.snapshots = [ofNat 3000000, ofNat 2998127, ofNat 2998354] ∧ f1.pool.growth0 ≠ ElsewhereDemo.t1.pool.growth0 :=
  ⟨ElsewhereDemo.same, ⟨rfl, rfl, rfl, rfl, rfl, rfl, rfl⟩, clockA, scheduled, withinA, separateA, eq_getOk _ _, eq_getOk _ _,
    by decide +kernel, by decide +kernel⟩

end Props
end Uni
