import Verif.Proofs.ConcEnd
import Verif.Props.PtrRuns
import Verif.Props.Main
/-! # C78: the goroutines of `main` on shared memory -/
namespace Uni
namespace Props
open U256 Spec InPlace Ptr Conc

/-! ### Helpers -/

section
variable {c c' : Rights} {h h' : Heap}

theorem at_rights {x : Nat} {v : U256} (a : At c h x v) (hb : c'.base ≤ h.next) (hr : c'.canRead x) : At c' h x v := ⟨a.lt, a.val, hr, hb⟩

theorem consts_rights (k : Consts c h) (hb : c'.base ≤ h.next) (hr : ∀ x, x < constEnd → c'.canRead x) : Consts c' h := by
  have e : constEnd = 1774561 := by decide
  have hl : ∀ r, r < 16 → r < constEnd := fun r hr => by omega
  have go : ∀ {x : Nat} {v : U256}, At c h x v → x < constEnd → At c' h x v := fun a hx => at_rights a hb (hr _ hx)
  exact ⟨go k.zero (hl _ (by decide)), go k.one (hl _ (by decide)), go k.maxUint256 (hl _ (by decide)),
    go k.q128 (hl _ (by decide)), go k.q96 (hl _ (by decide)), go k.q192 (hl _ (by decide)),
    go k.maxUint160 (hl _ (by decide)), go k.maxFee (hl _ (by decide)), go k.minSqrtRatio (hl _ (by decide)),
    go k.maxSqrtRatio (hl _ (by decide)), fun i v hv => go (k.table i v hv) (table_lt hv)⟩

theorem pool_rights {p : HPool} (o : PoolOk c h p) (hb : c'.base ≤ h.next) (hr : ∀ x, x < constEnd → c'.canRead x)
    (hw : ∀ r ∈ p.writes, c'.canWrite r) (hp : c'.canRead p.price) : PoolOk c' h p :=
  ⟨o.sep, hw, hp, consts_rights o.consts hb hr, o.high, hb⟩

/-- A new strategy has nothing but the constants in common with what existed before. -/
theorem strat_rights {g : Heap} {s : HStrat} {v : Strat} (n : NewStrat c g s h v) (hb : c'.base ≤ h.next)
    (hr : ∀ x, x < constEnd → c'.canRead x) (hn : ∀ x, g.next ≤ x → c'.canWrite x) : StratOk c' h s := by
  have o := n.ok
  have hnew : ∀ r ∈ s.writes, c'.canWrite r := fun r hm => hn r (n.new r hm)
  refine ⟨pool_rights o.pool hb hr (fun r hm => hnew r ?_) (canRead_write (hn _ n.price)), hnew _ ?_, hnew _ ?_, o.lt0, o.lt1, o.high0,
    o.high1, o.ne, o.off0, o.off1, fun r hm => ⟨(o.held r hm).1, ?_, (o.held r hm).2.2⟩, o.mult⟩
  · exact List.mem_cons_of_mem _ (List.mem_cons_of_mem _ hm)
  · exact List.mem_cons_self
  · exact List.mem_cons_of_mem _ List.mem_cons_self
  · rcases n.held r hm with h1 | h1
    · exact hr r h1
    · exact canRead_write (hn r h1)

theorem tri_lift_refines {α β : Type} {g : Go α} {y : Go β} {R : α → β → Prop} (r : Refines g y R) :
    Tri c (lift g) h y (fun a h' b => R a b ∧ h' = h) := by
  cases g with
  | error e => cases y with
    | error f => exact ⟨trivial, r⟩
    | ok b => exact r.elim
  | ok a => cases y with
    | error f => exact r.elim
    | ok b => exact ⟨trivial, r, rfl⟩

/-- Constructing an execution makes a strategy that shares nothing but the inputs. -/
theorem tri_make {x : PInputs} {p : HPool} (i : InputsOk c h x) (o : PoolOk c h p) (ht : p.ticks.refs = []) (j : Job)
    (hx : ∀ t ∈ x.transactions, ∀ r ∈ t.refs, c'.canRead r) (hb : c'.base ≤ h.next)
    (hr : ∀ x, x < constEnd → c'.canRead x) (hn : ∀ x, h.next ≤ x → c'.canWrite x) :
    Tri c (makeExecution j.kind x.amount0 x.amount1 p j.startTime j.endTime j.updateInterval j.snapShotInterval j.priceSnapshotInterval
        x.transactions) h
      (do
        let s ← Strat.new j.kind (x.view h).amount0 (x.view h).amount1 (p.view h)
        Execution.create s j.startTime j.endTime j.updateInterval j.snapShotInterval j.priceSnapshotInterval (x.view h).transactions)
      (fun e h' v => v = e.view h' ∧ ExecOk c' h' e ∧ Kept h h') := by
  unfold makeExecution
  refine (tri_newStrat o ht j.kind ⟨i.amount0.1, rfl, i.amount0.2, o.base⟩ ⟨i.amount1.1, rfl, i.amount1.2, o.base⟩).bind fun s h1 v n => ?_
  have k := n.kept
  obtain ⟨i1, e1⟩ := i.keep k
  rw [← e1, n.view]
  have os : StratOk c' h1 s := strat_rights n (le_trans hb k.le) hr hn
  refine (tri_lift_refines create_refines).mono fun e h2 v hv => ?_
  obtain ⟨⟨rfl, es, en, et⟩, rfl⟩ := hv
  refine ⟨rfl, ⟨es ▸ os, ?_, fun t ht r hm => ?_⟩, k⟩
  · rw [en]; intro r hm; cases hm
  · rw [et] at ht
    rw [es]
    exact ⟨(i1.trans t ht r hm).1, hx t ht r hm, fun hw => by have := n.new r hw; have := (i.trans t ht r hm).1; omega⟩

theorem tri_loads : ∀ {l : List Nat} {s : HStrat}, c.base ≤ h.next → Off c h s l →
    Tri c (loads l) h (.ok (l.map h.cell)) (fun v h' w => v = w ∧ h' = h)
  | [], _, _, _ => Tri.ret ⟨rfl, rfl⟩
  | x :: l, s, hb, o => by
    unfold loads
    have hx := o x List.mem_cons_self
    refine Tri.load_bind ⟨hx.1, rfl, hx.2.1, hb⟩ ?_
    refine (tri_loads hb fun r hr => o r (List.mem_cons_of_mem _ hr)).step fun v h' hv => ?_
    obtain ⟨rfl, rfl⟩ := hv
    exact Tri.ret ⟨rfl, rfl⟩

/-- A goroutine on memory, alone. -/
theorem tri_runExecution {e : HExec} (o : ExecOk c h e) (fuel : Nat) (mul dur upd : Int) :
    Tri c (runExecution fuel e mul dur upd) h (do let r ← (e.view h).run fuel; Main.report r.snapshots mul dur upd)
      (fun a _ b => a = b) := by
  unfold runExecution
  refine (tri_run o fuel).bind fun e' h1 v r => ?_
  rw [r.view]
  refine (tri_loads r.ok.ok.base r.ok.snaps).step fun l h2 hl => ?_
  obtain ⟨rfl, rfl⟩ := hl
  exact Tri.lift.mono fun a h' b hb => hb.1

end

theorem outcome_of {α : Type} {c : Rights} {m : HM α} {h : Heap} {y : Go α} (t : Tri c m h y (fun a _ b => a = b)) : outcome m h = y := by
  have r := t.2
  unfold outcome
  cases hm : m.run h with
  | error e => cases y with
    | error f => rw [hm] at r; exact congrArg Except.error r
    | ok b => rw [hm] at r; exact r.elim
  | ok a => cases y with
    | error f => rw [hm] at r; exact r.elim
    | ok b => rw [hm] at r; exact congrArg Except.ok r

/-- The programs of `main` are what the machine needs. -/
theorem setup {h h0 : Heap} (ld : Loaded h) {x : PInputs} (im : x.InMemory h) {pool : HPool}
    (hp : Ptr.newPool x.token0 x.token1 x.fee x.price h = .ok (pool, h0)) (q : Params) (hN : 1 ≤ q.N) :
    Setup q.N h.next h0.next h0 (q.make x pool) q.prog (q.alone (x.view h)) := by
  have hr : ∀ n, n < h.next → (readOnly h).canRead n := fun n hn => .inl hn
  have kc : Consts (readOnly h) h := consts_of ld (le_refl _) fun n hn => hr n (lt_of_lt_of_le hn ld.room)
  have t := tri_newPool kc x.token0 x.token1 x.fee (price := x.price) (v := (x.view h).price) ⟨im.price, rfl, hr _ im.price, le_refl _⟩
  obtain ⟨b, hb, n, hpr⟩ := t.2.inv_ok hp
  have hq : pool.ticks.refs = [] := by
    have e := (new_empty hb).1
    rw [n.view] at e
    have : pool.ticks.ticks = [] := List.map_eq_nil_iff.1 e
    unfold HTickData.refs
    rw [this]
    rfl
  have hLP : h.next ≤ h0.next := n.kept.le
  refine ⟨hN, hLP, rfl, fun mul g _ _ hg hsame => ?_⟩
  have kg : Kept h0 g := ⟨hg, hsame⟩
  have khg := n.kept.trans kg
  have hroom : constEnd ≤ h.next := ld.room
  have trans : ∀ t ∈ x.transactions, ∀ r ∈ t.refs, r < h.next := fun t ht r hm => by
    obtain ⟨h1, h2, h3, h4⟩ := im.transactions t ht
    simp only [HTrans.refs, List.mem_cons, List.not_mem_nil, or_false] at hm
    rcases hm with rfl | rfl | rfl | rfl <;> assumption
  -- the rights of the main goroutine
  have cr : ∀ r, r < h.next → (maker h.next h0.next g.next).canRead r := fun r hr => .inl (lt_of_lt_of_le hr hLP)
  have lt : ∀ {r}, r < h.next → r < g.next := fun hr => lt_of_lt_of_le hr khg.le
  have i : InputsOk (maker h.next h0.next g.next) g x :=
    ⟨⟨lt im.price, cr _ im.price⟩, ⟨lt im.amount0, cr _ im.amount0⟩, ⟨lt im.amount1, cr _ im.amount1⟩,
      fun t ht r hm => ⟨lt (trans t ht r hm), cr r (trans t ht r hm)⟩⟩
  have og : PoolOk (readOnly h) g pool := n.ok.step (kg.step pool)
  have o : PoolOk (maker h.next h0.next g.next) g pool :=
    pool_rights og (le_refl _) (fun r hr => cr r (lt_of_lt_of_le hr hroom))
      (fun r hm => .inl ⟨n.new r hm, n.ok.sep.safe.lt r hm⟩) (.inl n.ok.sep.priceLt)
  have hv : x.view g = x.view h := by
    unfold PInputs.view
    rw [khg.cell _ im.price, khg.cell _ im.amount0, khg.cell _ im.amount1,
      List.map_congr_left fun t ht => HTrans.view_of fun r hr => khg.cell r (trans t ht r hr)]
  have tm := tri_make (c' := mine h.next g.next) i o hq (q.job mul) (fun t ht r hm => .inl (trans t ht r hm)) (le_refl _)
    (fun r hr => .inl (lt_of_lt_of_le hr hroom)) (fun r hr => .inr hr)
  rw [hv, n.ok.sep.view_kept kg, ← n.view] at tm
  -- what the simulation does on values
  have ha : q.alone (x.view h) mul = (do
      let s ← Strat.new (q.job mul).kind (x.view h).amount0 (x.view h).amount1 b
      Execution.create s (q.job mul).startTime (q.job mul).endTime (q.job mul).updateInterval (q.job mul).snapShotInterval
        (q.job mul).priceSnapshotInterval (x.view h).transactions) >>= (fun e => do
      let r ← e.run q.fuel
      Main.report r.snapshots mul q.duration q.updateInterval) := by
    have hb' : Pool.new (x.view h).token0 (x.view h).token1 (x.view h).fee (x.view h).price = .ok b := hb
    unfold Params.alone
    rw [hb']
    show (q.job mul).onValues q.fuel (x.view h) b >>= _ = _
    unfold Job.onValues
    simp only [bind_assoc]
  refine ⟨tm.1, fun e h' he => ?_, fun e he => ?_⟩
  · obtain ⟨v, hv1, rfl, oe, k⟩ := tm.2.inv_ok he
    have tr := tri_runExecution oe q.fuel mul q.duration q.updateInterval
    refine ⟨fun y hy => (k.cell y (lt_of_lt_of_le hy hg)).trans (hsame y hy), tr.1, ?_⟩
    rw [ha, hv1]
    exact outcome_of tr
  · have := (tm.2.inv_error e).1 he
    rw [ha, this]
    rfl

/-! ### C78 -/

section
variable {h h0 : Heap} {x : PInputs} {pool : HPool} {q : Params}

/-- C78: in no state that the program can reach, whatever the scheduler does, two goroutines are about to access the same 256-bit number or
the same entry of the results, one of them to write it.  Every access to a single word is a step of its own. -/
theorem C78_no_race (ld : Loaded h) (im : x.InMemory h) (hp : Ptr.newPool x.token0 x.token1 x.fee x.price h = .ok (pool, h0))
    (hN : 1 ≤ q.N) {c : Cfg HExec Main.RunResult} (r : q.Reach x pool h0 c) (hc : c.crashed = none) : ¬ Race q.N c :=
  no_race (setup ld im hp q hN) r hc

/-- C78: when the results are saved, entry `i` is what simulation `i + 1` reports when it runs alone on values, with nothing shared. -/
theorem C78_results (ld : Loaded h) (im : x.InMemory h) (hp : Ptr.newPool x.token0 x.token1 x.fee x.price h = .ok (pool, h0))
    (hN : 1 ≤ q.N) {c : Cfg HExec Main.RunResult} (r : q.Reach x pool h0 c) (hc : c.crashed = none) (hs : c.pc = .saved) :
    ∃ rs, c.saved = some rs ∧ rs.length = q.N - 1 ∧
      ∀ i, i < q.N - 1 → ∃ v, q.alone (x.view h) (i + 1) = .ok v ∧ rs[i]? = some (some v) :=
  Conc.results (setup ld im hp q hN) r hc hs

/-- C78: the program panics only if one of the simulations, alone on values, fails in the same way; goroutines do not make each other
panic. -/
theorem C78_panic (ld : Loaded h) (im : x.InMemory h) (hp : Ptr.newPool x.token0 x.token1 x.fee x.price h = .ok (pool, h0))
    (hN : 1 ≤ q.N) {c : Cfg HExec Main.RunResult} (r : q.Reach x pool h0 c) {e : Err} (hc : c.crashed = some e) :
    ∃ mul, 1 ≤ mul ∧ mul < q.N ∧ q.alone (x.view h) mul = .error e :=
  (reach_inv (setup ld im hp q hN) r).2 e hc

/-- C78: whatever the scheduler does, the program does not run forever, and it does not stop before the results are saved. -/
theorem C78_ends (ld : Loaded h) (im : x.InMemory h) (hp : Ptr.newPool x.token0 x.token1 x.fee x.price h = .ok (pool, h0))
    (hN : 1 ≤ q.N) (hB : 1 ≤ q.B) :
    (¬ ∃ f : Nat → Cfg HExec Main.RunResult, f 0 = Conc.init q.N h0 ∧ ∀ n, q.Step x pool (f n) (f (n + 1))) ∧
    (∀ c, q.Reach x pool h0 c → c.crashed = none → c.pc ≠ .saved → ∃ c', q.Step x pool c c') :=
  ⟨fun ⟨f, h1, h2⟩ => no_infinite (setup ld im hp q hN) hB f h1 h2, fun _ r hc hs => progress (setup ld im hp q hN) r hc hs⟩

/-- C78: the inputs stay what they are at every moment, in every schedule. -/
theorem C78_inputs (ld : Loaded h) (im : x.InMemory h) (hp : Ptr.newPool x.token0 x.token1 x.fee x.price h = .ok (pool, h0))
    (hN : 1 ≤ q.N) {c : Cfg HExec Main.RunResult} (r : q.Reach x pool h0 c) (n : Nat) (hn : n < h.next) : c.heap.cell n = h.cell n := by
  have s := setup ld im hp q hN
  have hr : ∀ n, n < h.next → (readOnly h).canRead n := fun n hn => .inl hn
  have kc : Consts (readOnly h) h := consts_of ld (le_refl _) fun n hn => hr n (lt_of_lt_of_le hn ld.room)
  obtain ⟨b, hb, k, _⟩ := (tri_newPool kc x.token0 x.token1 x.fee (price := x.price) (v := (x.view h).price)
    ⟨im.price, rfl, hr _ im.price, le_refl _⟩).2.inv_ok hp
  exact (low s r n hn).trans (k.kept.cell n hn)

end

/-! ### A concrete program -/

namespace MainDemo

/-- Three simulations, two at a time. -/
def params : Params := ⟨4, 2, 10, 24 * 60 * 60, 100, fun mul => (RunsDemo.jobs[mul - 1]?).getD ⟨.noProvision, 150, 500, 100, 60, 1000⟩⟩

theorem pool : ∃ p h0, Ptr.newPool RunsDemo.inputs.token0 RunsDemo.inputs.token1 RunsDemo.inputs.fee RunsDemo.inputs.price RunsDemo.memory =
    .ok (p, h0) := by
  obtain ⟨es, h', e, _⟩ := RunsDemo.run
  unfold simulateMemory at e
  obtain ⟨p, h0, e1, _⟩ := bind_run e
  exact ⟨p, h0, e1⟩

/-- Every simulation returns alone. -/
theorem alone : ∀ mul, 1 ≤ mul → mul < params.N → ∃ v, params.alone (RunsDemo.inputs.view RunsDemo.memory) mul = .ok v := by
  intro mul h1 h2
  have h2 : mul < 4 := h2
  have hr := eq_getOk _ RunsDemo.returns
  unfold simulateValues at hr
  obtain ⟨p, hp, hr⟩ := Pool.bind_ok hr
  obtain ⟨_, hg⟩ := jobs_get hr
  have hj : RunsDemo.jobs[mul - 1]? = some (params.job mul) := by
    show _ = some ((RunsDemo.jobs[mul - 1]?).getD _)
    rw [List.getElem?_eq_getElem (show mul - 1 < RunsDemo.jobs.length by show mul - 1 < 3; omega)]
    rfl
  obtain ⟨e, _, he⟩ := hg (mul - 1) _ hj
  have he' := he
  unfold Job.onValues at he
  obtain ⟨s, _, he⟩ := Pool.bind_ok he
  obtain ⟨e0, _, he⟩ := Pool.bind_ok he
  obtain ⟨rep, _, _, hrep, _⟩ := C68_report 10 e0 e he mul params.duration params.updateInterval
  refine ⟨rep, ?_⟩
  unfold Params.alone
  rw [hp]
  show (params.job mul).onValues 10 _ p >>= _ = _
  rw [he']
  unfold Main.runAndReport at hrep
  rw [he] at hrep
  exact hrep

/-- The program reaches a state in which the three results are saved. -/
theorem reach : ∃ p h0 c rs, Ptr.newPool RunsDemo.inputs.token0 RunsDemo.inputs.token1 RunsDemo.inputs.fee RunsDemo.inputs.price
      RunsDemo.memory = .ok (p, h0) ∧ params.Reach RunsDemo.inputs p h0 c ∧ c.crashed = none ∧ c.pc = .saved ∧ c.saved = some rs ∧
    rs.length = 3 := by
  obtain ⟨p, h0, hp⟩ := pool
  have s := setup RunsDemo.loaded RunsDemo.inMemory hp params (by decide)
  obtain ⟨c, r, hc⟩ := finishes s (B := 2) (by decide) .init
  have hn : c.crashed = none := by
    cases he : c.crashed with
    | none => rfl
    | some e =>
      obtain ⟨mul, h1, h2, h3⟩ := (reach_inv s r).2 e he
      obtain ⟨v, hv⟩ := alone mul h1 h2
      rw [h3] at hv
      cases hv
  obtain ⟨rs, e1, e2, _⟩ := C78_results (q := params) RunsDemo.loaded RunsDemo.inMemory hp (by decide) r hn (hc hn)
  exact ⟨p, h0, c, rs, hp, r, hn, hc hn, e1, e2⟩

/-- A goroutine that is about to write number 0. -/
def writer (i : Nat) : Thread Nat := ⟨i, 1, .running (.wr 0 0 0#64 (.ret 0)), fun _ => U256.zero, 1⟩

/-- Two goroutines that write the same number are a race: the statement is not empty. -/
example : Race 3 (⟨.waiting, 3, 0, 2, ⟨fun _ => U256.zero, 1⟩, [writer 0, writer 1], [none, none], none, [], none⟩ : Cfg Nat Nat) :=
  ⟨some 0, some 1, .number 0, true, by decide, ⟨_, rfl, ⟨rfl, rfl⟩, by decide⟩, ⟨_, rfl, ⟨rfl, rfl⟩, by decide⟩⟩

end MainDemo

end Props
end Uni
