import Verif.Proofs.PtrExec
import Verif.Spec.PtrRuns
import Verif.Props.PtrWorld
/-! # C77: simulations that share their inputs -/
namespace Uni
namespace Props
open U256 Spec InPlace Ptr

/-! ### Helpers -/

section
variable {c : Rights} {h h' : Heap}

theorem consts_of (ld : Loaded h) (hb : c.base ≤ h.next) (hr : ∀ x, x < constEnd → c.canRead x) : Consts c h := by
  have e : constEnd = 1774561 := by decide
  have r := ld.room
  have at_ : ∀ x v, x < constEnd → h.cell x = v → At c h x v := fun x v hx hv => ⟨lt_of_lt_of_le hx r, hv, hr x hx, hb⟩
  have hl : ∀ r, r < 16 → r < constEnd := fun r hr => by omega
  exact ⟨at_ _ _ (hl _ (by decide)) ld.zero, at_ _ _ (hl _ (by decide)) ld.one, at_ _ _ (hl _ (by decide)) ld.maxUint256,
    at_ _ _ (hl _ (by decide)) ld.q128, at_ _ _ (hl _ (by decide)) ld.q96, at_ _ _ (hl _ (by decide)) ld.q192,
    at_ _ _ (hl _ (by decide)) ld.maxUint160, at_ _ _ (hl _ (by decide)) ld.maxFee, at_ _ _ (hl _ (by decide)) ld.minSqrtRatio,
    at_ _ _ (hl _ (by decide)) ld.maxSqrtRatio, fun i v hv => at_ _ _ (table_lt hv) (ld.table i v hv)⟩

/-- The inputs may be read. -/
structure InputsOk (c : Rights) (h : Heap) (x : PInputs) : Prop where
  price : x.price < h.next ∧ c.canRead x.price
  amount0 : x.amount0 < h.next ∧ c.canRead x.amount0
  amount1 : x.amount1 < h.next ∧ c.canRead x.amount1
  trans : ∀ t ∈ x.transactions, ∀ r ∈ t.refs, r < h.next ∧ c.canRead r

theorem InputsOk.keep {x : PInputs} (i : InputsOk c h x) (k : Kept h h') : InputsOk c h' x ∧ x.view h' = x.view h := by
  have lt : ∀ {n : Nat}, n < h.next → n < h'.next := fun hn => lt_of_lt_of_le hn k.le
  refine ⟨⟨⟨lt i.price.1, i.price.2⟩, ⟨lt i.amount0.1, i.amount0.2⟩, ⟨lt i.amount1.1, i.amount1.2⟩,
    fun t ht r hr => ⟨lt (i.trans t ht r hr).1, (i.trans t ht r hr).2⟩⟩, ?_⟩
  unfold PInputs.view
  rw [k.cell _ i.price.1, k.cell _ i.amount0.1, k.cell _ i.amount1.1,
    List.map_congr_left fun t ht => HTrans.view_of fun r hr => k.cell r (i.trans t ht r hr).1]

/-- The result of one simulation: nothing that existed has changed. -/
structure JobRel (c : Rights) (h : Heap) (e : HExec) (h' : Heap) (v : Execution) : Prop where
  view : v = e.view h'
  ok : ExecOk c h' e
  kept : Kept h h'

theorem tri_job (fuel : Nat) {x : PInputs} {p : HPool} (i : InputsOk c h x) (o : PoolOk c h p) (ht : p.ticks.refs = []) (j : Job) :
    Tri c (j.onMemory fuel x p) h (j.onValues fuel (x.view h) (p.view h)) (fun e h' v => JobRel c h e h' v) := by
  unfold Job.onMemory Job.onValues
  refine (tri_newStrat o ht j.kind ⟨i.amount0.1, rfl, i.amount0.2, o.base⟩ ⟨i.amount1.1, rfl, i.amount1.2, o.base⟩).bind fun s h1 v n => ?_
  have k := n.kept
  obtain ⟨i1, e1⟩ := i.keep k
  rw [← e1, n.view]
  refine Tri.refines_bind create_refines ?_
  rintro e _ ⟨rfl, es, en, et⟩
  have off : ∀ r, r < h.next → r ∉ s.writes := fun r hr hm => by have := n.new r hm; omega
  have oe : ExecOk c h1 e := by
    refine ⟨es ▸ n.ok, ?_, fun t ht r hr => ?_⟩
    · rw [en]; intro r hr; cases hr
    · rw [et] at ht
      rw [es]
      exact ⟨(i1.trans t ht r hr).1, (i1.trans t ht r hr).2, off r (i.trans t ht r hr).1⟩
  refine (tri_run oe fuel).mono fun e' h2 w r => ⟨r.view, r.ok, le_trans k.le r.step.le, fun y hy => ?_⟩
  rw [r.step.frame y (lt_of_lt_of_le hy k.le) (es ▸ off y hy), k.cell y hy]

theorem tri_jobs (fuel : Nat) {x : PInputs} {p : HPool} (ht : p.ticks.refs = []) : ∀ (js : List Job) {h : Heap}, InputsOk c h x →
    PoolOk c h p → Tri c (jobsOnMemory fuel x p js) h (jobsOnValues fuel (x.view h) (p.view h) js)
      (fun es h' vs => vs = es.map (HExec.view h') ∧ Kept h h' ∧ ∀ e ∈ es, ExecOk c h' e)
  | [], h, _, _ => Tri.ret ⟨rfl, Kept.refl _, by simp⟩
  | j :: js, h, i, o => by
    unfold jobsOnMemory jobsOnValues
    refine (tri_job fuel i o ht j).bind fun e h1 v r => ?_
    obtain ⟨i1, e1⟩ := i.keep r.kept
    rw [← e1, ← o.sep.view_kept r.kept]
    refine (tri_jobs fuel ht js i1 (o.step (r.kept.step p))).bind ?_
    rintro es h2 vs ⟨hv, k2, ho⟩
    obtain ⟨o2, v2⟩ := r.ok.keep k2
    refine Tri.ret ⟨?_, r.kept.trans k2, fun e' he' => ?_⟩
    · rw [List.map_cons, v2, ← r.view, hv]
    · rcases List.mem_cons.1 he' with rfl | he'
      · exact o2
      · exact ho e' he'

end

theorem tri_simulate {h : Heap} (ld : Loaded h) {x : PInputs} (im : x.InMemory h) (fuel : Nat) (js : List Job) :
    Tri (readOnly h) (simulateMemory fuel x js) h (simulateValues fuel (x.view h) js)
      (fun es h' vs => vs = es.map (HExec.view h') ∧ Kept h h' ∧ ∀ e ∈ es, ExecOk (readOnly h) h' e) := by
  have hr : ∀ n, n < h.next → (readOnly h).canRead n := fun n hn => .inl hn
  have i : InputsOk (readOnly h) h x := by
    refine ⟨⟨im.price, hr _ im.price⟩, ⟨im.amount0, hr _ im.amount0⟩, ⟨im.amount1, hr _ im.amount1⟩, fun t ht r hm => ?_⟩
    obtain ⟨h1, h2, h3, h4⟩ := im.transactions t ht
    have : r < h.next := by
      simp only [HTrans.refs, List.mem_cons, List.not_mem_nil, or_false] at hm
      rcases hm with rfl | rfl | rfl | rfl <;> assumption
    exact ⟨this, hr r this⟩
  have kc : Consts (readOnly h) h := consts_of ld (le_refl _) fun n hn => hr n (lt_of_lt_of_le hn ld.room)
  unfold simulateMemory simulateValues
  have t := tri_newPool kc x.token0 x.token1 x.fee (price := x.price) (v := (x.view h).price) ⟨im.price, rfl, hr _ im.price, le_refl _⟩
  refine (t.mono_run (S := fun q h' b => NewOk (readOnly h) h q h' b ∧ q.ticks.refs = []) fun q h' b _ hb n => ⟨n.1, ?_⟩).bind ?_
  · have e := (new_empty hb).1
    rw [n.1.view] at e
    have : q.ticks.ticks = [] := List.map_eq_nil_iff.1 e
    unfold HTickData.refs
    rw [this]
    rfl
  · rintro q h1 b ⟨n, hq⟩
    obtain ⟨i1, e1⟩ := i.keep n.kept
    rw [← e1, n.view]
    exact (tri_jobs fuel hq js i1 n.ok).mono fun es h2 vs ⟨a, b, c⟩ => ⟨a, n.kept.trans b, c⟩

/-! ### C77 -/

/-- C77: several simulations get pointers to the same pool, the same starting amounts and the same transactions, and everything they
do is done in place in memory.  They return if and only if the simulations on values return, where nothing is shared, with the same
final strategies, pools and recorded values, and fail in the same way otherwise. -/
theorem C77_agrees {h : Heap} (ld : Loaded h) {x : PInputs} (im : x.InMemory h) (fuel : Nat) (js : List Job) :
    (∀ es h', simulateMemory fuel x js h = .ok (es, h') → simulateValues fuel (x.view h) js = .ok (es.map (HExec.view h'))) ∧
    (∀ vs, simulateValues fuel (x.view h) js = .ok vs → ∃ es h', simulateMemory fuel x js h = .ok (es, h') ∧ es.map (HExec.view h') = vs) ∧
    (∀ e, simulateMemory fuel x js h = .error e ↔ simulateValues fuel (x.view h) js = .error e) := by
  have t := (tri_simulate ld im fuel js).2
  refine ⟨?_, ?_, fun e => t.inv_error e⟩
  · intro es h' hr
    obtain ⟨v, h1, rfl, _⟩ := t.inv_ok hr
    exact h1
  · intro v hv
    obtain ⟨⟨es, h'⟩, h1, rfl, _⟩ := t.inv_ok' hv
    exact ⟨es, h', h1, rfl⟩

/-- C77: the simulations write to no number that existed before, up to the end or to a panic: the transactions, the starting
amounts, the price, the package-level numbers and the table of prices stay what they are. -/
theorem C77_inputs {h : Heap} (ld : Loaded h) {x : PInputs} (im : x.InMemory h) (fuel : Nat) (js : List Job) :
    (simulateMemory fuel x js).Keeps (readOnly h) h ∧
    ∀ es h', simulateMemory fuel x js h = .ok (es, h') → (∀ n, n < h.next → h'.cell n = h.cell n) ∧ x.view h' = x.view h := by
  have t := tri_simulate ld im fuel js
  refine ⟨t.1, fun es h' hr => ?_⟩
  have fr : ∀ n, n < h.next → h'.cell n = h.cell n := fun n hn => keeps_frame _ t.1 hr n hn fun hw => by
    rcases hw with h1 | h1
    · exact h1
    · exact absurd hn (not_lt.2 h1)
  refine ⟨fr, ?_⟩
  unfold PInputs.view
  rw [fr _ im.price, fr _ im.amount0, fr _ im.amount1, List.map_congr_left fun t ht => HTrans.view_of fun r hr => ?_]
  obtain ⟨h1, h2, h3, h4⟩ := im.transactions t ht
  simp only [HTrans.refs, List.mem_cons, List.not_mem_nil, or_false] at hr
  rcases hr with rfl | rfl | rfl | rfl <;> exact fr _ (by assumption)

theorem jobs_get {fuel : Nat} {x : VInputs} {p : Pool} : ∀ {js : List Job} {vs : List Execution}, jobsOnValues fuel x p js = .ok vs →
    vs.length = js.length ∧ ∀ (i : Nat) (j : Job), js[i]? = some j → ∃ v, vs[i]? = some v ∧ j.onValues fuel x p = .ok v
  | [], vs, hr => by cases hr; exact ⟨rfl, by simp⟩
  | j :: js, vs, hr => by
    obtain ⟨v, h1, hr⟩ := Pool.bind_ok hr
    obtain ⟨ws, h2, hr⟩ := Pool.bind_ok hr
    cases hr
    obtain ⟨h3, h4⟩ := jobs_get h2
    refine ⟨by rw [List.length_cons, List.length_cons, h3], fun i j' hj => ?_⟩
    cases i with
    | zero => obtain rfl := Option.some.inj hj; exact ⟨v, rfl, h1⟩
    | succ i => exact h4 i j' hj

/-- C77: a simulation does not notice the others: if a list of simulations returns, each of them, run alone from the same memory,
returns the same final strategy and pool and the same recorded values. -/
theorem C77_alone {h : Heap} (ld : Loaded h) {x : PInputs} (im : x.InMemory h) (fuel : Nat) (js : List Job) {es : List HExec} {h' : Heap}
    (hr : simulateMemory fuel x js h = .ok (es, h')) {i : Nat} {j : Job} (hj : js[i]? = some j) :
    ∃ e e' h'', es[i]? = some e ∧ simulateMemory fuel x [j] h = .ok ([e'], h'') ∧ e'.view h'' = e.view h' := by
  have hv := (C77_agrees ld im fuel js).1 es h' hr
  obtain ⟨p, hp, hv⟩ := Pool.bind_ok hv
  obtain ⟨_, hg⟩ := jobs_get hv
  obtain ⟨v, hi, hjv⟩ := hg i j hj
  rw [List.getElem?_map] at hi
  obtain ⟨e, he, rfl⟩ := Option.map_eq_some_iff.1 hi
  have h1 : simulateValues fuel (x.view h) [j] = .ok [e.view h'] := by
    unfold simulateValues
    rw [hp]
    show jobsOnValues fuel _ p [j] = _
    unfold jobsOnValues
    rw [hjv]
    rfl
  obtain ⟨es', h'', hm, hes⟩ := (C77_agrees ld im fuel [j]).2.1 _ h1
  obtain ⟨e', rfl⟩ : ∃ e', es' = [e'] := by
    have hl : es'.length = 1 := by rw [← List.length_map (f := HExec.view h''), hes]; rfl
    exact List.length_eq_one_iff.1 hl
  exact ⟨e, e', h'', he, hm, (List.cons.inj hes).1⟩

/-! ### A concrete batch -/

namespace RunsDemo

/-- The constants, the table, a price, two starting amounts and two amounts of transactions. -/
def memory : Heap :=
  ⟨fun n => if n = constEnd then ofNat (2 ^ 96) else if n = constEnd + 1 then ofNat 1000000 else if n = constEnd + 2 then ofNat 2000000
    else if n = constEnd + 3 then ofNat 50000000 else if n = constEnd + 4 then ofNat 100000 else PtrDemo.memory.cell n, constEnd + 5⟩

theorem below {n : Nat} (hn : n < constEnd) : memory.cell n = PtrDemo.memory.cell n := by
  unfold memory
  dsimp only
  rw [if_neg (by omega), if_neg (by omega), if_neg (by omega), if_neg (by omega), if_neg (by omega)]

theorem loaded : Loaded memory := by
  have e : constEnd = 1774561 := by decide
  have l := PtrDemo.loaded
  have hl : ∀ {n}, n < 16 → memory.cell n = PtrDemo.memory.cell n := fun hn => below (by omega)
  exact ⟨Nat.le_add_right _ _, (hl (by decide)).trans l.zero, (hl (by decide)).trans l.one,
    (hl (by decide)).trans l.maxUint256, (hl (by decide)).trans l.q128, (hl (by decide)).trans l.q96,
    (hl (by decide)).trans l.q192, (hl (by decide)).trans l.maxUint160, (hl (by decide)).trans l.maxFee,
    (hl (by decide)).trans l.minSqrtRatio, (hl (by decide)).trans l.maxSqrtRatio,
    fun i v hv => (below (table_lt hv)).trans (l.table i v hv)⟩

/-- Transactions that share their numbers. -/
def tx (type : String) (time : Int) (a1 : Nat) : HTrans :=
  ⟨type, constEnd + 3, zeroAt, a1, "", constEnd, 0, -600, 600, time, false⟩

def inputs : PInputs :=
  ⟨"WETH", "USDC", 3000, constEnd, constEnd + 1, constEnd + 2,
    [tx "Mint" 100 zeroAt, tx "Swap" 200 (constEnd + 4), tx "Collect" 300 zeroAt, tx "Burn" 1000 zeroAt]⟩

theorem inMemory : inputs.InMemory memory := by
  refine ⟨by decide, by decide, by decide, by decide⟩

/-- A strategy that refills its positions, one with bands around an average, and one that only holds. -/
def jobs : List Job :=
  [⟨.fillUp 120, 150, 500, 100, 60, 1000⟩, ⟨.bollingerFillUp 3 20, 150, 500, 100, 60, 20⟩, ⟨.noProvision, 150, 500, 100, 60, 1000⟩]

theorem returns : isOk (simulateValues 10 (inputs.view memory) jobs) = true := by decide +kernel

/-- The three simulations return on memory, and the strategies have recorded values. -/
theorem run : ∃ es h', simulateMemory 10 inputs jobs memory = .ok (es, h') ∧ es.length = 3 ∧
    es.map (fun e => e.snapshots.map h'.cell) = (getOk _ returns).map Execution.snapshots := by
  obtain ⟨es, h', e, hv⟩ := (C77_agrees loaded inMemory 10 jobs).2.1 _ (eq_getOk _ returns)
  refine ⟨es, h', e, ?_, ?_⟩
  · rw [show es.length = (es.map (HExec.view h')).length from (List.length_map _).symm, hv]
    decide +kernel
  · rw [← hv, List.map_map]
    rfl

end RunsDemo

end Props
end Uni
