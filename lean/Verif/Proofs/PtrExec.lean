import Verif.Proofs.PtrOpen
/-! # The executor on memory -/
namespace Uni
open InPlace Ptr U256

section
variable {c : Rights} {h h' : Heap} {s s' : HStrat}

/-- Numbers that are readable and not among those the strategy changes. -/
def Off (c : Rights) (h : Heap) (s : HStrat) (l : List Nat) : Prop := ∀ x ∈ l, x < h.next ∧ c.canRead x ∧ x ∉ s.writes

theorem Off.step {l : List Nat} (o : Off c h s l) (k : SStep h s h' s') : Off c h' s' l := fun x hx =>
  ⟨lt_of_lt_of_le (o x hx).1 k.le, (o x hx).2.1, k.not_mem (o x hx).1 (o x hx).2.2⟩

theorem Off.cell {l : List Nat} (o : Off c h s l) (k : SStep h s h' s') {x : Nat} (hx : x ∈ l) : h'.cell x = h.cell x :=
  k.frame x (o x hx).1 (o x hx).2.2

theorem Off.map {l : List Nat} (o : Off c h s l) (k : SStep h s h' s') : l.map h'.cell = l.map h.cell :=
  List.map_congr_left fun _ hx => o.cell k hx

theorem Off.at_ {l : List Nat} (o : Off c h s l) (hb : c.base ≤ h.next) {x : Nat} (hx : x ∈ l) : At c h x (h.cell x) :=
  ⟨(o x hx).1, rfl, (o x hx).2.1, hb⟩

/-- The numbers of a transaction. -/
def Ptr.HTrans.refs (t : HTrans) : List Nat := [t.amount, t.amount0, t.amount1, t.sqrtPrice]

theorem HTrans.view_of {t : HTrans} (e : ∀ x ∈ t.refs, h'.cell x = h.cell x) : t.view h' = t.view h := by
  unfold HTrans.view
  rw [e t.amount (by simp [HTrans.refs]), e t.amount0 (by simp [HTrans.refs]), e t.amount1 (by simp [HTrans.refs]),
    e t.sqrtPrice (by simp [HTrans.refs])]

theorem tri_usd {amounts : Nat × Nat} {price : Nat} {v : U256 × U256} {vp : U256} (kc : Consts c h) (a0 : At c h amounts.1 v.1)
    (a1 : At c h amounts.2 v.2) (ap : At c h price vp) :
    Tri c (Ptr.usd amounts price) h (Execution.usd v vp) (fun r h' v => Fresh c h r h' v) := by
  unfold Ptr.usd Execution.usd
  refine (mk_mul ap ap).fresh1 fun x h1 k1 ax _ => ?_
  refine (tri_mulDiv (a1.keep k1) (kc.keep k1).q192 ax).fresh fun y h2 vy k2 ay _ => ?_
  have k := k1.trans k2
  exact (mk_add ay (a0.keep k)).tail k

/-! ### Constructors -/

theorem Tri.value {α β γ : Type} {m : HM α} {v : β} {w : γ} {R : α → Heap → β → Prop} {S : α → Heap → γ → Prop} (t : Tri c m h (.ok v) R)
    (hs : ∀ a h', R a h' v → S a h' w) : Tri c m h (.ok w) S := by
  obtain ⟨k, r⟩ := t
  refine ⟨k, ?_⟩
  cases hm : m h with
  | error e => rw [hm] at r; exact r.elim
  | ok a => rw [hm] at r; exact hs _ _ r

theorem tri_newHistory (hb : c.base ≤ h.next) (kind : Kind) :
    Tri c (Ptr.newHistory kind) h (Strat.newHistory kind) (fun p h' v => HistOk h [] p h' v) := by
  cases kind <;> first | exact tri_newPrices hb _ | exact Tri.ret ⟨rfl, Kept.refl _, by simp⟩

theorem tri_newMultiplier (kc : Consts c h) (hb : c.base ≤ h.next) (kind : Kind) :
    Tri c (Ptr.newMultiplier kind) h (.ok ()) (fun x h' _ => Kept h h' ∧ x < h'.next ∧ c.canRead x ∧ (x < constEnd ∨ h.next ≤ x) ∧
      ∀ m, multiplierOf kind = some m → h'.cell x = ofWord (BitVec.ofInt 64 m)) := by
  have mk : ∀ m : Int, Tri c (new (ofWord (BitVec.ofInt 64 m))) h (.ok ()) (fun x h' _ => Kept h h' ∧ x < h'.next ∧ c.canRead x ∧
      (x < constEnd ∨ h.next ≤ x) ∧ h'.cell x = ofWord (BitVec.ofInt 64 m)) := fun m =>
    (tri_new hb (ofWord (BitVec.ofInt 64 m))).value fun x h' f => ⟨f.kept, f.at_.lt, f.at_.can, .inr f.new, f.at_.val⟩
  have no : ∀ k, multiplierOf k = none → Tri c (pure zeroAt : HM Nat) h (.ok ()) (fun x h' _ => Kept h h' ∧ x < h'.next ∧ c.canRead x ∧
      (x < constEnd ∨ h.next ≤ x) ∧ ∀ m, multiplierOf k = some m → h'.cell x = ofWord (BitVec.ofInt 64 m)) := fun k hk =>
    Tri.ret ⟨Kept.refl _, kc.zero.lt, kc.zero.can, .inl (by decide), fun m hm => by rw [hk] at hm; cases hm⟩
  cases kind <;> first
    | exact no _ rfl
    | exact (mk _).mono fun x h' _ ⟨k1, k2, k3, k4, k5⟩ => ⟨k1, k2, k3, k4, fun m hm => by cases hm; exact k5⟩

/-- A new strategy. -/
structure NewStrat (c : Rights) (h : Heap) (s : HStrat) (h' : Heap) (v : Strat) : Prop where
  view : v = s.view h'
  ok : StratOk c h' s
  kept : Kept h h'
  new : ∀ r ∈ s.writes, h.next ≤ r
  price : h.next ≤ s.pool.price
  held : ∀ r ∈ s.held, r < constEnd ∨ h.next ≤ r

theorem tri_newStrat {p : HPool} (o : PoolOk c h p) (ht : p.ticks.refs = []) (kind : Kind) {x0 x1 : Nat} {v0 v1 : U256} (a0 : At c h x0 v0)
    (a1 : At c h x1 v1) :
    Tri c (Ptr.newStrat kind x0 x1 p) h (Strat.new kind v0 v1 (p.view h)) (fun s h' v => NewStrat c h s h' v) := by
  unfold Ptr.newStrat Strat.new
  refine (tri_newHistory o.base kind).bind fun hist h1 vh kh => ?_
  have k1 := kh.kept
  refine (tri_newMultiplier (o.consts.keep k1) (le_trans o.base k1.le) kind).step ?_
  rintro m h2 ⟨k2, mlt, mcan, mnew, mval⟩
  have k12 := k1.trans k2
  refine (tri_clone (a0.keep k12)).fresh1 fun y0 h3 k3 b0 l0 => ?_
  have k13 := k12.trans k3
  refine (tri_clone (a1.keep k13)).fresh1 fun y1 h4 k4 b1 l1 => ?_
  have k := k13.trans k4
  have o4 : PoolOk c h4 p := o.step (k.step p)
  have t := tri_clonePool o4 ht
  rw [o.sep.view_kept k] at t
  refine t.step ?_
  rintro q h5 ⟨kq, lq, _⟩
  have k5 := kq.kept
  have e1 := k1.le
  have e2 := k2.le
  have e3 := k3.le
  have e4 := k4.le
  have e5 := k5.le
  have t0 := b0.lt
  have t1 := b1.lt
  have hc := o.consts.le
  have hb := o.base
  have wr : ∀ r ∈ y0 :: y1 :: q.writes, h2.next ≤ r := by
    intro r hr
    rcases List.mem_cons.1 hr with rfl | hr
    · exact l0
    rcases List.mem_cons.1 hr with rfl | hr
    · omega
    · have := kq.new r hr; omega
  have off : ∀ x, x < h4.next → x ∉ q.price :: q.writes := by
    intro x hx hm
    rcases List.mem_cons.1 hm with h1 | h1
    · omega
    · have := kq.new x h1; omega
  refine Tri.ret ⟨?_, ⟨kq.ok, .inr (by dsimp only; omega), .inr (by dsimp only; omega), by dsimp only; omega, by dsimp only; omega,
    by dsimp only; omega, by dsimp only; omega, by dsimp only; omega, off y0 (by omega), off y1 (by omega), fun x hx => ?_,
    fun n hn => ?_⟩, k.trans k5, fun r hr => by have := wr r hr; omega, by dsimp only; omega, fun x hx => ?_⟩
  · unfold HStrat.view
    dsimp only
    have c0 : h5.cell y0 = v0 := by rw [k5.cell _ (by omega), k4.cell _ t0, b0.val]
    have c1 : h5.cell y1 = v1 := by rw [k5.cell _ t1, b1.val]
    have hh : hist.view h5 = hist.view h1 := by
      unfold HPrices.view
      rw [List.map_congr_left fun x hx => ?_]
      rcases kh.mem x hx with h1 | h1
      · cases h1
      · exact ((k2.trans k3).trans (k4.trans k5)).cell x h1.2
    rw [c0, c1, kq.view, kh.view, hh]
    rfl
  · have lt2 : x < h2.next ∧ c.canRead x := by
      rcases List.mem_cons.1 hx with rfl | hx
      · exact ⟨mlt, mcan⟩
      · rcases kh.mem x hx with h1 | ⟨h1, h2⟩
        · cases h1
        · exact ⟨by omega, canRead_of_write (.inr (by omega))⟩
    exact ⟨by omega, lt2.2, fun hm => by have := wr x hm; omega⟩
  · exact (((k3.trans k4).trans k5).cell m mlt).trans (mval n hn)
  · rcases List.mem_cons.1 hx with rfl | hx
    · rcases mnew with h1 | h1
      · exact .inl h1
      · exact .inr (le_trans e1 h1)
    · rcases kh.mem x hx with h1 | ⟨h1, h2⟩
      · cases h1
      · exact .inr h1

/-! ### Transactions -/

theorem tri_applySwap {p : HPool} (o : PoolOk c h p) (fuel : Nat) {t : HTrans} {v : Pool} (hv : v = p.view h)
    (a0 : At c h t.amount0 (h.cell t.amount0)) (a1 : At c h t.amount1 (h.cell t.amount1)) (n0 : t.amount0 ∉ p.writes)
    (n1 : t.amount1 ∉ p.writes) :
    Tri c (Ptr.applySwap fuel t p) h (
      if (h.cell t.amount0).sign > 0 then do
        let r ← v.exactInputSwap fuel (h.cell t.amount0) v.token0 zero
        return r.2.2
      else if (h.cell t.amount1).sign > 0 then do
        let r ← v.exactInputSwap fuel (h.cell t.amount1) v.token1 zero
        return r.2.2
      else .ok v) (fun q h' b => b = q.view h' ∧ StepOk h p h' q) := by
  subst hv
  unfold Ptr.applySwap
  refine Tri.load_bind a0 (Tri.ite (fun _ => ?_) fun _ => Tri.load_bind a1 (Tri.ite (fun _ => ?_) fun _ => Tri.ret ⟨rfl, StepOk.refl _ _⟩))
  · exact (tri_exactInputSwap o fuel p.token0 a0 o.consts.zero n0).bind fun r h1 b k => Tri.ret ⟨k.pool, k.step⟩
  · exact (tri_exactInputSwap o fuel p.token1 a1 o.consts.zero n1).bind fun r h1 b k => Tri.ret ⟨k.pool, k.step⟩

theorem tri_applyTo (ok : StratOk c h s) (fuel : Nat) {t : HTrans} (ot : Off c h s t.refs) :
    Tri c (Ptr.applyTo fuel t s.pool) h ((t.view h).apply fuel (s.view h).pool) (fun q h' b => b = q.view h' ∧ StepOk h s.pool h' q) := by
  unfold Ptr.applyTo Transaction.apply
  have np : ∀ x ∈ t.refs, x ∉ s.pool.writes := fun x hx hm => (ot x hx).2.2 (List.mem_cons_of_mem _ (List.mem_cons_of_mem _ hm))
  have m : t.amount ∈ t.refs := by simp [HTrans.refs]
  have m0 : t.amount0 ∈ t.refs := by simp [HTrans.refs]
  have m1 : t.amount1 ∈ t.refs := by simp [HTrans.refs]
  have a := ot.at_ ok.base m
  have a0 := ot.at_ ok.base m0
  have a1 := ot.at_ ok.base m1
  refine Tri.ite (fun _ => tri_mint ok.pool _ _ a (np _ m)) fun _ => Tri.ite (fun _ => tri_burn ok.pool _ _ a) fun _ =>
    Tri.ite (fun _ => tri_applySwap ok.pool fuel rfl a0 a1 (np _ m0) (np _ m1)) fun _ =>
    Tri.ite (fun _ => tri_flash ok.pool a0 a1) fun _ => Tri.ret ⟨rfl, StepOk.refl _ _⟩

/-! ### `Run` -/

/-- The outcome of a part of `Run`. -/
structure RunRel (c : Rights) (h : Heap) (st st' : HRun) (h' : Heap) (v : RunState) : Prop where
  view : v = st'.view h'
  ok : StratOk c h' st'.strategy
  snaps : Off c h' st'.strategy st'.snapshots
  step : SStep h st.strategy h' st'.strategy

theorem RunRel.trans {h'' : Heap} {st st' st'' : HRun} {v w : RunState} (a : RunRel c h st st' h' v) (b : RunRel c h' st' st'' h'' w) :
    RunRel c h st st'' h'' w := ⟨b.view, b.ok, b.snaps, a.step.trans b.step⟩

variable {st : HRun}

theorem RunRel.refl (ok : StratOk c h st.strategy) (os : Off c h st.strategy st.snapshots) : RunRel c h st st h (st.view h) :=
  ⟨rfl, ok, os, (StratRel.refl ok).step⟩

/-- a new number is off the strategy -/
theorem Off.snoc {l : List Nat} (o : Off c h s l) {x : Nat} (hx : x < h.next) (hr : c.canRead x) (hn : x ∉ s.writes) : Off c h s (l ++ [x]) := by
  intro y hy
  rcases List.mem_append.1 hy with h1 | h1
  · exact o y h1
  · rw [List.mem_singleton.1 h1]; exact ⟨hx, hr, hn⟩

/-- the strategy has made a step and a value was recorded -/
theorem record {st' : HRun} {h1 h2 : Heap} {s1 : HStrat} {v1 : Strat} {x : Nat} {vx : U256} (os : Off c h st.strategy st.snapshots)
    (r : StratRel c h st.strategy s1 h1 v1) (f : Fresh c h1 x h2 vx) (e1 : st'.strategy = s1) (e2 : st'.snapshots = st.snapshots ++ [x]) {w : RunState}
    (ew : w = ⟨v1, st'.started, st'.nextUpdate, st'.nextSnapshot, st'.nextPrice, (st.view h).snapshots ++ [vx]⟩) :
    RunRel c h st st' h2 w := by
  have r2 := r.ok.keep f.kept
  have sst := r.step.trans r2.step
  refine ⟨?_, e1 ▸ r2.ok, ?_, e1 ▸ sst⟩
  · rw [ew]
    unfold HRun.view
    rw [e1, e2, List.map_append, os.map sst, ← r2.view, ← r.view]
    dsimp only [List.map]
    rw [f.at_.val]
  · rw [e1, e2]
    exact (os.step sst).snoc f.at_.lt f.at_.can (r.ok.fresh f.new)

theorem tri_startIf (e : HExec) {h0 : Heap} (fuel : Nat) (t : HTrans) (ok : StratOk c h st.strategy) (os : Off c h st.strategy st.snapshots) :
    Tri c (Ptr.startIf e fuel t st) h ((e.view h0).startIf fuel (t.view h0) (st.view h)) (fun st' h' v => RunRel c h st st' h' v) := by
  unfold Ptr.startIf Execution.startIf
  refine Tri.ite (fun _ => ?_) fun _ => Tri.ret (RunRel.refl ok os)
  refine (tri_init ok fuel).bind fun r h1 v k => ?_
  have ep : v.2.pool.price = h1.cell r.2.pool.price := by rw [k.rel.view]; rfl
  rw [ep]
  refine (tri_usd k.rel.ok.consts k.fst k.snd k.rel.ok.price).bind fun x h2 vx f => Tri.ret ?_
  exact record os k.rel f rfl rfl rfl

theorem tri_priceIf (e : HExec) {h0 : Heap} (t : HTrans) (ok : StratOk c h st.strategy) (os : Off c h st.strategy st.snapshots) :
    Tri c (Ptr.priceIf e t st) h ((e.view h0).priceIf (t.view h0) (st.view h)) (fun st' h' v => RunRel c h st st' h' v) := by
  unfold Ptr.priceIf Execution.priceIf
  refine Tri.ite (fun _ => ?_) fun _ => Tri.ret (RunRel.refl ok os)
  refine (tri_makeSnapshot ok).bind fun s1 h1 v r => Tri.ret ⟨?_, r.ok, os.step r.step, r.step⟩
  rw [r.view]
  unfold HRun.view
  dsimp only
  rw [os.map r.step]
  rfl

theorem tri_valueIf (e : HExec) {h0 : Heap} (t : HTrans) (ok : StratOk c h st.strategy) (os : Off c h st.strategy st.snapshots) :
    Tri c (Ptr.valueIf e t st) h ((e.view h0).valueIf (t.view h0) (st.view h)) (fun st' h' v => RunRel c h st st' h' v) := by
  unfold Ptr.valueIf Execution.valueIf
  refine Tri.ite (fun _ => ?_) fun _ => Tri.ret (RunRel.refl ok os)
  refine (tri_getAmounts ok).bind fun r h1 v k => ?_
  have r1 := ok.keep k.kept
  have ep : (st.view h).strategy.pool.price = h1.cell st.strategy.pool.price := (k.kept.cell _ ok.price.lt).symm
  rw [ep]
  refine (tri_usd r1.ok.consts k.fst k.snd r1.ok.price).bind fun x h2 vx f => Tri.ret ?_
  exact record (st' := { st with snapshots := st.snapshots ++ [x], nextSnapshot := addInt st.nextSnapshot e.snapShotInterval })
    os r1 f rfl rfl rfl

theorem tri_rebalanceIf (e : HExec) {h0 : Heap} (fuel : Nat) (t : HTrans) (ok : StratOk c h st.strategy) (os : Off c h st.strategy st.snapshots) :
    Tri c (Ptr.rebalanceIf e fuel t st) h ((e.view h0).rebalanceIf fuel (t.view h0) (st.view h)) (fun st' h' v => RunRel c h st st' h' v) := by
  unfold Ptr.rebalanceIf Execution.rebalanceIf
  refine Tri.ite (fun _ => ?_) fun _ => Tri.ret (RunRel.refl ok os)
  refine (tri_rebalance ok fuel).bind fun a h1 v r => Tri.ret ⟨?_, r.ok, os.step r.step, r.step⟩
  rw [r.view]
  unfold HRun.view
  dsimp only
  rw [os.map r.step]
  rfl

theorem tri_applyTrans (fuel : Nat) {t : HTrans} (ok : StratOk c h st.strategy) (os : Off c h st.strategy st.snapshots)
    (ot : Off c h st.strategy t.refs) :
    Tri c (Ptr.applyTrans fuel t st) h (Execution.applyTrans fuel (t.view h) (st.view h)) (fun st' h' v => RunRel c h st st' h' v) := by
  unfold Ptr.applyTrans Execution.applyTrans
  refine (tri_applyTo ok fuel ot).bind ?_
  rintro q h1 b ⟨eb, k⟩
  have r := ok.poolStep k
  refine Tri.ret ⟨?_, r.ok, os.step r.step, r.step⟩
  unfold HRun.view
  dsimp only
  rw [os.map r.step, ← r.view, eb]

/-- continue with the variables of `Run` -/
theorem Tri.run_ {m : HM HRun} {y : Go RunState} (t : Tri c m h y (fun st' h' v => RunRel c h st st' h' v)) {f : HRun → HM HRun}
    {g : RunState → Go RunState} (hf : ∀ st' h', RunRel c h st st' h' (st'.view h') →
      Tri c (f st') h' (g (st'.view h')) (fun st'' h'' v => RunRel c h' st' st'' h'' v)) :
    Tri c (m >>= f) h (y >>= g) (fun st' h' v => RunRel c h st st' h' v) :=
  t.bind fun s' h' v r => by
    have e := r.view
    rw [e] at r ⊢
    exact (hf s' h' r).mono fun s'' h'' v' r' => r.trans r'

theorem tri_step (e : HExec) {h0 : Heap} (fuel : Nat) {t : HTrans} (ok : StratOk c h st.strategy) (os : Off c h st.strategy st.snapshots)
    (ot : Off c h st.strategy t.refs) :
    Tri c (Ptr.step e fuel t st) h ((e.view h0).step fuel (t.view h) (st.view h)) (fun st' h' v => RunRel c h st st' h' v) := by
  unfold Ptr.step Execution.step
  refine (tri_startIf e fuel t ok os).run_ fun s1 h1 r1 => ?_
  refine (tri_priceIf e t r1.ok r1.snaps).run_ fun s2 h2 r2 => ?_
  refine (tri_valueIf e t r2.ok r2.snaps).run_ fun s3 h3 r3 => ?_
  refine (tri_rebalanceIf e fuel t r3.ok r3.snaps).run_ fun s4 h4 r4 => ?_
  have sst := ((r1.step.trans r2.step).trans r3.step).trans r4.step
  rw [← HTrans.view_of fun x hx => ot.cell sst hx]
  exact tri_applyTrans fuel r4.ok r4.snaps (ot.step sst)

theorem tri_loop (e : HExec) {h0 : Heap} (fuel : Nat) : ∀ (ts : List HTrans) {h : Heap} {st : HRun}, StratOk c h st.strategy →
    Off c h st.strategy st.snapshots → (∀ t ∈ ts, Off c h st.strategy t.refs) →
    Tri c (Ptr.loop e fuel ts st) h ((e.view h0).loop fuel (ts.map (HTrans.view h)) (st.view h)) (fun st' h' v => RunRel c h st st' h' v)
  | [], h, st, ok, os, _ => Tri.ret (RunRel.refl ok os)
  | t :: ts, h, st, ok, os, ot => by
    unfold Ptr.loop
    rw [List.map_cons]
    unfold Execution.loop
    refine Tri.ite (fun _ => Tri.ret (RunRel.refl ok os)) fun _ => ?_
    refine (tri_step e fuel ok os (ot t List.mem_cons_self)).run_ fun s1 h1 r1 => ?_
    have em : ts.map (HTrans.view h) = ts.map (HTrans.view h1) := List.map_congr_left fun t ht =>
      (HTrans.view_of fun x hx => (ot t (List.mem_cons_of_mem _ ht)).cell r1.step hx).symm
    rw [em]
    exact tri_loop e fuel ts r1.ok r1.snaps fun t ht => (ot t (List.mem_cons_of_mem _ ht)).step r1.step

/-- An execution whose numbers are in order. -/
structure ExecOk (c : Rights) (h : Heap) (e : HExec) : Prop where
  ok : StratOk c h e.strategy
  snaps : Off c h e.strategy e.snapshots
  trans : ∀ t ∈ e.transactions, Off c h e.strategy t.refs

/-- numbers were added -/
theorem ExecOk.keep {e : HExec} (o : ExecOk c h e) (k : Kept h h') : ExecOk c h' e ∧ e.view h' = e.view h := by
  have r := o.ok.keep k
  refine ⟨⟨r.ok, o.snaps.step r.step, fun t ht => (o.trans t ht).step r.step⟩, ?_⟩
  unfold HExec.view
  rw [← r.view, o.snaps.map r.step, List.map_congr_left fun t ht => HTrans.view_of fun x hx => (o.trans t ht).cell r.step hx]

/-- The outcome of `Run`. -/
structure Ran (c : Rights) (h : Heap) (e e' : HExec) (h' : Heap) (v : Execution) : Prop where
  view : v = e'.view h'
  ok : ExecOk c h' e'
  step : SStep h e.strategy h' e'.strategy

theorem tri_run {e : HExec} (o : ExecOk c h e) (fuel : Nat) :
    Tri c (Ptr.run e fuel) h ((e.view h).run fuel) (fun e' h' v => Ran c h e e' h' v) := by
  unfold Ptr.run Execution.run
  have t := tri_loop (h0 := h) e fuel e.transactions (st := Ptr.initial e) o.ok o.snaps o.trans
  refine t.bind fun st h1 v r => ?_
  rw [r.view]
  refine (tri_burnAll r.ok).bind ?_
  rintro b h2 vb ⟨rb, b0, b1, _⟩
  have ep : vb.2.pool.price = h2.cell b.2.pool.price := by rw [rb.view]; rfl
  rw [ep]
  refine (tri_usd rb.ok.consts b0 b1 rb.ok.price).bind fun x h3 vx f => Tri.ret ?_
  have r3 := rb.ok.keep f.kept
  have s13 := rb.step.trans r3.step
  have sst : SStep h e.strategy h3 b.2 := r.step.trans s13
  refine ⟨?_, ⟨r3.ok, (r.snaps.step s13).snoc f.at_.lt f.at_.can (rb.ok.fresh f.new), fun t ht => (o.trans t ht).step sst⟩, sst⟩
  unfold HExec.view
  dsimp only
  rw [List.map_append, r.snaps.map s13, ← r3.view, ← rb.view, List.map_congr_left fun t ht => HTrans.view_of fun x hx => (o.trans t ht).cell sst hx]
  dsimp only [List.map]
  rw [f.at_.val]
  rfl

/-- `CreateExecution` touches no number. -/
theorem create_refines {e : HStrat} {a b u sn pr : Int} {ts : List HTrans} :
    Refines (Ptr.create e a b u sn pr ts) (Execution.create (e.view h) a b u sn pr (ts.map (HTrans.view h)))
      (fun x v => v = x.view h ∧ x.strategy = e ∧ x.snapshots = [] ∧ x.transactions = ts) := by
  unfold Ptr.create Execution.create
  rw [List.length_map]
  refine (idx_map_refines ts (HTrans.view h) _).bind ?_
  · rintro t _ ⟨rfl, _⟩
    exact Refines.ite (fun _ => rfl) fun _ => Refines.ite (fun _ => rfl) fun _ => ⟨rfl, rfl, rfl, rfl⟩

end
end Uni
