import Verif.Proofs.PtrPrices
/-! # Strategies on memory -/
namespace Uni
open InPlace Ptr U256

namespace Ptr
/-- The numbers a strategy changes in place. -/
def HStrat.writes (s : HStrat) : List Nat := s.amount0 :: s.amount1 :: s.pool.writes

/-- The other numbers a strategy holds. -/
def HStrat.held (s : HStrat) : List Nat := s.multiplier :: (s.positions.map HStratPos.amount ++ s.history.prices)
end Ptr

/-- The multiplier of a strategy that has one. -/
def multiplierOf : Kind → Option Int
  | .bollinger _ m => some m
  | .bollingerFillUp _ m => some m
  | .volatilitySized _ m => some m
  | _ => none

/-- The numbers of the strategy are in order. -/
structure StratOk (c : Rights) (h : Heap) (s : HStrat) : Prop where
  pool : PoolOk c h s.pool
  can0 : c.canWrite s.amount0
  can1 : c.canWrite s.amount1
  lt0 : s.amount0 < h.next
  lt1 : s.amount1 < h.next
  high0 : constEnd ≤ s.amount0
  high1 : constEnd ≤ s.amount1
  ne : s.amount0 ≠ s.amount1
  off0 : s.amount0 ∉ s.pool.price :: s.pool.writes
  off1 : s.amount1 ∉ s.pool.price :: s.pool.writes
  held : ∀ x ∈ s.held, x < h.next ∧ c.canRead x ∧ x ∉ s.writes
  mult : ∀ m, multiplierOf s.kind = some m → h.cell s.multiplier = ofWord (BitVec.ofInt 64 m)

/-- The step changed only numbers of the strategy; the strategy now has some of them and new ones. -/
structure SStep (h : Heap) (s : HStrat) (h' : Heap) (s' : HStrat) : Prop where
  le : h.next ≤ h'.next
  frame : ∀ r, r < h.next → r ∉ s.writes → h'.cell r = h.cell r
  foot : ∀ r ∈ s'.writes, r ∈ s.writes ∨ h.next ≤ r

namespace SStep
variable {c : Rights} {h h' h'' : Heap} {s s' s'' : HStrat}

theorem not_mem (k : SStep h s h' s') {r : Nat} (lt : r < h.next) (hr : r ∉ s.writes) : r ∉ s'.writes := fun hm => by
  rcases k.foot r hm with h1 | h1
  · exact hr h1
  · omega

theorem trans (k : SStep h s h' s') (l : SStep h' s' h'' s'') : SStep h s h'' s'' := by
  refine ⟨le_trans k.le l.le, fun r hr hn => ?_, fun r hr => ?_⟩
  · exact (l.frame r (lt_of_lt_of_le hr k.le) (k.not_mem hr hn)).trans (k.frame r hr hn)
  · rcases l.foot r hr with h1 | h1
    · exact k.foot r h1
    · exact .inr (le_trans k.le h1)

theorem at_ (k : SStep h s h' s') {x : Nat} {v : U256} (a : At c h x v) (hx : x ∉ s.writes) : At c h' x v :=
  ⟨lt_of_lt_of_le a.lt k.le, (k.frame x a.lt hx).trans a.val, a.can, le_trans a.base k.le⟩

theorem of_kept (k : Kept h h') (e : ∀ r ∈ s'.writes, r ∈ s.writes) : SStep h s h' s' :=
  ⟨k.le, fun r hr _ => k.cell r hr, fun r hr => .inl (e r hr)⟩

end SStep

/-- The outcome of a step of a strategy. -/
structure StratRel (c : Rights) (h : Heap) (s : HStrat) (s' : HStrat) (h' : Heap) (v : Strat) : Prop where
  view : v = s'.view h'
  ok : StratOk c h' s'
  step : SStep h s h' s'

theorem StratRel.trans {c : Rights} {h h' h'' : Heap} {s s' s'' : HStrat} {v w : Strat} (a : StratRel c h s s' h' v) (b : StratRel c h' s' s'' h'' w) :
    StratRel c h s s'' h'' w := ⟨b.view, b.ok, a.step.trans b.step⟩

namespace StratOk
variable {c : Rights} {h h' : Heap} {s : HStrat}

theorem base (ok : StratOk c h s) : c.base ≤ h.next := ok.pool.base
theorem consts (ok : StratOk c h s) : Consts c h := ok.pool.consts
theorem at0 (ok : StratOk c h s) : At c h s.amount0 (h.cell s.amount0) := ⟨ok.lt0, rfl, canRead_of_write ok.can0, ok.base⟩
theorem at1 (ok : StratOk c h s) : At c h s.amount1 (h.cell s.amount1) := ⟨ok.lt1, rfl, canRead_of_write ok.can1, ok.base⟩
theorem price (ok : StratOk c h s) : At c h s.pool.price (h.cell s.pool.price) := ok.pool.price

theorem heldAt (ok : StratOk c h s) {x : Nat} (hx : x ∈ s.held) : At c h x (h.cell x) :=
  ⟨(ok.held x hx).1, rfl, (ok.held x hx).2.1, ok.base⟩

theorem posAt (ok : StratOk c h s) {q : HStratPos} (hq : q ∈ s.positions) : q.amount ∈ s.held :=
  List.mem_cons_of_mem _ (List.mem_append_left _ (List.mem_map_of_mem hq))

theorem history (ok : StratOk c h s) : Reads c h s.history.prices := fun x hx =>
  have := ok.held x (List.mem_cons_of_mem _ (List.mem_append_right _ hx))
  ⟨this.1, this.2.1⟩

/-- the view of a strategy after a change of its pool -/
theorem view_of {h h' : Heap} {s : HStrat} {q : HPool} (hd : ∀ x ∈ s.held, h'.cell x = h.cell x) :
    HStrat.view h' { s with pool := q } = { s.view h with
      amount0 := h'.cell s.amount0, amount1 := h'.cell s.amount1, pool := q.view h' } := by
  unfold HStrat.view
  dsimp only
  have e1 : s.positions.map (HStratPos.view h') = s.positions.map (HStratPos.view h) := List.map_congr_left fun q hq => by
    unfold HStratPos.view
    rw [hd q.amount (List.mem_cons_of_mem _ (List.mem_append_left _ (List.mem_map_of_mem hq)))]
  have e2 : s.history.view h' = s.history.view h := by
    unfold HPrices.view
    rw [List.map_congr_left fun x hx => hd x (List.mem_cons_of_mem _ (List.mem_append_right _ hx))]
  rw [e1, e2]

/-- the pool has made a step -/
theorem poolStep (ok : StratOk c h s) {q : HPool} (k : StepOk h s.pool h' q) :
    StratRel c h s { s with pool := q } h' { s.view h with pool := q.view h' } := by
  have off : ∀ x, x < h.next → x ∉ s.pool.price :: s.pool.writes → x ∉ q.price :: q.writes := by
    intro x hx hn hm
    rcases List.mem_cons.1 hm with h1 | h1
    · rcases k.price with e | e
      · exact hn (by rw [h1, e]; exact List.mem_cons_self)
      · omega
    · exact k.not_mem hx (fun hm' => hn (List.mem_cons_of_mem _ hm')) h1
  have n0 : s.amount0 ∉ s.pool.writes := fun hm => ok.off0 (List.mem_cons_of_mem _ hm)
  have n1 : s.amount1 ∉ s.pool.writes := fun hm => ok.off1 (List.mem_cons_of_mem _ hm)
  have np : ∀ x, x ∉ s.writes → x ∉ s.pool.writes := fun x hx hm => hx (List.mem_cons_of_mem _ (List.mem_cons_of_mem _ hm))
  have fr : ∀ r, r < h.next → r ∉ s.writes → h'.cell r = h.cell r := fun r hr hn => k.ev.frame r hr (np r hn)
  have hd : ∀ x ∈ s.held, h'.cell x = h.cell x := fun x hx => fr x (ok.held x hx).1 (ok.held x hx).2.2
  have st : SStep h s h' { s with pool := q } := by
    refine ⟨k.ev.le, fr, fun r hr => ?_⟩
    rcases List.mem_cons.1 hr with h1 | hr
    · exact .inl (h1 ▸ List.mem_cons_self)
    rcases List.mem_cons.1 hr with h1 | hr
    · exact .inl (h1 ▸ List.mem_cons_of_mem _ List.mem_cons_self)
    rcases k.ev.mem hr with h1 | h1
    · exact .inl (List.mem_cons_of_mem _ (List.mem_cons_of_mem _ h1))
    · exact .inr h1.1
  refine ⟨?_, ⟨ok.pool.step k, ok.can0, ok.can1, lt_of_lt_of_le ok.lt0 k.ev.le, lt_of_lt_of_le ok.lt1 k.ev.le, ok.high0, ok.high1,
    ok.ne, off _ ok.lt0 ok.off0, off _ ok.lt1 ok.off1, fun x hx => ?_, fun m hm => ?_⟩, st⟩
  · rw [view_of hd, k.ev.frame _ ok.lt0 n0, k.ev.frame _ ok.lt1 n1]
    rfl
  · obtain ⟨h1, h2, h3⟩ := ok.held x hx
    exact ⟨lt_of_lt_of_le h1 k.ev.le, h2, st.not_mem h1 h3⟩
  · exact (hd s.multiplier List.mem_cons_self).trans (ok.mult m hm)

/-- numbers were added -/
theorem keep (ok : StratOk c h s) (k : Kept h h') : StratRel c h s s h' (s.view h) := by
  have := ok.poolStep (k.step s.pool)
  rw [ok.pool.sep.view_kept k] at this
  exact this

/-- a balance was changed -/
theorem store (ok : StratOk c h s) {z : Nat} {v : U256} (hz : z = s.amount0 ∨ z = s.amount1) (st : Stored h z h' v) :
    StratOk c h' s ∧ SStep h s h' s ∧ s.view h' = { s.view h with amount0 := h'.cell s.amount0, amount1 := h'.cell s.amount1 } := by
  have hw : z ∈ s.writes := by
    rcases hz with rfl | rfl
    · exact List.mem_cons_self
    · exact List.mem_cons_of_mem _ List.mem_cons_self
  have hc : constEnd ≤ z := by
    rcases hz with rfl | rfl
    · exact ok.high0
    · exact ok.high1
  have hp : z ∉ s.pool.price :: s.pool.writes := by
    rcases hz with rfl | rfl
    · exact ok.off0
    · exact ok.off1
  have hpool : ∀ r ∈ s.pool.price :: s.pool.writes, r < h.next ∧ h'.cell r = h.cell r := by
    intro r hr
    have hlt : r < h.next := by
      rcases List.mem_cons.1 hr with rfl | h1
      · exact ok.pool.sep.priceLt
      · exact ok.pool.sep.safe.lt r h1
    exact ⟨hlt, st.cell r hlt fun e => hp (e ▸ hr)⟩
  have hd : ∀ x ∈ s.held, h'.cell x = h.cell x := fun x hx =>
    st.cell x (ok.held x hx).1 fun e => (ok.held x hx).2.2 (e ▸ hw)
  have o := ok.pool
  have po : PoolOk c h' s.pool := ⟨⟨⟨o.sep.safe.nodup, fun r hr => lt_of_lt_of_le (o.sep.safe.lt r hr) st.le⟩, o.sep.price,
    lt_of_lt_of_le o.sep.priceLt st.le⟩, o.can, o.canPrice, o.consts.stored st hc, o.high, le_trans o.base st.le⟩
  refine ⟨⟨po, ok.can0, ok.can1, lt_of_lt_of_le ok.lt0 st.le, lt_of_lt_of_le ok.lt1 st.le, ok.high0, ok.high1, ok.ne, ok.off0, ok.off1,
    fun x hx => ⟨lt_of_lt_of_le (ok.held x hx).1 st.le, (ok.held x hx).2⟩,
    fun m hm => (hd s.multiplier List.mem_cons_self).trans (ok.mult m hm)⟩,
    ⟨st.le, fun r hr hn => st.cell r hr fun e => hn (e ▸ hw), fun r hr => .inl hr⟩, ?_⟩
  have e := view_of (q := s.pool) hd
  rw [HPool.view_congr fun r hr => (hpool r hr).2] at e
  exact e

/-- only fields that hold no balance and no pool have changed -/
theorem fields (ok : StratOk c h s) {s' : HStrat} (e0 : s'.amount0 = s.amount0) (e1 : s'.amount1 = s.amount1) (ep : s'.pool = s.pool)
    (ek : s'.kind = s.kind) (em : s'.multiplier = s.multiplier)
    (hd : ∀ x ∈ s'.held, x ∈ s.held ∨ (x < h.next ∧ c.canRead x ∧ x ∉ s.writes)) : StratOk c h s' ∧ SStep h s h s' := by
  have ew : s'.writes = s.writes := by unfold HStrat.writes; rw [e0, e1, ep]
  refine ⟨⟨ep ▸ ok.pool, e0 ▸ ok.can0, e1 ▸ ok.can1, e0 ▸ ok.lt0, e1 ▸ ok.lt1, e0 ▸ ok.high0, e1 ▸ ok.high1, e0 ▸ e1 ▸ ok.ne,
    by rw [e0, ep]; exact ok.off0, by rw [e1, ep]; exact ok.off1, fun x hx => ?_, fun m hm => by rw [em]; exact ok.mult m (ek ▸ hm)⟩, ⟨le_refl _, fun _ _ _ => rfl, fun r hr => .inl (ew ▸ hr)⟩⟩
  rw [ew]
  rcases hd x hx with h1 | h1
  · exact ok.held x h1
  · exact h1

/-- a new number is none of the strategy -/
theorem fresh (ok : StratOk c h s) {x : Nat} (hx : h.next ≤ x) : x ∉ s.writes := by
  intro hm
  rcases List.mem_cons.1 hm with h1 | hm
  · have := ok.lt0; omega
  rcases List.mem_cons.1 hm with h1 | hm
  · have := ok.lt1; omega
  have := ok.pool.sep.safe.lt x hm
  omega

/-- a pool operation, then both balances are changed in place -/
theorem pay (ok : StratOk c h s) {r : Nat × Nat × HPool} {b : U256 × U256 × Pool} {h1 : Heap} (k : OpOk c h s.pool r h1 b)
    {m0 m1 : HM Unit} {op : U256 → U256 → U256} {γ δ : Type} {f : HM γ} {y : Go δ} {S : γ → Heap → δ → Prop}
    (t0 : ∀ {h : Heap} {a v : U256}, At c h s.amount0 a → At c h r.1 v → Tri c m0 h (.ok (op a v)) (fun _ h' v => Stored h s.amount0 h' v))
    (t1 : ∀ {h : Heap} {a v : U256}, At c h s.amount1 a → At c h r.2.1 v → Tri c m1 h (.ok (op a v)) (fun _ h' v => Stored h s.amount1 h' v))
    (hf : ∀ h2, StratRel c h s { s with pool := r.2.2 } h2 { s.view h with
      pool := b.2.2, amount0 := op (s.view h).amount0 b.1, amount1 := op (s.view h).amount1 b.2.1 } → Tri c f h2 y S) :
    Tri c (m0 >>= fun _ => m1 >>= fun _ => f) h1 y S := by
  have n0 : s.amount0 ∉ s.pool.writes := fun hm => ok.off0 (List.mem_cons_of_mem _ hm)
  have n1 : s.amount1 ∉ s.pool.writes := fun hm => ok.off1 (List.mem_cons_of_mem _ hm)
  have p1 := ok.poolStep k.step
  have l0 := ok.lt0
  have l1 := ok.lt1
  have f1 := k.fst.new
  have f2 := k.snd.new
  refine (t0 (k.step.at ok.at0 n0) k.fst.at_).step fun _ h2 s2 => ?_
  obtain ⟨o2, st2, v2⟩ := p1.ok.store (.inl rfl) s2
  refine (t1 (s2.at (k.step.at ok.at1 n1) ok.ne.symm) (s2.at k.snd.at_ (by omega))).step fun _ h3 s3 => ?_
  obtain ⟨o3, st3, v3⟩ := o2.store (.inr rfl) s3
  refine hf h3 ⟨?_, o3, (p1.step.trans st2).trans st3⟩
  rw [v3, v2, ← p1.view]
  dsimp only
  have e0 : h3.cell s.amount0 = op (h.cell s.amount0) b.1 := by
    rw [s3.cell s.amount0 (lt_of_lt_of_le (lt_of_lt_of_le l0 k.step.ev.le) s2.le) ok.ne, s2.val]
  rw [e0, s3.val, k.pool]
  rfl

end StratOk

section
variable {c : Rights} {h : Heap} {s : HStrat}

theorem addPay (ok : StratOk c h s) {r : Nat × Nat × HPool} {b : U256 × U256 × Pool} {h1 : Heap} (k : OpOk c h s.pool r h1 b)
    {γ δ : Type} {f : HM γ} {y : Go δ} {S : γ → Heap → δ → Prop}
    (hf : ∀ h2, StratRel c h s { s with pool := r.2.2 } h2 { s.view h with
      pool := b.2.2, amount0 := U256.add (s.view h).amount0 b.1, amount1 := U256.add (s.view h).amount1 b.2.1 } → Tri c f h2 y S) :
    Tri c (add s.amount0 s.amount0 r.1 >>= fun _ => add s.amount1 s.amount1 r.2.1 >>= fun _ => f) h1 y S :=
  ok.pay k (tri_add ok.can0) (tri_add ok.can1) hf

theorem subPay (ok : StratOk c h s) {r : Nat × Nat × HPool} {b : U256 × U256 × Pool} {h1 : Heap} (k : OpOk c h s.pool r h1 b)
    {γ δ : Type} {f : HM γ} {y : Go δ} {S : γ → Heap → δ → Prop}
    (hf : ∀ h2, StratRel c h s { s with pool := r.2.2 } h2 { s.view h with
      pool := b.2.2, amount0 := U256.sub (s.view h).amount0 b.1, amount1 := U256.sub (s.view h).amount1 b.2.1 } → Tri c f h2 y S) :
    Tri c (sub s.amount0 s.amount0 r.1 >>= fun _ => sub s.amount1 s.amount1 r.2.1 >>= fun _ => f) h1 y S :=
  ok.pay k (tri_sub ok.can0) (tri_sub ok.can1) hf

theorem tri_balances (ok : StratOk c h s) :
    Tri c (balances s) h (.ok ((s.view h).amount0, (s.view h).amount1)) (fun r h' v => Fresh2 c h r h' v) := by
  unfold balances
  refine (tri_clone ok.at0).fresh1 fun a h1 k1 aa la => ?_
  refine (tri_clone (ok.at1.keep k1)).fresh1 fun b h2 k2 ab lb => ?_
  have := aa.lt
  have := k1.le
  exact Tri.ret ⟨k1.trans k2, aa.keep k2, ab, la, le_trans k1.le lb, fun e => by dsimp only at e; omega⟩

theorem tri_amountsLoop {price acc0 acc1 : Nat} {vp : U256} (w0 : c.canWrite acc0) (w1 : c.canWrite acc1) (ne : acc0 ≠ acc1)
    (np0 : price ≠ acc0) (np1 : price ≠ acc1) (hc0 : constEnd ≤ acc0) (hc1 : constEnd ≤ acc1) :
    ∀ (l : List HStratPos) {h : Heap} {v0 v1 : U256}, Consts c h → At c h price vp → At c h acc0 v0 → At c h acc1 v1 →
    (∀ q ∈ l, q.amount < h.next ∧ c.canRead q.amount ∧ q.amount ≠ acc0 ∧ q.amount ≠ acc1) →
    Tri c (amountsLoop price acc0 acc1 l) h (Strat.amountsLoop vp (l.map (HStratPos.view h)) (v0, v1)) (fun _ h' v =>
      At c h' acc0 v.1 ∧ At c h' acc1 v.2 ∧ h.next ≤ h'.next ∧ ∀ r, r < h.next → r ≠ acc0 → r ≠ acc1 → h'.cell r = h.cell r)
  | [], h, v0, v1, _, _, a0, a1, _ => Tri.ret ⟨a0, a1, le_refl _, fun _ _ _ _ => rfl⟩
  | q :: l, h, v0, v1, kc, ap, a0, a1, hl => by
    unfold amountsLoop
    rw [List.map_cons]
    unfold Strat.amountsLoop
    obtain ⟨hq1, hq2, hq3, hq4⟩ := hl q List.mem_cons_self
    have aq : At c h q.amount (h.cell q.amount) := ⟨hq1, rfl, hq2, ap.base⟩
    refine (tri_getSqrtRatioAtTick kc q.lower).fresh fun a h1 va k1 aa _ => ?_
    refine (tri_getSqrtRatioAtTick (kc.keep k1) q.upper).fresh fun b h2 vb k2 ab _ => ?_
    have k := k1.trans k2
    refine (tri_getAmountsForLiquidity (kc.keep k) (ap.keep k) (aa.keep k2) ab (aq.keep k)).bind ?_
    rintro r h3 v ⟨k3, ar1, ar2, lr1, lr2⟩
    have k' := k.trans k3
    have la0 := a0.lt
    have la1 := a1.lt
    have := k.le
    refine (tri_add w0 (a0.keep k') ar1).step fun _ h4 s4 => ?_
    refine (tri_add w1 (s4.at (a1.keep k') ne.symm) (s4.at ar2 (by omega))).step fun _ h5 s5 => ?_
    have le5 : h.next ≤ h5.next := le_trans k'.le (le_trans s4.le s5.le)
    have fr : ∀ r, r < h.next → r ≠ acc0 → r ≠ acc1 → h5.cell r = h.cell r := fun r hr n0 n1 =>
      (s5.cell r (lt_of_lt_of_le hr (le_trans k'.le s4.le)) n1).trans ((s4.cell r (lt_of_lt_of_le hr k'.le) n0).trans (k'.cell r hr))
    have kc5 : Consts c h5 := ((kc.keep k').stored s4 hc0).stored s5 hc1
    have e : l.map (HStratPos.view h5) = l.map (HStratPos.view h) := List.map_congr_left fun q hq => by
      unfold HStratPos.view
      obtain ⟨h1, _, h3, h4⟩ := hl q (List.mem_cons_of_mem _ hq)
      rw [fr _ h1 h3 h4]
    have t := tri_amountsLoop w0 w1 ne np0 np1 hc0 hc1 l kc5 (s5.at (s4.at (ap.keep k') np0) np1)
      (s5.at (s4.at_self (a0.keep k')) ne) (s5.at_self (s4.at (a1.keep k') ne.symm)) (fun q hq => by
        obtain ⟨h1, h2, h3⟩ := hl q (List.mem_cons_of_mem _ hq)
        exact ⟨lt_of_lt_of_le h1 le5, h2, h3⟩)
    rw [e] at t
    exact t.mono fun _ h6 w ⟨b0, b1, le6, fr6⟩ => ⟨b0, b1, le_trans le5 le6, fun r hr n0 n1 =>
      (fr6 r (lt_of_lt_of_le hr le5) n0 n1).trans (fr r hr n0 n1)⟩

theorem tri_sumAmounts (ok : StratOk c h s) :
    Tri c (sumAmounts s) h (do
      let r ← Strat.amountsLoop (s.view h).pool.price (s.view h).positions (zero, zero)
      return (U256.add r.1 (s.view h).amount0, U256.add r.2 (s.view h).amount1)) (fun r h' v => Fresh2 c h r h' v) := by
  unfold sumAmounts
  refine (tri_new ok.base zero).fresh1 fun x h1 k1 ax lx => ?_
  refine (tri_new ax.base zero).fresh1 fun y h2 k2 ay ly => ?_
  have k := k1.trans k2
  have e1 := k1.le
  have e2 := k2.le
  have tx := ax.lt
  have ty := ay.lt
  have tp := ok.pool.sep.priceLt
  have hb := ok.base
  have hc := ok.consts.le
  have t0 := ok.lt0
  have t1 := ok.lt1
  have t := tri_amountsLoop (c := c) (price := s.pool.price) (vp := (s.view h).pool.price) (acc0 := x) (acc1 := y)
    (.inr (by omega)) (.inr (by omega)) (by omega) (by omega)
    (by omega) (by omega) (by omega) s.positions (ok.consts.keep k) (ok.price.keep k) (ax.keep k2) ay (fun q hq => by
      obtain ⟨g1, g2, _⟩ := ok.held _ (ok.posAt hq)
      exact ⟨lt_of_lt_of_le g1 k.le, g2, by omega, by omega⟩)
  have e : s.positions.map (HStratPos.view h2) = (s.view h).positions := List.map_congr_left fun q hq => by
    unfold HStratPos.view
    rw [k.cell _ (ok.held _ (ok.posAt hq)).1]
  rw [e] at t
  refine t.bind ?_
  rintro _ h3 v ⟨bx, by_, le3, fr⟩
  have c0 : At c h3 s.amount0 (h.cell s.amount0) := ⟨by omega, by rw [fr _ (by omega) (by omega) (by omega), k.cell _ t0],
    ok.at0.can, bx.base⟩
  have c1 : At c h3 s.amount1 (h.cell s.amount1) := ⟨by omega, by rw [fr _ (by omega) (by omega) (by omega), k.cell _ t1],
    ok.at1.can, bx.base⟩
  refine (tri_add (.inr (by omega)) bx c0).step fun _ h4 s4 => ?_
  refine (tri_add (.inr (by omega)) (s4.at by_ (by omega)) (s4.at c1 (by omega))).step fun _ h5 s5 => ?_
  refine Tri.ret ⟨⟨by have := s4.le; have := s5.le; omega, fun r hr => ?_⟩, s5.at (s4.at_self bx) (by omega),
    s5.at_self (s4.at by_ (by omega)), lx, by dsimp only; omega, by dsimp only; omega⟩
  rw [s5.cell r (by have := s4.le; omega) (by omega), s4.cell r (by omega) (by omega), fr r (by omega) (by omega) (by omega),
    k.cell r hr]

theorem tri_getAmounts (ok : StratOk c h s) :
    Tri c (Ptr.getAmounts s) h (s.view h).getAmounts (fun r h' v => Fresh2 c h r h' v) := by
  unfold Ptr.getAmounts Strat.getAmounts
  have e : (s.view h).kind = s.kind := rfl
  rw [e]
  cases s.kind <;> first | exact tri_sumAmounts ok | exact tri_balances ok

theorem tri_burnLoop : ∀ (l : List HStratPos) {h : Heap} {s : HStrat}, StratOk c h s → (∀ q ∈ l, q.amount ∈ s.held) →
    Tri c (Ptr.burnLoop l s) h (Strat.burnLoop (l.map (HStratPos.view h)) (s.view h)) (fun s' h' v => StratRel c h s s' h' v ∧
      s'.held = s.held)
  | [], h, s, ok, _ => Tri.ret ⟨⟨rfl, ok, SStep.of_kept (Kept.refl _) fun _ hr => hr⟩, rfl⟩
  | q :: l, h, s, ok, hl => by
    unfold Ptr.burnLoop
    rw [List.map_cons]
    unfold Strat.burnLoop
    have hq := hl q List.mem_cons_self
    refine (tri_burnStrategy ok.pool q.lower q.upper (ok.heldAt hq)).bind fun b h1 vb kb => ?_
    have r1 := ok.poolStep kb.step
    have eb : vb.2.2 = (HStrat.view h1 { s with pool := b.2.2 }).pool := kb.pool
    rw [eb]
    refine (tri_collectStrategy r1.ok.pool q.lower q.upper).bind fun d h2 vd kd => ?_
    refine addPay r1.ok kd fun h3 r3 => ?_
    have r := r1.trans r3
    have e : l.map (HStratPos.view h3) = l.map (HStratPos.view h) := List.map_congr_left fun q hq => by
      unfold HStratPos.view
      have := ok.held _ (hl q (List.mem_cons_of_mem _ hq))
      rw [r.step.frame _ this.1 this.2.2]
    have t := tri_burnLoop l r3.ok (fun q hq => hl q (List.mem_cons_of_mem _ hq))
    rw [← r3.view, e, ← r1.view] at t
    exact t.mono fun s' h' v ⟨r', e'⟩ => ⟨r.trans r', e'⟩

theorem tri_closeAll (ok : StratOk c h s) :
    Tri c (Ptr.closeAll s) h (s.view h).closeAll (fun a h' v => StratRel c h s a.2 h' v.2 ∧ At c h' a.1.1 v.1.1 ∧ At c h' a.1.2 v.1.2 ∧
      h.next ≤ a.1.1 ∧ h.next ≤ a.1.2 ∧ a.1.1 ∉ a.2.writes ∧ a.1.2 ∉ a.2.writes) := by
  unfold Ptr.closeAll Strat.closeAll
  refine (tri_burnLoop s.positions ok fun q hq => ok.posAt hq).bind ?_
  rintro s1 h1 _ ⟨r1, _⟩
  rw [r1.view]
  refine (tri_balances r1.ok).step fun r h2 f => ?_
  have r2 := r1.ok.keep f.kept
  obtain ⟨o3, st3⟩ := r2.ok.fields (s' := { s1 with positions := [] }) rfl rfl rfl rfl rfl fun x hx => by
    rcases List.mem_cons.1 hx with h1 | h1
    · exact .inl (h1 ▸ List.mem_cons_self)
    · exact .inl (List.mem_cons_of_mem _ (List.mem_append_right _ h1))
  refine Tri.ret ⟨⟨?_, o3, (r1.step.trans r2.step).trans st3⟩, f.fst, f.snd, le_trans r1.step.le f.new1, le_trans r1.step.le f.new2,
    r1.ok.fresh f.new1, r1.ok.fresh f.new2⟩
  dsimp only
  rw [r2.view]
  rfl

theorem tri_closeAllKeep (ok : StratOk c h s) :
    Tri c (Ptr.closeAllKeep s) h (s.view h).closeAllKeep (fun a h' v => StratRel c h s a.2 h' v.2 ∧ At c h' a.1.1 v.1.1 ∧ At c h' a.1.2 v.1.2 ∧
      h.next ≤ a.1.1 ∧ h.next ≤ a.1.2 ∧ a.1.1 ∉ a.2.writes ∧ a.1.2 ∉ a.2.writes) := by
  unfold Ptr.closeAllKeep Strat.closeAllKeep
  refine (tri_burnLoop s.positions ok fun q hq => ok.posAt hq).bind ?_
  rintro s1 h1 _ ⟨r1, _⟩
  rw [r1.view]
  refine (tri_balances r1.ok).step fun r h2 f => ?_
  exact Tri.ret ⟨r1.trans (r1.ok.keep f.kept), f.fst, f.snd, le_trans r1.step.le f.new1, le_trans r1.step.le f.new2,
    r1.ok.fresh f.new1, r1.ok.fresh f.new2⟩

theorem tri_closeNone (ok : StratOk c h s) :
    Tri c (Ptr.closeNone s) h (.ok (((s.view h).amount0, (s.view h).amount1), s.view h)) (fun a h' v => StratRel c h s a.2 h' v.2 ∧
      At c h' a.1.1 v.1.1 ∧ At c h' a.1.2 v.1.2 ∧ h.next ≤ a.1.1 ∧ h.next ≤ a.1.2 ∧ a.1.1 ∉ a.2.writes ∧ a.1.2 ∉ a.2.writes) := by
  unfold Ptr.closeNone
  refine (tri_balances ok).step fun r h2 f => ?_
  exact Tri.ret ⟨ok.keep f.kept, f.fst, f.snd, f.new1, f.new2, ok.fresh f.new1, ok.fresh f.new2⟩

theorem tri_burnAll (ok : StratOk c h s) :
    Tri c (Ptr.burnAll s) h (s.view h).burnAll (fun a h' v => StratRel c h s a.2 h' v.2 ∧ At c h' a.1.1 v.1.1 ∧ At c h' a.1.2 v.1.2 ∧
      h.next ≤ a.1.1 ∧ h.next ≤ a.1.2 ∧ a.1.1 ∉ a.2.writes ∧ a.1.2 ∉ a.2.writes) := by
  unfold Ptr.burnAll Strat.burnAll
  have e : (s.view h).kind = s.kind := rfl
  rw [e]
  cases s.kind <;> first | exact tri_closeAllKeep ok | exact tri_closeAll ok | exact tri_closeNone ok

/-! ### New positions -/

theorem tri_mintAmount (ok : StratOk c h s) (lower upper : Int) {amount : Nat} {v : U256} (a : At c h amount v)
    (na : amount ∉ s.writes) :
    Tri c (Ptr.mintAmount s lower upper amount) h ((s.view h).mintAmount lower upper v) (fun s' h' v => StratRel c h s s' h' v) := by
  unfold Ptr.mintAmount Strat.mintAmount
  have np : amount ∉ s.pool.writes := fun hm => na (List.mem_cons_of_mem _ (List.mem_cons_of_mem _ hm))
  refine (tri_mintStrategy ok.pool lower upper a np).bind fun m h1 vm km => ?_
  refine subPay ok km fun h2 r2 => ?_
  have a2 := r2.step.at_ a na
  obtain ⟨o3, st3⟩ := r2.ok.fields (s' := { s with positions := s.positions ++ [⟨amount, lower, upper⟩], pool := m.2.2 })
    rfl rfl rfl rfl rfl fun x hx => by
      unfold HStrat.held at hx ⊢
      dsimp only at hx ⊢
      rw [List.map_append] at hx
      rcases List.mem_cons.1 hx with h1 | hx
      · exact .inl (h1 ▸ List.mem_cons_self)
      rcases List.mem_append.1 hx with hx | hx
      · rcases List.mem_append.1 hx with hx | hx
        · exact .inl (List.mem_cons_of_mem _ (List.mem_append_left _ hx))
        · have : x = amount := List.mem_singleton.1 hx
          rw [this]
          exact .inr ⟨a2.lt, a2.can, r2.step.not_mem a.lt na⟩
      · exact .inl (List.mem_cons_of_mem _ (List.mem_append_right _ hx))
  refine Tri.ret ⟨?_, o3, r2.step.trans st3⟩
  have e := r2.view
  have e' : HStrat.view h2 { s with positions := s.positions ++ [⟨amount, lower, upper⟩], pool := m.2.2 } =
      { HStrat.view h2 { s with pool := m.2.2 } with
        positions := (HStrat.view h2 { s with pool := m.2.2 }).positions ++ [⟨h2.cell amount, lower, upper⟩] } := by
    unfold HStrat.view
    dsimp only
    rw [List.map_append]
    rfl
  rw [e', ← e, a2.val]

theorem tri_affordable (ok : StratOk c h s) (lower upper : Int) :
    Tri c (Ptr.affordable s lower upper) h ((s.view h).affordable lower upper) (fun r h' v => Fresh c h r h' v) := by
  unfold Ptr.affordable Strat.affordable
  refine (tri_getSqrtRatioAtTick ok.consts lower).fresh fun a h1 va k1 aa _ => ?_
  refine (tri_getSqrtRatioAtTick (ok.consts.keep k1) upper).fresh fun b h2 vb k2 ab _ => ?_
  have k := k1.trans k2
  exact (tri_getLiquidityForAmount (ok.consts.keep k) (ok.price.keep k) (aa.keep k2) ab (ok.at0.keep k) (ok.at1.keep k)).tail k

theorem StratRel.refl (ok : StratOk c h s) : StratRel c h s s h (s.view h) := ⟨rfl, ok, SStep.of_kept (Kept.refl _) fun _ hr => hr⟩

/-- a step after numbers were added -/
theorem Tri.later {h1 : Heap} {m : HM HStrat} {y : Go Strat} (ok : StratOk c h s) (k : Kept h h1)
    (t : StratOk c h1 s → s.view h1 = s.view h → Tri c m h1 y (fun s' h' v => StratRel c h1 s s' h' v)) :
    Tri c m h1 y (fun s' h' v => StratRel c h s s' h' v) := by
  have r := ok.keep k
  exact (t r.ok r.view.symm).mono fun s' h' v r' => r.trans r'

theorem tri_mintPosition (ok : StratOk c h s) (lower upper : Int) :
    Tri c (Ptr.mintPosition s lower upper) h ((s.view h).mintPosition lower upper) (fun s' h' v => StratRel c h s s' h' v) := by
  unfold Ptr.mintPosition Strat.mintPosition
  refine (tri_affordable ok lower upper).fresh fun x h1 v k1 ax lx => ?_
  refine Tri.load_bind ax (Tri.ite (fun _ => Tri.ret (ok.keep k1)) fun _ => ?_)
  refine Tri.later ok k1 fun o1 e1 => ?_
  rw [← e1]
  exact tri_mintAmount o1 lower upper ax (ok.fresh lx)

theorem tri_mintUnchecked (ok : StratOk c h s) (lower upper : Int) :
    Tri c (Ptr.mintUnchecked s lower upper) h ((s.view h).mintUnchecked lower upper) (fun s' h' v => StratRel c h s s' h' v) := by
  unfold Ptr.mintUnchecked Strat.mintUnchecked
  refine (tri_affordable ok lower upper).fresh fun x h1 v k1 ax lx => ?_
  refine Tri.later ok k1 fun o1 e1 => ?_
  rw [← e1]
  exact tri_mintAmount o1 lower upper ax (ok.fresh lx)

theorem tri_mintHalf (ok : StratOk c h s) (lower upper : Int) :
    Tri c (Ptr.mintHalf s lower upper) h ((s.view h).mintHalf lower upper) (fun s' h' v => StratRel c h s s' h' v) := by
  unfold Ptr.mintHalf Strat.mintHalf
  refine (tri_affordable ok lower upper).fresh fun x h1 v k1 ax lx => ?_
  refine (tri_new ax.base (ofWord 2)).fresh1 fun y h2 k2 ay _ => ?_
  refine (mk_div (ax.keep k2) ay).fresh fun z h3 vz k3 az lz => ?_
  have k := (k1.trans k2).trans k3
  refine Tri.load_bind az (Tri.ite (fun _ => Tri.ret (ok.keep k)) fun _ => ?_)
  refine Tri.later ok k fun o1 e1 => ?_
  rw [← e1]
  exact tri_mintAmount o1 lower upper az (ok.fresh (le_trans (k1.trans k2).le lz))

/-! ### Swaps -/

theorem tri_swapPay (ok : StratOk c h s) (fuel : Nat) {amount : Nat} {v : U256} (a : At c h amount v) (na : amount ∉ s.writes)
    (token : String) :
    Tri c (Ptr.swapPay s fuel amount token) h ((s.view h).swapPay fuel v token) (fun s' h' v => StratRel c h s s' h' v) := by
  unfold Ptr.swapPay Strat.swapPay
  have np : amount ∉ s.pool.writes := fun hm => na (List.mem_cons_of_mem _ (List.mem_cons_of_mem _ hm))
  refine (tri_exactInputSwap ok.pool fuel token a ok.consts.zero np).bind fun r h1 vr kr => ?_
  exact subPay ok kr fun h2 r2 => Tri.ret r2

theorem tri_swapHalfOf (ok : StratOk c h s) (fuel : Nat) {diff : Nat} {v : U256} (a : At c h diff v) (token : String) :
    Tri c (Ptr.swapHalfOf s fuel diff token) h (do
      let half ← U256.div v (ofWord 2)
      if half.sign = 1 then (s.view h).swapPay fuel half token else return s.view h) (fun s' h' v => StratRel c h s s' h' v) := by
  unfold Ptr.swapHalfOf
  refine (tri_new a.base (ofWord 2)).fresh1 fun y h1 k1 ay _ => ?_
  refine (mk_div (a.keep k1) ay).fresh fun z h2 vz k2 az lz => ?_
  have k := k1.trans k2
  refine Tri.load_bind az (Tri.ite (fun _ => ?_) fun _ => Tri.ret (ok.keep k))
  refine Tri.later ok k fun o1 e1 => ?_
  rw [← e1]
  exact tri_swapPay o1 fuel az (ok.fresh (le_trans k1.le lz)) token

theorem tri_swapExcess (ok : StratOk c h s) (fuel : Nat) {a b : Nat} {va vb : U256} (aa : At c h a va) (ab : At c h b vb) :
    Tri c (Ptr.swapExcess s fuel a b) h ((s.view h).swapExcess fuel va vb) (fun s' h' v => StratRel c h s s' h' v) := by
  unfold Ptr.swapExcess Strat.swapExcess
  refine (tri_getLiquidityForAmount ok.consts ok.price aa ab ok.at0 ok.at1).fresh fun x h1 vx k1 ax _ => ?_
  refine (tri_getAmountsForLiquidity (ok.consts.keep k1) (ok.price.keep k1) (aa.keep k1) (ab.keep k1) ax).bind ?_
  rintro u h2 vu ⟨k2, au0, au1, _, _⟩
  have k12 := k1.trans k2
  dsimp only
  refine (mk_sub (ok.at0.keep k12) au0).fresh1 fun d h3 k3 ad _ => ?_
  refine (mk_lsh ad 9).fresh1 fun e h4 k4 ae _ => ?_
  refine (mk_sub ((ok.at1.keep k12).keep (k3.trans k4)) (au1.keep (k3.trans k4))).fresh1 fun f h5 k5 af _ => ?_
  have k := (k12.trans (k3.trans k4)).trans k5
  refine Tri.load_bind (ae.keep k5) (Tri.load_bind af ?_)
  refine Tri.ite (fun _ => ?_) fun _ => ?_
  · refine Tri.later ok k fun o1 e1 => ?_
    have t := tri_swapHalfOf o1 fuel ((ad.keep k4).keep k5) s.pool.token0
    rw [e1] at t
    exact t
  · refine Tri.later ok k fun o1 e1 => ?_
    have t := tri_swapHalfOf o1 fuel af s.pool.token1
    rw [e1] at t
    exact t

end
end Uni
