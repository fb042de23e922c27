import Verif.Proofs.Together
import Verif.Proofs.Returns
import Verif.Proofs.ExecRuns
import Verif.Spec.Alike
/-! # Two runs in pools that offer the same market -/
namespace Uni
open U256 Spec Pool Execution

theorem op_same {t : Transaction} {p q : Pool} (h0 : p.token0 = q.token0) (h1 : p.token1 = q.token1) : opOf t p = opOf t q := by
  unfold opOf; rw [h0, h1]

theorem val_same {v w : U256} {c d : U256 × U256} {P Q : U256} (hv : v.toNat = usdValue c P) (hw : w.toNat = usdValue d Q)
    (hc : c = d) (hP : P = Q) : v = w := by
  subst hc; subst hP; exact toNat_inj.1 (hv.trans hw.symm)

/-- One event on both sides. -/
theorem does_together {m0 m0' m m' : List Entry} {s0 t0 s t s' t' : Strat} {fuel : Nat} {ev : Event} {vs ws : List U256}
    (h0 : SameStart m0 m0' s0 t0) (h : Together m0 m0' s0 t0 m m' s t) (hw : ev.Within fuel m s)
    (hx : ev.Does fuel s vs s') (hy : ev.Does fuel t ws t') (ha : SeparateRecords s'.positions) :
    vs = ws ∧ Together m0 m0' s0 t0 (othersLedger m [ev]) (othersLedger m' [ev]) s' t' := by
  have hp := Strat.together_pair h0 h
  cases ev with
  | init =>
    obtain ⟨c, v, x1, rfl, x2⟩ := hx
    obtain ⟨d, w, y1, rfl, y2⟩ := hy
    obtain ⟨k1, k2⟩ := hw c s' x1
    have ht : Together m0 m0' s0 t0 m m' s' t' := .init fuel h x1 k1 k2 ha y1
    have hq := Strat.together_pair h0 ht
    obtain ⟨_, rfl⟩ := Strat.init_eq x1
    obtain ⟨_, rfl⟩ := Strat.init_eq y1
    refine ⟨?_, ht⟩
    rw [val_same x2 y2 (by rw [hp.amount0, hp.amount1]) hq.alike.price]
  | price =>
    obtain ⟨x1, rfl⟩ := hx
    obtain ⟨y1, rfl⟩ := hy
    exact ⟨rfl, .snapshot h x1 y1⟩
  | value =>
    obtain ⟨c, v, x1, rfl, rfl, x2⟩ := hx
    obtain ⟨d, w, y1, rfl, rfl, y2⟩ := hy
    have hg : s'.getAmounts = t'.getAmounts := by
      unfold Strat.getAmounts
      rw [hp.alike.kind, hp.alike.price, hp.pos, hp.amount0, hp.amount1]
    rw [x1, y1] at hg
    refine ⟨?_, h⟩
    rw [val_same x2 y2 (Except.ok.inj hg) hp.alike.price]
  | rebalance =>
    obtain ⟨c, x1, rfl⟩ := hx
    obtain ⟨d, y1, rfl⟩ := hy
    obtain ⟨k1, k2⟩ := hw c s' x1
    exact ⟨rfl, .rebalance fuel h x1 k1 k2 ha y1⟩
  | apply tx =>
    obtain ⟨p, x1, rfl, rfl⟩ := hx
    obtain ⟨q, y1, rfl, rfl⟩ := hy
    refine ⟨rfl, ?_⟩
    unfold Applies at x1 y1
    rw [← op_same hp.token0 hp.token1] at y1
    cases ho : opOf tx s.pool with
    | none =>
      rw [ho] at x1 y1
      dsimp only at x1 y1
      rw [ledger_none ho, ledger_none ho, x1, y1]
      exact h
    | some op =>
      rw [ho] at x1 y1
      rw [ledger_some ho, ledger_some ho]
      exact .trade fuel op h (hw op ho) x1 y1

/-- The same events on both sides. -/
theorem trace_together {m0 m0' : List Entry} {s0 t0 : Strat} (h0 : SameStart m0 m0' s0 t0) {fuel : Nat} {es : List Event}
    {s s' : Strat} {vs : List U256} (hx : Trace fuel es s vs s') : ∀ {m m' : List Entry} {t t' : Strat} {ws : List U256},
    Together m0 m0' s0 t0 m m' s t → AllWithin fuel m s es → AllSeparate fuel s es → Trace fuel es t ws t' →
    vs = ws ∧ Together m0 m0' s0 t0 (othersLedger m es) (othersLedger m' es) s' t' := by
  induction hx with
  | nil =>
    intro m m' t t' ws h _ _ hy
    cases hy
    exact ⟨rfl, h⟩
  | @cons e es s s1 s' vs vs' hd ht ih =>
    intro m m' t t' ws h hw ha hy
    cases hy with
    | @cons _ _ _ t1 _ us us' kd kt =>
      obtain ⟨rfl, h1⟩ := does_together h0 h (hw [] e es s [] rfl .nil) hd kd
        (ha [e] es s1 (vs ++ []) rfl (.cons hd .nil))
      obtain ⟨rfl, h2⟩ := ih h1 (by
        intro pre ev post s2 us he hp
        have := hw (e :: pre) ev post s2 (vs ++ us) (by rw [he]; rfl) (.cons hd hp)
        rw [show e :: pre = [e] ++ pre from rfl, othersLedger_append] at this
        exact this) (by
        intro pre post s2 us he hp
        exact ha (e :: pre) post s2 (vs ++ us) (by rw [he]; rfl) (.cons hd hp)) kt
      rw [show e :: es = [e] ++ es from rfl, othersLedger_append, othersLedger_append]
      exact ⟨rfl, h2⟩

theorem burnAll_still {m : List Entry} {s s' : Strat} {c : U256 × U256} (ho : Strat.Owns m s.positions s.pool)
    (hx : s.burnAll = .ok (c, s')) : s'.pool.price = s.pool.price := by
  rcases Strat.burnAll_eq hx with ⟨hk, rfl, rfl⟩ | ⟨t, h1, rfl, h2⟩
  · rfl
  · obtain ⟨_, st, _, _⟩ := Strat.burnLoop_spec ho h1
    rcases h2 with rfl | rfl <;> exact st.price

/-- Both runs. -/
theorem run_together {m m' : List Entry} {e f e' f' : Execution} {fuel : Nat} {rows : List Row} (h0 : SameStart m m' e.strategy f.strategy)
    (hs : SameJob e f) (hc : Clock e) (hr : Scheduled e rows) (hw : AllWithin fuel m e.strategy (rows.flatMap Row.events))
    (ha : AllSeparate fuel e.strategy (rows.flatMap Row.events)) (hx : e.run fuel = .ok e') (hy : f.run fuel = .ok f') :
    e'.snapshots = f'.snapshots ∧ e'.strategy.pool.price = f'.strategy.pool.price := by
  have hcf : Clock f := ⟨hs.txs ▸ hc.times, hs.txs ▸ hs.update ▸ hc.update, hs.txs ▸ hs.snapshot ▸ hc.snapshot, hs.txs ▸ hs.price ▸ hc.price⟩
  obtain ⟨r1, vs, s, c, v, k1, k2, k3, k4, k5⟩ := run_spec hc hx
  obtain ⟨r2, ws, t, d, w, l1, l2, l3, l4, l5⟩ := run_spec hcf hy
  have hrf : Scheduled e r2 := ⟨by rw [l1.txs, hs.finish, hs.txs], hs.start ▸ l1.start, hs.snapshot ▸ l1.value, hs.update ▸ l1.rebalance,
    hs.price ▸ l1.price⟩
  obtain rfl := scheduled_unique k1 hr
  obtain rfl := scheduled_unique hrf hr
  obtain ⟨rfl, ht⟩ := trace_together h0 k2 .start hw ha l2
  have hp := Strat.together_pair h0 ht
  have hcd := Strat.burnAll_pays hp k3 l3
  have hpr : e'.strategy.pool.price = f'.strategy.pool.price := by
    rw [burnAll_still hp.own k3, burnAll_still hp.own' l3, hp.alike.price]
  refine ⟨?_, hpr⟩
  rw [k4, l4]
  dsimp only
  rw [hs.snapshots, val_same k5 l5 hcd hpr]

end Uni
