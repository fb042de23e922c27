import Verif.Proofs.Executor
/-! # Runs of the executor are runs of the strategy; schedules of dense histories -/
namespace Uni
namespace Execution
open U256 Spec FullMath Cons Pool

/-! ### Schedules -/

theorem startsAt_prefix {start : Int} {rows more : List Row} (h : StartsAt start (rows ++ more)) : StartsAt start rows := by
  intro pre r post he
  exact h pre r (post ++ more) (by rw [he, List.append_assoc]; rfl)

theorem every_prefix {I : Int} {act : Row → Bool} {rows more : List Row} (h : Every I act (rows ++ more)) : Every I act rows := by
  intro pre r post he
  exact h pre r (post ++ more) (by rw [he, List.append_assoc]; rfl)

theorem dense_prefix {g : Int} {rows more : List Row} (h : Dense g (rows ++ more)) : Dense g rows := by
  intro pre a b post he
  exact h pre a b (post ++ more) (by rw [he, List.append_assoc]; rfl)

/-- At most one row starts the strategy. -/
theorem start_unique {start : Int} {rows : List Row} (h : StartsAt start rows) : rows.countP Row.init ≤ 1 ∧
    ∀ σ τ, StartedAt rows σ → StartedAt rows τ → σ = τ := by
  induction rows using List.reverseRecOn with
  | nil => exact ⟨Nat.zero_le _, fun σ τ h1 => by obtain ⟨_, hr, _⟩ := h1; cases hr⟩
  | append_singleton rows r ih =>
    obtain ⟨h1, h2⟩ := ih (startsAt_prefix h)
    have hr := h rows r [] rfl
    rw [countP_snoc]
    by_cases hi : r.init = true
    · have hb := (hr.1 hi).2
      have hno : ∀ q ∈ rows, q.init ≠ true := by
        intro q hq hqi
        obtain ⟨pre, post, he⟩ := List.append_of_mem hq
        have := ((startsAt_prefix h) pre q post he).1 hqi
        have := hb q hq
        omega
      have hz : rows.countP Row.init = 0 := by rw [List.countP_eq_zero]; exact hno
      rw [hz, if_pos hi]
      refine ⟨le_refl _, fun σ τ k1 k2 => ?_⟩
      rw [startedAt_snoc] at k1 k2
      rcases k1 with ⟨q, hq, k, _⟩ | ⟨_, k1⟩
      · exact absurd k (hno q hq)
      rcases k2 with ⟨q, hq, k, _⟩ | ⟨_, k2⟩
      · exact absurd k (hno q hq)
      rw [← k1, ← k2]
    · rw [if_neg hi]
      refine ⟨h1, fun σ τ k1 k2 => ?_⟩
      rw [startedAt_snoc] at k1 k2
      exact h2 σ τ (k1.resolve_right (fun k => hi k.1)) (k2.resolve_right (fun k => hi k.1))

/-- Before the start nothing is repeated. -/
theorem every_none {I : Int} {act : Row → Bool} {rows : List Row} (h : Every I act rows) (hn : ∀ σ, ¬ StartedAt rows σ) :
    rows.countP act = 0 := by
  rw [List.countP_eq_zero]
  intro q hq ha
  obtain ⟨pre, post, he⟩ := List.append_of_mem hq
  obtain ⟨σ, ⟨x, hx, k⟩, _⟩ := (h pre q post he).1 ha
  refine hn σ ⟨x, ?_, k⟩
  rw [he]
  rcases List.mem_append.1 hx with hx | hx
  · exact List.mem_append_left _ hx
  · rw [List.mem_singleton] at hx; subst hx; exact List.mem_append_right _ List.mem_cons_self

theorem count_dense {start I : Int} {act : Row → Bool} (hI : 0 < I) {σ : Int} (rows : List Row) : ∀ (r : Row),
    StartsAt start (rows ++ [r]) → Every I act (rows ++ [r]) → Dense I (rows ++ [r]) → StartedAt (rows ++ [r]) σ →
    ((rows ++ [r]).countP act : Int) * I ≤ r.time - σ ∧ r.time - σ < ((rows ++ [r]).countP act + 1) * I := by
  induction rows using List.reverseRecOn with
  | nil =>
    intro r hs he hd hst
    have hr := he [] r [] rfl
    rw [List.nil_append] at hst ⊢
    obtain ⟨q, hq, h1, h2⟩ := hst
    rw [List.mem_singleton] at hq
    subst hq
    have hno : act q ≠ true := by
      intro ha
      obtain ⟨τ, k1, k2⟩ := hr.1 ha
      obtain ⟨q', hq', _, k3⟩ := k1
      rw [List.nil_append, List.mem_singleton] at hq'
      subst hq'
      rw [List.countP_nil] at k2
      push_cast at k2
      rw [one_mul] at k2
      omega
    rw [List.countP_singleton, if_neg hno]
    push_cast
    omega
  | append_singleton rows q ih =>
    intro r hs he hd hst
    have hr := he (rows ++ [q]) r [] rfl
    have hu := (start_unique hs).2
    by_cases hb : ∃ τ, StartedAt (rows ++ [q]) τ
    · obtain ⟨τ, hb⟩ := hb
      have hτ : τ = σ := hu τ σ (startedAt_snoc.2 (Or.inl hb)) hst
      subst hτ
      obtain ⟨i1, i2⟩ := ih q (startsAt_prefix hs) (every_prefix he) (dense_prefix hd) hb
      obtain ⟨d1, d2⟩ := hd rows q r [] (by rw [List.append_assoc]; rfl)
      rw [countP_snoc]
      by_cases ha : act r = true
      · rw [if_pos ha]
        obtain ⟨τ', k1, k2⟩ := hr.1 ha
        have := hu τ' τ k1 hst
        subst this
        push_cast
        constructor
        · linarith
        · linarith
      · rw [if_neg ha]
        have : ¬ τ + ((rows ++ [q]).countP act + 1) * I ≤ r.time := fun k => ha (hr.2 ⟨τ, hst, k⟩)
        push_cast at this ⊢
        constructor
        · linarith
        · linarith
    · have hn : ∀ τ, ¬ StartedAt (rows ++ [q]) τ := fun τ h => hb ⟨τ, h⟩
      have hz := every_none (every_prefix he) hn
      have hσ : r.time = σ := by
        rw [startedAt_snoc] at hst
        exact (hst.resolve_left (hn σ)).2
      have hno : act r ≠ true := by
        intro ha
        obtain ⟨τ, k1, k2⟩ := hr.1 ha
        have := hu τ σ k1 hst
        subst this
        rw [hz] at k2
        push_cast at k2
        rw [one_mul] at k2
        omega
      rw [countP_snoc, hz, if_neg hno]
      push_cast
      omega

/-! ### Runs -/

theorem othersLedger_append (es fs : List Event) (m : List Entry) :
    othersLedger m (es ++ fs) = othersLedger (othersLedger m es) fs := by
  induction es generalizing m with
  | nil => rfl
  | cons e es ih =>
    rw [List.cons_append]
    cases e <;> exact ih _

/-- The ledger of a transaction. -/
theorem ledger_some {m : List Entry} {t : Transaction} {p : Pool} {op : PoolOp} (h : opOf t p = some op) :
    othersLedger m [.apply t] = op.ledger m := by
  unfold opOf at h
  show (match t.type with
        | "Mint" => (⟨t.tickLower, t.tickUpper, t.amount.toNat⟩ :: m : List Entry)
        | "Burn" => if t.amount.toNat = 0 then m else ⟨t.tickLower, t.tickUpper, -t.amount.toNat⟩ :: m
        | _ => m) = _
  split at h
  · rename_i e; rw [e]; cases h; rfl
  · rename_i e; rw [e]; cases h; rfl
  · rename_i e; rw [e]; cases h; rfl
  · rename_i e
    rw [e]
    split at h
    · cases h; rfl
    · split at h
      · cases h; rfl
      · cases h
  · cases h

theorem ledger_none {m : List Entry} {t : Transaction} {p : Pool} (h : opOf t p = none) : othersLedger m [.apply t] = m := by
  unfold opOf at h
  show (match t.type with
        | "Mint" => (⟨t.tickLower, t.tickUpper, t.amount.toNat⟩ :: m : List Entry)
        | "Burn" => if t.amount.toNat = 0 then m else ⟨t.tickLower, t.tickUpper, -t.amount.toNat⟩ :: m
        | _ => m) = _
  split at h
  · cases h
  · cases h
  · cases h
  · rename_i e; rw [e]; rfl
  · rename_i h1 h2 h3 h4
    split
    · exact absurd (by assumption) h1
    · exact absurd (by assumption) h2
    · rfl

/-- One event. -/
theorem does_runs {fuel : Nat} {m : List Entry} {s s' : Strat} {e : Event} {vs : List U256} (hr : Runs m s)
    (hw : e.Within fuel m s) (hd : e.Does fuel s vs s') : Runs (othersLedger m [e]) s' := by
  cases e with
  | init =>
    obtain ⟨c, v, h, _⟩ := hd
    obtain ⟨h1, h2⟩ := hw c s' h
    exact .init fuel hr h h1 h2
  | price => exact .snapshot hr hd.1
  | value => obtain ⟨_, _, _, rfl, _⟩ := hd; exact hr
  | rebalance =>
    obtain ⟨c, h, _⟩ := hd
    obtain ⟨h1, h2⟩ := hw c s' h
    exact .rebalance fuel hr h h1 h2
  | apply t =>
    obtain ⟨p', h, rfl, _⟩ := hd
    unfold Applies at h
    split at h
    · rename_i op ho
      rw [ledger_some ho]
      exact .trade fuel op hr (hw op ho) h
    · rename_i ho
      rw [ledger_none ho, h]
      exact hr

/-- A trace of events is a run. -/
theorem trace_runs {fuel : Nat} {es : List Event} {s s' : Strat} {vs : List U256} (ht : Trace fuel es s vs s') :
    ∀ {m : List Entry}, Runs m s → AllWithin fuel m s es → Runs (othersLedger m es) s' := by
  induction ht with
  | nil => intro m hr _; exact hr
  | @cons e es s s1 s' vs ws h ht ih =>
    intro m hr hw
    have h1 := does_runs hr (hw [] e es s [] rfl .nil) h
    have := ih h1 (by
      intro pre ev post s2 us he hp
      have := hw (e :: pre) ev post s2 (vs ++ us) (by rw [he]; rfl) (.cons h hp)
      rw [show e :: pre = [e] ++ pre from rfl, othersLedger_append] at this
      exact this)
    rw [show e :: es = [e] ++ es from rfl, othersLedger_append]
    exact this

/-! ### Buy and hold -/

theorem idle_does {fuel : Nat} {s s' : Strat} {e : Event} {vs : List U256} (hk : s.kind = .noProvision) (hd : e.Does fuel s vs s') :
    match e with
    | .apply t => Applies fuel t s.pool s'.pool ∧ s' = { s with pool := s'.pool } ∧ vs = []
    | .init => s' = s ∧ vs.map toNat = [usdValue (s.amount0, s.amount1) s.pool.price]
    | .value => s' = s ∧ vs.map toNat = [usdValue (s.amount0, s.amount1) s.pool.price]
    | _ => s' = s ∧ vs = [] := by
  cases e with
  | init =>
    obtain ⟨c, v, h, rfl, hv⟩ := hd
    unfold Strat.init Strat.openFirst at h
    rw [hk] at h
    cases h
    exact ⟨rfl, by rw [List.map_cons, hv]; rfl⟩
  | price =>
    obtain ⟨h, rfl⟩ := hd
    unfold Strat.makeSnapshot at h
    rw [hk] at h
    cases h
    exact ⟨rfl, rfl⟩
  | value =>
    obtain ⟨c, v, h, rfl, rfl, hv⟩ := hd
    unfold Strat.getAmounts at h
    rw [hk] at h
    cases h
    exact ⟨rfl, by rw [List.map_cons, hv]; rfl⟩
  | rebalance =>
    obtain ⟨c, h, rfl⟩ := hd
    unfold Strat.rebalance at h
    rw [hk] at h
    cases h
    exact ⟨rfl, rfl⟩
  | apply t =>
    obtain ⟨p', h, rfl, rfl⟩ := hd
    exact ⟨h, rfl, rfl⟩

theorem trace_append_inv {fuel : Nat} {es fs : List Event} {s s' : Strat} {vs : List U256} (h : Trace fuel (es ++ fs) s vs s') :
    ∃ s1 us ws, Trace fuel es s us s1 ∧ Trace fuel fs s1 ws s' ∧ vs = us ++ ws := by
  induction es generalizing s vs with
  | nil => exact ⟨s, [], vs, .nil, h, rfl⟩
  | cons e es ih =>
    rw [List.cons_append] at h
    cases h with
    | cons h1 h2 =>
      obtain ⟨s1, us, ws, k1, k2, rfl⟩ := ih h2
      exact ⟨s1, _, ws, .cons h1 k1, k2, (List.append_assoc _ _ _).symm⟩

theorem trace_one_inv {fuel : Nat} {e : Event} {s s' : Strat} {vs : List U256} (h : Trace fuel [e] s vs s') : e.Does fuel s vs s' := by
  cases h with
  | cons h1 h2 => cases h2; rw [List.append_nil]; exact h1

/-- An optional event of the holding strategy that is not a transaction. -/
theorem idle_opt {fuel : Nat} {s s' : Strat} {e : Event} {b : Bool} {vs : List U256} (hk : s.kind = .noProvision)
    (h : Trace fuel (if b then [e] else []) s vs s') :
    (e = .init ∨ e = .value → s' = s ∧ vs.map toNat = List.replicate (if b then 1 else 0) (usdValue (s.amount0, s.amount1) s.pool.price)) ∧
    (e = .price ∨ e = .rebalance → s' = s ∧ vs = []) := by
  cases b with
  | false =>
    rw [if_neg (by decide)] at h
    cases h
    exact ⟨fun _ => ⟨rfl, rfl⟩, fun _ => ⟨rfl, rfl⟩⟩
  | true =>
    rw [if_pos rfl] at h
    have := idle_does hk (trace_one_inv h)
    constructor
    · rintro (rfl | rfl) <;> exact this
    · rintro (rfl | rfl) <;> exact this

theorem idle_row {fuel : Nat} {s s' : Strat} {r : Row} {vs : List U256} (hk : s.kind = .noProvision) (h : Trace fuel r.events s vs s') :
    Applies fuel r.tx s.pool s'.pool ∧ s' = { s with pool := s'.pool } ∧
    vs.map toNat = List.replicate ((if r.init then 1 else 0) + if r.value then 1 else 0) (usdValue (s.amount0, s.amount1) s.pool.price) := by
  unfold Row.events at h
  obtain ⟨s4, w4, v5, g4, h5, rfl⟩ := trace_append_inv h
  obtain ⟨s3, w3, v4, g3, h4, rfl⟩ := trace_append_inv g4
  obtain ⟨s2, w2, v3, g2, h3, rfl⟩ := trace_append_inv g3
  obtain ⟨s1, v1, v2, h1, h2, rfl⟩ := trace_append_inv g2
  obtain ⟨rfl, e1⟩ := (idle_opt hk h1).1 (Or.inl rfl)
  obtain ⟨rfl, rfl⟩ := (idle_opt hk h2).2 (Or.inl rfl)
  obtain ⟨rfl, e3⟩ := (idle_opt hk h3).1 (Or.inr rfl)
  obtain ⟨rfl, rfl⟩ := (idle_opt hk h4).2 (Or.inr rfl)
  obtain ⟨k1, k2, rfl⟩ := idle_does hk (trace_one_inv h5)
  refine ⟨k1, k2, ?_⟩
  simp only [List.append_nil, List.map_append, e1, e3]
  rw [List.replicate_append_replicate]

theorem idle_trace {fuel : Nat} (rows : List Row) : ∀ {s s' : Strat} {vs : List U256}, s.kind = .noProvision →
    Trace fuel (rows.flatMap Row.events) s vs s' →
    s' = { s with pool := s'.pool } ∧ Hold fuel (s.amount0, s.amount1) rows s.pool (vs.map toNat) s'.pool := by
  induction rows with
  | nil => intro s s' vs hk h; cases h; exact ⟨rfl, .nil⟩
  | cons r rows ih =>
    intro s s' vs hk h
    rw [List.flatMap_cons] at h
    obtain ⟨s1, us, ws, h1, h2, rfl⟩ := trace_append_inv h
    obtain ⟨k1, k2, k3⟩ := idle_row hk h1
    have e0 : s1.amount0 = s.amount0 := by rw [k2]
    have e1 : s1.amount1 = s.amount1 := by rw [k2]
    obtain ⟨i1, i2⟩ := ih (by rw [k2]; exact hk) h2
    rw [e0, e1] at i2
    refine ⟨?_, ?_⟩
    · rw [i1, k2]
    · rw [List.map_append, k3]
      exact .cons k1 i2

theorem hold_replay {fuel : Nat} {c : U256 × U256} {rows : List Row} {p p' : Pool} {vs : List Nat} (h : Hold fuel c rows p vs p') :
    Replay fuel (rows.map Row.tx) p p' := by
  induction h with
  | nil => exact .nil
  | cons h _ ih => exact .cons h ih

/-- The number of recorded values. -/
theorem opt_length {fuel : Nat} {s s' : Strat} {e : Event} {b : Bool} {vs : List U256} (h : Trace fuel (if b then [e] else []) s vs s') :
    (e = .init ∨ e = .value → vs.length = if b then 1 else 0) ∧ (e = .price ∨ e = .rebalance → vs.length = 0) := by
  cases b with
  | false =>
    rw [if_neg (by decide)] at h
    cases h
    exact ⟨fun _ => rfl, fun _ => rfl⟩
  | true =>
    rw [if_pos rfl] at h
    have := trace_one_inv h
    constructor
    · rintro (rfl | rfl)
      · obtain ⟨_, _, _, rfl, _⟩ := this; rfl
      · obtain ⟨_, _, _, _, rfl, _⟩ := this; rfl
    · rintro (rfl | rfl)
      · obtain ⟨_, rfl⟩ := this; rfl
      · obtain ⟨_, _, rfl⟩ := this; rfl

theorem trace_length {fuel : Nat} (rows : List Row) : ∀ {s s' : Strat} {vs : List U256}, Trace fuel (rows.flatMap Row.events) s vs s' →
    vs.length = rows.countP Row.init + rows.countP Row.value := by
  induction rows with
  | nil => intro s s' vs h; cases h; rfl
  | cons r rows ih =>
    intro s s' vs h
    rw [List.flatMap_cons] at h
    obtain ⟨s1, us, ws, h1, h2, rfl⟩ := trace_append_inv h
    have := ih h2
    unfold Row.events at h1
    obtain ⟨s4, w4, v5, g4, h5, rfl⟩ := trace_append_inv h1
    obtain ⟨s3, w3, v4, g3, h4, rfl⟩ := trace_append_inv g4
    obtain ⟨s2, w2, v3, g2, h3, rfl⟩ := trace_append_inv g3
    obtain ⟨s1', v1, v2, h1', h2', rfl⟩ := trace_append_inv g2
    have e1 := (opt_length h1').1 (Or.inl rfl)
    have e2 := (opt_length h2').2 (Or.inl rfl)
    have e3 := (opt_length h3).1 (Or.inr rfl)
    have e4 := (opt_length h4).2 (Or.inr rfl)
    have e5 : v5.length = 0 := by
      obtain ⟨_, _, _, rfl⟩ := trace_one_inv h5; rfl
    simp only [List.length_append, List.countP_cons]
    omega

/-! ### The order of the transactions, without any assumption on the times -/

theorem loop_order {e : Execution} {fuel : Nat} (ts : List Transaction) : ∀ {st st' : RunState}, e.loop fuel ts st = .ok st' →
    ∃ (more : List Row) (vs : List U256), more.map Row.tx = upTo e.endTime ts ∧
      Trace fuel (more.flatMap Row.events) st.strategy vs st'.strategy ∧ st'.snapshots = st.snapshots ++ vs := by
  induction ts with
  | nil =>
    intro st st' h
    cases h
    exact ⟨[], [], rfl, .nil, by rw [List.append_nil]⟩
  | cons t ts ih =>
    intro st st' h
    unfold loop at h
    split at h
    · rename_i hlt
      cases h
      refine ⟨[], [], ?_, .nil, by rw [List.append_nil]⟩
      unfold upTo
      rw [List.takeWhile_cons_of_neg (by rw [decide_eq_true_eq]; omega)]
      rfl
    · rename_i hlt
      obtain ⟨st1, h1, h2⟩ := bind_ok h
      obtain ⟨r, vs, hs⟩ := step_spec h1
      obtain ⟨more, ws, k2, k3, k4⟩ := ih h2
      refine ⟨r :: more, vs ++ ws, ?_, ?_, ?_⟩
      · rw [List.map_cons, k2, hs.tx]
        unfold upTo
        rw [List.takeWhile_cons_of_pos (by rw [decide_eq_true_eq]; omega)]
      · rw [List.flatMap_cons]; exact hs.trace.append k3
      · rw [k4, hs.snapshots, List.append_assoc]

/-- The transactions among the events of the rows. -/
theorem applied_rows (rows : List Row) : (rows.flatMap Row.events).filterMap Event.tx? = rows.map Row.tx := by
  induction rows with
  | nil => rfl
  | cons r rows ih =>
    rw [List.flatMap_cons, List.filterMap_append, ih, List.map_cons]
    unfold Row.events
    cases r.init <;> cases r.price <;> cases r.value <;> cases r.rebalance <;> rfl

end Execution
end Uni
