import Verif.Spec.Executor
import Verif.Proofs.StratHead
/-! # The executor follows its schedule -/
namespace Uni
namespace Execution
open U256 Spec FullMath Cons Pool

theorem toNat_q192 : q192.toNat = 2 ^ 192 := by decide +kernel

theorem addInt_eq {a b : Int} (h0 : -(2 ^ 63) ≤ a + b) (h1 : a + b < 2 ^ 63) : addInt a b = a + b := by
  unfold addInt
  rw [Int.bmod_def]
  omega

/-- The recorded value. -/
theorem usd_eq {c : U256 × U256} {P v : U256} (h : usd c P = .ok v) : v.toNat = usdValue c P := by
  unfold usd at h
  obtain ⟨x, h1, h2⟩ := bind_ok h
  cases h2
  have e := ((mulDiv_ok_iff _ _ _ _).1 h1).2
  rw [toNat_add, e, toNat_ofNat, toNat_q192, toNat_mul]
  unfold usdValue
  omega

theorem apply_eq {fuel : Nat} {t : Transaction} {p p' : Pool} (h : t.apply fuel p = .ok p') : Applies fuel t p p' := by
  unfold Transaction.apply at h
  unfold Applies opOf
  split at h
  · rename_i e; rw [e]; exact h
  split at h
  · rename_i e; rw [e]; exact h
  split at h
  · rename_i e; rw [e]
    show match (if 0 < t.amount0.toInt then some (PoolOp.exactInput t.amount0 p.token0 zero)
      else if 0 < t.amount1.toInt then some (PoolOp.exactInput t.amount1 p.token1 zero) else none) with
      | some op => op.exec fuel p = .ok p'
      | none => p' = p
    have hs : ∀ a : U256, a.sign > 0 ↔ 0 < a.toInt := fun a => by rw [gt_iff_lt, sign_eq_toInt, sgn_pos]
    split at h
    · rename_i h0; rw [if_pos ((hs _).1 h0)]; exact h
    · rename_i h0; rw [if_neg (fun k => h0 ((hs _).2 k))]
      split at h
      · rename_i h1; rw [if_pos ((hs _).1 h1)]; exact h
      · rename_i h1; rw [if_neg (fun k => h1 ((hs _).2 k))]; cases h; rfl
  split at h
  · rename_i e; rw [e]; exact h
  · rename_i h1 h2 h3 h4
    cases h
    split
    · rename_i op ho
      split at ho <;> first | (exfalso; first | exact h1 (by assumption) | exact h2 (by assumption) | exact h3 (by assumption) | exact h4 (by assumption)) | cases ho
    · rfl

theorem _root_.Uni.Spec.Trace.append {fuel : Nat} {es fs : List Event} {s s1 s' : Strat} {vs ws : List U256} (h1 : Trace fuel es s vs s1)
    (h2 : Trace fuel fs s1 ws s') : Trace fuel (es ++ fs) s (vs ++ ws) s' := by
  induction h1 with
  | nil => exact h2
  | cons h ht ih => rw [List.append_assoc]; exact .cons h (ih h2)

theorem _root_.Uni.Spec.Trace.one {fuel : Nat} {e : Event} {s s' : Strat} {vs : List U256} (h : e.Does fuel s vs s') : Trace fuel [e] s vs s' := by
  have := Trace.cons h (Trace.nil (fuel := fuel))
  rwa [List.append_nil] at this

/-- The times of one iteration of the loop. -/
structure StepTime (e : Execution) (t : Transaction) (st st' : RunState) (r : Row) : Prop where
  tx : r.tx = t
  init : r.init = true ↔ st.started = false ∧ e.startTime ≤ t.timestamp
  started : st'.started = (st.started || r.init)
  price : r.price = true ↔ st.nextPrice < t.timestamp
  nextPrice : st'.nextPrice = if r.price then addInt st.nextPrice e.pricesSnapshotsInterval else st.nextPrice
  value : r.value = true ↔ (if r.init then addInt t.timestamp e.snapShotInterval else st.nextSnapshot) ≤ t.timestamp
  nextSnapshot : st'.nextSnapshot = if r.value then addInt (if r.init then addInt t.timestamp e.snapShotInterval else st.nextSnapshot) e.snapShotInterval
    else (if r.init then addInt t.timestamp e.snapShotInterval else st.nextSnapshot)
  rebalance : r.rebalance = true ↔ (if r.init then addInt t.timestamp e.updateInterval else st.nextUpdate) ≤ t.timestamp
  nextUpdate : st'.nextUpdate = if r.rebalance then addInt (if r.init then addInt t.timestamp e.updateInterval else st.nextUpdate) e.updateInterval
    else (if r.init then addInt t.timestamp e.updateInterval else st.nextUpdate)

/-- One iteration of the loop. -/
structure StepSpec (e : Execution) (fuel : Nat) (t : Transaction) (st st' : RunState) (r : Row) (vs : List U256) : Prop extends
    StepTime e t st st' r where
  trace : Trace fuel r.events st.strategy vs st'.strategy
  snapshots : st'.snapshots = st.snapshots ++ vs

theorem start_spec {e : Execution} {fuel : Nat} {t : Transaction} {st st' : RunState} (h : e.startIf fuel t st = .ok st') :
    ∃ (b : Bool) (vs : List U256), (b = true ↔ st.started = false ∧ e.startTime ≤ t.timestamp) ∧ st'.started = (st.started || b) ∧
      st'.nextPrice = st.nextPrice ∧
      st'.nextSnapshot = (if b then addInt t.timestamp e.snapShotInterval else st.nextSnapshot) ∧
      st'.nextUpdate = (if b then addInt t.timestamp e.updateInterval else st.nextUpdate) ∧
      Trace fuel (if b then [Event.init] else []) st.strategy vs st'.strategy ∧ st'.snapshots = st.snapshots ++ vs := by
  unfold startIf at h
  split at h
  · rename_i hc
    obtain ⟨r, h1, h⟩ := bind_ok h
    obtain ⟨v, h2, h⟩ := bind_ok h
    cases h
    simp only [Bool.and_eq_true, Bool.not_eq_true', decide_eq_true_eq] at hc
    refine ⟨true, [v], ⟨fun _ => hc, fun _ => rfl⟩, by rw [Bool.or_true], rfl, rfl, rfl, ?_, rfl⟩
    exact Trace.one ⟨r.1, v, h1, rfl, usd_eq h2⟩
  · rename_i hc
    cases h
    simp only [Bool.and_eq_true, Bool.not_eq_true', decide_eq_true_eq] at hc
    exact ⟨false, [], ⟨fun h => Bool.noConfusion h, fun h => absurd h hc⟩, by rw [Bool.or_false], rfl, rfl, rfl, .nil, by rw [List.append_nil]⟩

theorem price_spec {e : Execution} {fuel : Nat} {t : Transaction} {st st' : RunState} (h : e.priceIf t st = .ok st') :
    ∃ b : Bool, (b = true ↔ st.nextPrice < t.timestamp) ∧ st'.started = st.started ∧
      st'.nextPrice = (if b then addInt st.nextPrice e.pricesSnapshotsInterval else st.nextPrice) ∧
      st'.nextSnapshot = st.nextSnapshot ∧ st'.nextUpdate = st.nextUpdate ∧
      Trace fuel (if b then [Event.price] else []) st.strategy [] st'.strategy ∧ st'.snapshots = st.snapshots := by
  unfold priceIf at h
  split at h
  · rename_i hc
    obtain ⟨r, h1, h⟩ := bind_ok h
    cases h
    exact ⟨true, ⟨fun _ => hc, fun _ => rfl⟩, rfl, rfl, rfl, rfl, Trace.one ⟨h1, rfl⟩, rfl⟩
  · rename_i hc
    cases h
    exact ⟨false, ⟨fun h => Bool.noConfusion h, fun h => absurd h hc⟩, rfl, rfl, rfl, rfl, .nil, rfl⟩

theorem value_spec {e : Execution} {fuel : Nat} {t : Transaction} {st st' : RunState} (h : e.valueIf t st = .ok st') :
    ∃ (b : Bool) (vs : List U256), (b = true ↔ st.nextSnapshot ≤ t.timestamp) ∧ st'.started = st.started ∧
      st'.nextPrice = st.nextPrice ∧
      st'.nextSnapshot = (if b then addInt st.nextSnapshot e.snapShotInterval else st.nextSnapshot) ∧ st'.nextUpdate = st.nextUpdate ∧
      Trace fuel (if b then [Event.value] else []) st.strategy vs st'.strategy ∧ st'.snapshots = st.snapshots ++ vs := by
  unfold valueIf at h
  split at h
  · rename_i hc
    obtain ⟨c, h1, h⟩ := bind_ok h
    obtain ⟨v, h2, h⟩ := bind_ok h
    cases h
    exact ⟨true, [v], ⟨fun _ => hc, fun _ => rfl⟩, rfl, rfl, rfl, rfl, Trace.one ⟨c, v, h1, rfl, rfl, usd_eq h2⟩, rfl⟩
  · rename_i hc
    cases h
    exact ⟨false, [], ⟨fun h => Bool.noConfusion h, fun h => absurd h hc⟩, rfl, rfl, rfl, rfl, .nil, by rw [List.append_nil]⟩

theorem rebalance_spec {e : Execution} {fuel : Nat} {t : Transaction} {st st' : RunState} (h : e.rebalanceIf fuel t st = .ok st') :
    ∃ b : Bool, (b = true ↔ st.nextUpdate ≤ t.timestamp) ∧ st'.started = st.started ∧
      st'.nextPrice = st.nextPrice ∧ st'.nextSnapshot = st.nextSnapshot ∧
      st'.nextUpdate = (if b then addInt st.nextUpdate e.updateInterval else st.nextUpdate) ∧
      Trace fuel (if b then [Event.rebalance] else []) st.strategy [] st'.strategy ∧ st'.snapshots = st.snapshots := by
  unfold rebalanceIf at h
  split at h
  · rename_i hc
    obtain ⟨r, h1, h⟩ := bind_ok h
    cases h
    exact ⟨true, ⟨fun _ => hc, fun _ => rfl⟩, rfl, rfl, rfl, rfl, Trace.one ⟨r.1, h1, rfl⟩, rfl⟩
  · rename_i hc
    cases h
    exact ⟨false, ⟨fun h => Bool.noConfusion h, fun h => absurd h hc⟩, rfl, rfl, rfl, rfl, .nil, rfl⟩

theorem step_spec {e : Execution} {fuel : Nat} {t : Transaction} {st st' : RunState} (h : e.step fuel t st = .ok st') :
    ∃ r vs, StepSpec e fuel t st st' r vs := by
  unfold step at h
  obtain ⟨s1, h1, h⟩ := bind_ok h
  obtain ⟨s2, h2, h⟩ := bind_ok h
  obtain ⟨s3, h3, h⟩ := bind_ok h
  obtain ⟨s4, h4, h⟩ := bind_ok h
  unfold applyTrans at h
  obtain ⟨p, h5, h⟩ := bind_ok h
  cases h
  obtain ⟨bi, vi, a1, a2, a3, a4, a5, a6, a7⟩ := start_spec h1
  obtain ⟨bp, b1, b2, b3, b4, b5, b6, b7⟩ := price_spec (fuel := fuel) h2
  obtain ⟨bv, vv, c1, c2, c3, c4, c5, c6, c7⟩ := value_spec (fuel := fuel) h3
  obtain ⟨br, d1, d2, d3, d4, d5, d6, d7⟩ := rebalance_spec h4
  refine ⟨⟨t, bi, bp, bv, br⟩, vi ++ [] ++ vv ++ [] ++ [], ⟨⟨rfl, a1, ?_, ?_, ?_, ?_, ?_, ?_, ?_⟩, ?_, ?_⟩⟩
  · dsimp only; rw [d2, c2, b2, a2]
  · dsimp only; rw [b1, a3]
  · dsimp only; rw [d3, c3, b3, a3]
  · dsimp only; rw [c1, b4, a4]
  · dsimp only; rw [d4, c4, b4, a4]
  · dsimp only; rw [d1, c5, b5, a5]
  · dsimp only; rw [d5, c5, b5, a5]
  · exact (((a6.append b6).append c6).append d6).append (Trace.one ⟨p, apply_eq h5, rfl, rfl⟩)
  · dsimp only; rw [d7, c7, b7, a7]; simp only [List.append_nil, List.append_assoc]

/-! ### The schedule -/

theorem snoc_split {α : Type} {Φ : List α → α → Prop} {xs : List α} {x : α} (h : ∀ pre r post, xs = pre ++ r :: post → Φ pre r)
    (hx : Φ xs x) : ∀ pre r post, xs ++ [x] = pre ++ r :: post → Φ pre r := by
  intro pre r post he
  rcases List.eq_nil_or_concat post with rfl | ⟨post', y, rfl⟩
  · obtain ⟨rfl, h2⟩ := List.append_inj' he rfl
    cases h2
    exact hx
  · rw [List.concat_eq_append, ← List.cons_append, ← List.append_assoc] at he
    obtain ⟨h1, _⟩ := List.append_inj' he rfl
    exact h pre r post' h1

/-- The state of the loop after the rows `rows`. -/
structure LoopInv (e : Execution) (rows : List Row) (st : RunState) : Prop where
  start : StartsAt e.startTime rows
  value : Every e.snapShotInterval Row.value rows
  rebalance : Every e.updateInterval Row.rebalance rows
  price : EveryFromZero e.pricesSnapshotsInterval Row.price rows
  nextPrice : st.nextPrice = rows.countP Row.price * e.pricesSnapshotsInterval
  before : st.started = false → (∀ r ∈ rows, r.time < e.startTime ∧ r.init = false) ∧ st.nextSnapshot = 2 ^ 63 - 1 ∧ st.nextUpdate = 2 ^ 63 - 1
  after : st.started = true → ∃ σ, (∀ τ, StartedAt rows τ ↔ τ = σ) ∧ (∃ r ∈ rows, e.startTime ≤ r.time) ∧ -(2 ^ 63) ≤ σ ∧
    st.nextSnapshot = σ + (rows.countP Row.value + 1) * e.snapShotInterval ∧
    st.nextUpdate = σ + (rows.countP Row.rebalance + 1) * e.updateInterval

theorem startedAt_snoc {rows : List Row} {r : Row} {τ : Int} :
    StartedAt (rows ++ [r]) τ ↔ StartedAt rows τ ∨ (r.init = true ∧ r.time = τ) := by
  unfold StartedAt
  constructor
  · rintro ⟨q, hq, h⟩
    rcases List.mem_append.1 hq with hq | hq
    · exact Or.inl ⟨q, hq, h⟩
    · rw [List.mem_singleton] at hq; subst hq; exact Or.inr h
  · rintro (⟨q, hq, h⟩ | h)
    · exact ⟨q, List.mem_append_left _ hq, h⟩
    · exact ⟨r, List.mem_append_right _ (List.mem_singleton.2 rfl), h⟩

theorem loopInv_start (e : Execution) : LoopInv e [] e.initial where
  start := fun pre r post h => by cases pre <;> cases h
  value := fun pre r post h => by cases pre <;> cases h
  rebalance := fun pre r post h => by cases pre <;> cases h
  price := fun pre r post h => by cases pre <;> cases h
  nextPrice := by show (0 : Int) = ((0 : Nat) : Int) * _; rw [Nat.cast_zero, zero_mul]
  before := fun _ => ⟨fun r hr => (by cases hr), rfl, rfl⟩
  after := fun h => by cases h

theorem countP_snoc (f : Row → Bool) (rows : List Row) (r : Row) :
    ((rows ++ [r]).countP f : Nat) = rows.countP f + if f r then 1 else 0 := by
  rw [List.countP_append, List.countP_singleton]

/-- The due time of a repeated action, before and after. -/
theorem due_step {n : Nat} {σ I ts next : Int} {b : Bool} (hI : 0 ≤ I) (hσ : -(2 ^ 63) ≤ σ) (hts : ts + I < 2 ^ 63)
    (hn : next = σ + ((n : Int) + 1) * I) (hb : b = true ↔ next ≤ ts) :
    (if b then addInt next I else next) = σ + (((n + if b then 1 else 0 : Nat) : Int) + 1) * I := by
  have hp : 0 ≤ ((n : Int) + 1) * I := mul_nonneg (by omega) hI
  cases b with
  | false => rw [if_neg (by decide), if_neg (by decide), hn]; rfl
  | true =>
    have := hb.1 rfl
    rw [if_pos rfl, if_pos rfl, addInt_eq (by omega) (by omega), hn]
    push_cast
    ring

theorem loopInv_step {e : Execution} {rows : List Row} {st st' : RunState} {t : Transaction} {r : Row}
    (hc : Clock e) (ht : t ∈ e.transactions) (hi : LoopInv e rows st) (hs : StepTime e t st st' r) :
    LoopInv e (rows ++ [r]) st' := by
  have htime : r.time = t.timestamp := by unfold Row.time; rw [hs.tx]
  obtain ⟨hlo, hhi⟩ := hc.times t ht
  obtain ⟨hu0, hu1⟩ := hc.update
  obtain ⟨hv0, hv1⟩ := hc.snapshot
  obtain ⟨hp0, hp1⟩ := hc.price
  replace hu1 := hu1 t ht
  replace hv1 := hv1 t ht
  replace hp1 := hp1 t ht
  -- the start
  have hstart : r.init = true ↔ e.startTime ≤ r.time ∧ ∀ q ∈ rows, q.time < e.startTime := by
    rw [hs.init, htime]
    constructor
    · rintro ⟨h1, h2⟩; exact ⟨h2, fun q hq => ((hi.before h1).1 q hq).1⟩
    · rintro ⟨h1, h2⟩
      refine ⟨?_, h1⟩
      cases hst : st.started with
      | false => rfl
      | true =>
        obtain ⟨_, _, ⟨q, hq, h3⟩, _⟩ := hi.after hst
        have := h2 q hq
        omega
  -- the start time and the due times in this row
  have hdue : (st.started = true ∨ r.init = true) → ∃ σ, (∀ τ, StartedAt (rows ++ [r]) τ ↔ τ = σ) ∧ -(2 ^ 63) ≤ σ ∧
      (if r.init then addInt t.timestamp e.snapShotInterval else st.nextSnapshot) = σ + (rows.countP Row.value + 1) * e.snapShotInterval ∧
      (if r.init then addInt t.timestamp e.updateInterval else st.nextUpdate) = σ + (rows.countP Row.rebalance + 1) * e.updateInterval := by
    intro h
    by_cases hr : r.init = true
    · have hst := (hs.init.1 hr).1
      obtain ⟨hb, hb1, hb2⟩ := hi.before hst
      have hno : ∀ τ, ¬ StartedAt rows τ := by
        rintro τ ⟨q, hq, h1, _⟩
        rw [(hb q hq).2] at h1
        cases h1
      have hnone : ∀ pre q post, rows = pre ++ q :: post → q.value = false ∧ q.rebalance = false := by
        intro pre q post he
        have hno' : ∀ τ, ¬ StartedAt (pre ++ [q]) τ := by
          rintro τ ⟨q', hq', h1⟩
          refine hno τ ⟨q', ?_, h1⟩
          rw [he]
          rcases List.mem_append.1 hq' with h | h
          · exact List.mem_append_left _ h
          · rw [List.mem_singleton] at h; subst h
            exact List.mem_append_right _ List.mem_cons_self
        constructor
        · rw [← Bool.not_eq_true]
          intro h2
          obtain ⟨τ, h3, _⟩ := (hi.value pre q post he).1 h2
          exact hno' τ h3
        · rw [← Bool.not_eq_true]
          intro h2
          obtain ⟨τ, h3, _⟩ := (hi.rebalance pre q post he).1 h2
          exact hno' τ h3
      have hz : rows.countP Row.value = 0 ∧ rows.countP Row.rebalance = 0 := by
        constructor <;> rw [List.countP_eq_zero] <;> intro q hq <;> obtain ⟨pre, post, he⟩ := List.append_of_mem hq
        · rw [(hnone pre q post he).1]; decide
        · rw [(hnone pre q post he).2]; decide
      refine ⟨t.timestamp, ?_, hlo, ?_, ?_⟩
      · intro τ
        rw [startedAt_snoc, htime]
        constructor
        · rintro (h | h)
          · exact absurd h (hno τ)
          · exact h.2.symm
        · intro h; exact Or.inr ⟨hr, h.symm⟩
      · rw [if_pos hr, hz.1, addInt_eq (by omega) hv1]; push_cast; ring
      · rw [if_pos hr, hz.2, addInt_eq (by omega) hu1]; push_cast; ring
    · have hst := h.resolve_right hr
      obtain ⟨σ, h1, _, h2, h3, h4⟩ := hi.after hst
      refine ⟨σ, ?_, h2, ?_, ?_⟩
      · intro τ
        rw [startedAt_snoc, h1]
        constructor
        · rintro (h | h)
          · exact h
          · exact absurd h.1 hr
        · exact Or.inl
      · rw [if_neg hr, h3]
      · rw [if_neg hr, h4]
  -- not started: nothing is due
  have hidle : st.started = false → r.init = false → r.value = false ∧ r.rebalance = false ∧ (∀ τ, ¬ StartedAt (rows ++ [r]) τ) := by
    intro h1 h2
    obtain ⟨hb, hb1, hb2⟩ := hi.before h1
    refine ⟨?_, ?_, ?_⟩
    · rw [← Bool.not_eq_true, hs.value, h2, if_neg (by decide), hb1]; omega
    · rw [← Bool.not_eq_true, hs.rebalance, h2, if_neg (by decide), hb2]; omega
    · intro τ h
      rw [startedAt_snoc] at h
      rcases h with ⟨q, hq, h3, _⟩ | ⟨h3, _⟩
      · rw [(hb q hq).2] at h3; cases h3
      · rw [h2] at h3; cases h3
  have hcase : (st.started = true ∨ r.init = true) ∨ (st.started = false ∧ r.init = false) := by
    cases st.started <;> cases r.init <;> simp
  refine ⟨?_, ?_, ?_, ?_, ?_, ?_, ?_⟩
  · exact snoc_split hi.start hstart
  · refine snoc_split hi.value ?_
    rcases hcase with h | ⟨h1, h2⟩
    · obtain ⟨σ, k1, k2, k3, k4⟩ := hdue h
      rw [hs.value, k3, htime]
      constructor
      · intro h; exact ⟨σ, (k1 σ).2 rfl, h⟩
      · rintro ⟨τ, h1, h2⟩; rw [k1] at h1; subst h1; exact h2
    · obtain ⟨k1, _, k3⟩ := hidle h1 h2
      rw [k1]
      exact ⟨fun h => (by cases h), fun ⟨τ, h, _⟩ => absurd h (k3 τ)⟩
  · refine snoc_split hi.rebalance ?_
    rcases hcase with h | ⟨h1, h2⟩
    · obtain ⟨σ, k1, k2, k3, k4⟩ := hdue h
      rw [hs.rebalance, k4, htime]
      constructor
      · intro h; exact ⟨σ, (k1 σ).2 rfl, h⟩
      · rintro ⟨τ, h1, h2⟩; rw [k1] at h1; subst h1; exact h2
    · obtain ⟨_, k1, k3⟩ := hidle h1 h2
      rw [k1]
      exact ⟨fun h => (by cases h), fun ⟨τ, h, _⟩ => absurd h (k3 τ)⟩
  · refine snoc_split hi.price ?_
    rw [hs.price, hi.nextPrice, htime]
  · rw [countP_snoc, hs.nextPrice, hi.nextPrice]
    have hnn : 0 ≤ (rows.countP Row.price : Int) * e.pricesSnapshotsInterval := mul_nonneg (by omega) hp0
    by_cases hr : r.price = true
    · have := hs.price.1 hr
      rw [hi.nextPrice] at this
      rw [if_pos hr, if_pos hr, addInt_eq (by omega) (by omega)]
      push_cast
      ring
    · rw [if_neg hr, if_neg hr]
      rfl
  · intro h
    rw [hs.started, Bool.or_eq_false_iff] at h
    obtain ⟨hb, hb1, hb2⟩ := hi.before h.1
    obtain ⟨k1, k2, _⟩ := hidle h.1 h.2
    refine ⟨?_, ?_, ?_⟩
    · intro q hq
      rcases List.mem_append.1 hq with hq | hq
      · exact hb q hq
      · rw [List.mem_singleton] at hq; subst hq
        refine ⟨?_, h.2⟩
        by_contra hlt
        rw [htime] at hlt
        have := hs.init.2 ⟨h.1, by omega⟩
        rw [h.2] at this
        cases this
    · rw [hs.nextSnapshot, k1, h.2, if_neg (by decide), if_neg (by decide), hb1]
    · rw [hs.nextUpdate, k2, h.2, if_neg (by decide), if_neg (by decide), hb2]
  · intro h
    rw [hs.started, Bool.or_eq_true] at h
    obtain ⟨σ, k1, k2, k3, k4⟩ := hdue h
    refine ⟨σ, k1, ?_, k2, ?_, ?_⟩
    · rcases h with h | h
      · obtain ⟨_, _, ⟨q, hq, h3⟩, _⟩ := hi.after h
        exact ⟨q, List.mem_append_left _ hq, h3⟩
      · exact ⟨r, List.mem_append_right _ (List.mem_singleton.2 rfl), (hstart.1 h).1⟩
    · rw [hs.nextSnapshot, countP_snoc]
      exact due_step hv0 k2 hv1 k3 (by rw [hs.value])
    · rw [hs.nextUpdate, countP_snoc]
      exact due_step hu0 k2 hu1 k4 (by rw [hs.rebalance])

theorem loop_spec {e : Execution} {fuel : Nat} (hc : Clock e) (ts : List Transaction) :
    ∀ {rows : List Row} {st st' : RunState}, (∀ t ∈ ts, t ∈ e.transactions) → LoopInv e rows st → e.loop fuel ts st = .ok st' →
    ∃ more vs, LoopInv e (rows ++ more) st' ∧ more.map Row.tx = upTo e.endTime ts ∧
      Trace fuel (more.flatMap Row.events) st.strategy vs st'.strategy ∧ st'.snapshots = st.snapshots ++ vs := by
  induction ts with
  | nil =>
    intro rows st st' _ hi h
    cases h
    exact ⟨[], [], by rw [List.append_nil]; exact hi, rfl, .nil, by rw [List.append_nil]⟩
  | cons t ts ih =>
    intro rows st st' hm hi h
    unfold loop at h
    split at h
    · rename_i hlt
      cases h
      refine ⟨[], [], by rw [List.append_nil]; exact hi, ?_, .nil, by rw [List.append_nil]⟩
      unfold upTo
      rw [List.takeWhile_cons_of_neg (by rw [decide_eq_true_eq]; omega)]
      rfl
    · rename_i hlt
      obtain ⟨st1, h1, h2⟩ := bind_ok h
      obtain ⟨r, vs, hs⟩ := step_spec h1
      have hi1 := loopInv_step hc (hm t List.mem_cons_self) hi hs.toStepTime
      obtain ⟨more, ws, k1, k2, k3, k4⟩ := ih (fun x hx => hm x (List.mem_cons_of_mem _ hx)) hi1 h2
      refine ⟨r :: more, vs ++ ws, ?_, ?_, ?_, ?_⟩
      · rw [List.append_assoc] at k1; exact k1
      · rw [List.map_cons, k2, hs.tx]
        unfold upTo
        rw [List.takeWhile_cons_of_pos (by rw [decide_eq_true_eq]; omega)]
      · rw [List.flatMap_cons]; exact hs.trace.append k3
      · rw [k4, hs.snapshots, List.append_assoc]

/-- The whole run. -/
theorem run_spec {e e' : Execution} {fuel : Nat} (hc : Clock e) (h : e.run fuel = .ok e') :
    ∃ rows vs s c v, Scheduled e rows ∧ Trace fuel (rows.flatMap Row.events) e.strategy vs s ∧ s.burnAll = .ok (c, e'.strategy) ∧
      e' = { e with strategy := e'.strategy, snapshots := e.snapshots ++ vs ++ [v] } ∧ v.toNat = usdValue c e'.strategy.pool.price := by
  unfold run at h
  obtain ⟨st, h1, h⟩ := bind_ok h
  obtain ⟨b, h2, h⟩ := bind_ok h
  obtain ⟨v, h3, h⟩ := bind_ok h
  cases h
  obtain ⟨rows, vs, k1, k2, k3, k4⟩ := loop_spec hc e.transactions (fun _ h => h) (loopInv_start e) h1
  rw [List.nil_append] at k1
  refine ⟨rows, vs, st.strategy, b.1, v, ⟨k2, k1.start, k1.value, k1.rebalance, k1.price⟩, k3, h2, ?_, usd_eq h3⟩
  rw [k4]
  rfl

end Execution
end Uni
