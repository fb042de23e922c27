import Verif.Spec.Returns
import Verif.Proofs.ExecRuns
import Verif.Proofs.Fund
import Verif.Proofs.Sale
/-! # When a run returns -/
namespace Uni
namespace Execution
open U256 Spec FullMath Cons Pool

theorem usd_ok_iff (c : U256 × U256) (P : U256) : (∃ v, usd c P = .ok v) ↔ Valuable c P := by
  have e2 := toNat_q192
  have e3 : (mul P P).toNat = P.toNat * P.toNat % 2 ^ 256 := toNat_mul P P
  have h1 : (∃ v, usd c P = .ok v) ↔ ∃ x, mulDiv c.2 q192 (mul P P) = .ok x := by
    unfold usd
    constructor
    · rintro ⟨v, h⟩
      obtain ⟨x, h1, _⟩ := bind_ok h
      exact ⟨x, h1⟩
    · rintro ⟨x, h⟩
      rw [h]
      exact ⟨_, rfl⟩
  rw [h1]
  unfold Valuable
  by_cases h0 : c.2.toNat = 0
  · refine ⟨fun _ => Or.inl h0, fun _ => ⟨_, (mulDiv_ok_iff _ _ _ _).2 ⟨Or.inl (by rw [h0, Nat.zero_mul]), rfl⟩⟩⟩
  · have hn : c.2.toNat * 2 ^ 192 ≠ 0 := by omega
    have hw : 4 ≤ Spec.words (c.2.toNat * 2 ^ 192) := by
      by_contra hlt
      have := lt_words (c.2.toNat * 2 ^ 192)
      have h2 : 2 ^ (64 * Spec.words (c.2.toNat * 2 ^ 192)) ≤ 2 ^ 192 := Nat.pow_le_pow_right (by norm_num) (by omega)
      omega
    have hd : Spec.words (P.toNat * P.toNat % 2 ^ 256) ≤ 4 := by
      by_contra hlt
      by_cases hz : P.toNat * P.toNat % 2 ^ 256 = 0
      · rw [hz] at hlt; revert hlt; decide
      have := words_ge hz
      have h2 : 2 ^ 256 ≤ 2 ^ (64 * (Spec.words (P.toNat * P.toNat % 2 ^ 256) - 1)) := Nat.pow_le_pow_right (by norm_num) (by omega)
      have h3 := Nat.mod_lt (P.toNat * P.toNat) (show 0 < 2 ^ 256 by norm_num)
      omega
    constructor
    · rintro ⟨x, h⟩
      rcases ((mulDiv_ok_iff _ _ _ _).1 h).1 with h | h
      · rw [e2] at h; exact absurd h hn
      · rw [e2, e3] at h
        refine Or.inr ⟨fun k => h (Or.inl k), ?_⟩
        rw [Strat.tooLong_iff hn]
        exact fun k => h (Or.inr (Or.inr k))
    · rintro (h | ⟨h1, h2⟩)
      · exact absurd h h0
      · rw [Strat.tooLong_iff hn] at h2
        refine ⟨_, (mulDiv_ok_iff _ _ _ _).2 ⟨Or.inr ?_, rfl⟩⟩
        rw [e2, e3]
        rintro (k | k | k)
        · exact h1 k
        · omega
        · exact h2 k

theorem usd_err_iff (c : U256 × U256) (P : U256) (x : Err) : usd c P = .error x ↔ ¬ Valuable c P ∧ x = .panic := by
  rw [← usd_ok_iff]
  cases h : usd c P with
  | ok v => exact ⟨fun h => (by cases h), fun h => absurd ⟨v, rfl⟩ h.1⟩
  | error y =>
    constructor
    · intro hx
      cases hx
      refine ⟨fun ⟨v, k⟩ => (by cases k), ?_⟩
      unfold usd at h
      cases hm : mulDiv c.2 q192 (mul P P) with
      | ok z => rw [hm] at h; cases h
      | error z =>
        rw [hm] at h
        cases h
        exact ((mulDiv_err_iff _ _ _ _).1 hm).1
    · rintro ⟨_, rfl⟩
      unfold usd at h
      cases hm : mulDiv c.2 q192 (mul P P) with
      | ok z => rw [hm] at h; cases h
      | error z =>
        have := ((mulDiv_err_iff _ _ _ _).1 hm).1
        rw [hm] at h
        cases h
        rw [this]

/-- The value, if it can be computed. -/
theorem usd_val {c : U256 × U256} {P v : U256} : usd c P = .ok v ↔ Valuable c P ∧ v.toNat = usdValue c P := by
  constructor
  · intro h; exact ⟨(usd_ok_iff c P).1 ⟨v, h⟩, usd_eq h⟩
  · rintro ⟨h1, h2⟩
    obtain ⟨w, hw⟩ := (usd_ok_iff c P).2 h1
    rw [hw]
    congr 1
    apply ext_toNat
    rw [usd_eq hw, h2]

theorem apply_iff {fuel : Nat} {t : Transaction} {p : Pool} :
    t.apply fuel p = (match opOf t p with | some op => op.exec fuel p | none => .ok p) := by
  have hs : ∀ a : U256, a.sign > 0 ↔ 0 < a.toInt := fun a => by rw [gt_iff_lt, sign_eq_toInt, sgn_pos]
  unfold Transaction.apply opOf
  split
  · rename_i e; rw [e]; rfl
  split
  · rename_i e; rw [e]; rfl
  split
  · rename_i e; rw [e]
    show _ = match (if 0 < t.amount0.toInt then some (PoolOp.exactInput t.amount0 p.token0 zero)
      else if 0 < t.amount1.toInt then some (PoolOp.exactInput t.amount1 p.token1 zero) else none) with
      | some op => op.exec fuel p
      | none => .ok p
    by_cases h0 : t.amount0.sign > 0
    · rw [if_pos h0, if_pos ((hs _).1 h0)]; rfl
    · rw [if_neg h0, if_neg (fun k => h0 ((hs _).2 k))]
      by_cases h1 : t.amount1.sign > 0
      · rw [if_pos h1, if_pos ((hs _).1 h1)]; rfl
      · rw [if_neg h1, if_neg (fun k => h1 ((hs _).2 k))]
  split
  · rename_i e; rw [e]; rfl
  · rename_i h1 h2 h3 h4
    split
    · rename_i op ho
      split at ho <;> first | (exfalso; first | exact h1 (by assumption) | exact h2 (by assumption) | exact h3 (by assumption) | exact h4 (by assumption)) | cases ho
    · rfl

/-! ### Performing events -/

/-- Carry out an event; the recorded values and the strategy after it. -/
def perform (fuel : Nat) (s : Strat) : Event → Go (List U256 × Strat)
  | .init => do
    let r ← s.init fuel
    let v ← usd r.1 r.2.pool.price
    return ([v], r.2)
  | .price => do
    let r ← s.makeSnapshot
    return ([], r)
  | .value => do
    let c ← s.getAmounts
    let v ← usd c s.pool.price
    return ([v], s)
  | .rebalance => do
    let r ← s.rebalance fuel
    return ([], r.2)
  | .apply t => do
    let p ← t.apply fuel s.pool
    return ([], { s with pool := p })

def performAll (fuel : Nat) : List Event → Strat → Go (List U256 × Strat)
  | [], s => .ok ([], s)
  | e :: es, s => do
    let r ← perform fuel s e
    let q ← performAll fuel es r.2
    return (r.1 ++ q.1, q.2)

theorem bind_err {α β : Type} {x : Go α} {k : α → Go β} {e : Err} (h : x >>= k = .error e) :
    x = .error e ∨ ∃ a, x = .ok a ∧ k a = .error e := by
  cases x with
  | error y => left; cases h; rfl
  | ok a => right; exact ⟨a, rfl, h⟩

theorem perform_ok {fuel : Nat} {s s' : Strat} {ev : Event} {vs : List U256} :
    perform fuel s ev = .ok (vs, s') ↔ ev.Does fuel s vs s' ∧ ev.Valued fuel s := by
  cases ev with
  | init =>
    constructor
    · intro h
      obtain ⟨r, h1, h⟩ := bind_ok h
      obtain ⟨v, h2, h⟩ := bind_ok h
      cases h
      obtain ⟨k1, k2⟩ := usd_val.1 h2
      refine ⟨⟨r.1, v, h1, rfl, k2⟩, fun c t hc => ?_⟩
      rw [h1] at hc
      cases hc
      exact k1
    · rintro ⟨⟨c, v, h1, rfl, h2⟩, h3⟩
      unfold perform
      rw [h1, Except_bind_ok, usd_val.2 ⟨h3 c s' h1, h2⟩, Except_bind_ok]
      rfl
  | price =>
    constructor
    · intro h
      obtain ⟨r, h1, h⟩ := bind_ok h
      cases h
      exact ⟨⟨h1, rfl⟩, trivial⟩
    · rintro ⟨⟨h1, rfl⟩, _⟩
      unfold perform
      rw [h1, Except_bind_ok]
      rfl
  | value =>
    constructor
    · intro h
      obtain ⟨c, h1, h⟩ := bind_ok h
      obtain ⟨v, h2, h⟩ := bind_ok h
      cases h
      obtain ⟨k1, k2⟩ := usd_val.1 h2
      refine ⟨⟨c, v, h1, rfl, rfl, k2⟩, fun d hd => ?_⟩
      rw [h1] at hd
      cases hd
      exact k1
    · rintro ⟨⟨c, v, h1, rfl, rfl, h2⟩, h3⟩
      unfold perform
      rw [h1, Except_bind_ok, usd_val.2 ⟨h3 c h1, h2⟩, Except_bind_ok]
      rfl
  | rebalance =>
    constructor
    · intro h
      obtain ⟨r, h1, h⟩ := bind_ok h
      cases h
      exact ⟨⟨r.1, h1, rfl⟩, trivial⟩
    · rintro ⟨⟨c, h1, rfl⟩, _⟩
      unfold perform
      rw [h1, Except_bind_ok]
      rfl
  | apply t =>
    constructor
    · intro h
      obtain ⟨p, h1, h⟩ := bind_ok h
      cases h
      exact ⟨⟨p, apply_eq h1, rfl, rfl⟩, trivial⟩
    · rintro ⟨⟨p, h1, rfl, rfl⟩, _⟩
      have h2 : t.apply fuel s.pool = .ok p := by
        rw [apply_iff]
        unfold Applies at h1
        split at h1
        · rename_i op ho; rw [ho]; exact h1
        · rename_i ho; rw [ho, h1]
      show (t.apply fuel s.pool >>= fun p => _) = _
      rw [h2, Except_bind_ok]
      rfl

theorem perform_err {fuel : Nat} {s : Strat} {ev : Event} {x : Err} : perform fuel s ev = .error x ↔ ev.Fails fuel s x := by
  cases ev with
  | init =>
    constructor
    · intro h
      rcases bind_err h with h | ⟨r, h1, h⟩
      · exact Or.inl h
      · rcases bind_err h with h | ⟨v, h2, h⟩
        · exact Or.inr ⟨r.1, r.2, h1, (usd_err_iff _ _ _).1 h⟩
        · cases h
    · unfold perform
      rintro (h | ⟨c, s', h1, h2⟩)
      · rw [h]; rfl
      · rw [h1, Except_bind_ok, (usd_err_iff _ _ _).2 h2]; rfl
  | price =>
    constructor
    · intro h
      rcases bind_err h with h | ⟨r, h1, h⟩
      · exact h
      · cases h
    · unfold perform
      intro h
      rw [show s.makeSnapshot = .error x from h]; rfl
  | value =>
    constructor
    · intro h
      rcases bind_err h with h | ⟨r, h1, h⟩
      · exact Or.inl h
      · rcases bind_err h with h | ⟨v, h2, h⟩
        · exact Or.inr ⟨r, h1, (usd_err_iff _ _ _).1 h⟩
        · cases h
    · unfold perform
      rintro (h | ⟨c, h1, h2⟩)
      · rw [h]; rfl
      · rw [h1, Except_bind_ok, (usd_err_iff _ _ _).2 h2]; rfl
  | rebalance =>
    constructor
    · intro h
      rcases bind_err h with h | ⟨r, h1, h⟩
      · exact h
      · cases h
    · unfold perform
      intro h
      rw [show s.rebalance fuel = .error x from h]; rfl
  | apply t =>
    constructor
    · intro h
      rcases bind_err h with h | ⟨r, h1, h⟩
      · rw [apply_iff] at h
        split at h
        · rename_i op ho; exact ⟨op, ho, h⟩
        · cases h
      · cases h
    · rintro ⟨op, ho, h⟩
      have h2 : t.apply fuel s.pool = .error x := by rw [apply_iff, ho]; exact h
      show (t.apply fuel s.pool >>= fun p => _) = _
      rw [h2]
      rfl

theorem allValued_cons {fuel : Nat} {s : Strat} {ev : Event} {es : List Event} : AllValued fuel s (ev :: es) ↔
    ev.Valued fuel s ∧ ∀ vs s1, ev.Does fuel s vs s1 → AllValued fuel s1 es := by
  constructor
  · intro h
    refine ⟨h [] ev es s [] rfl .nil, fun vs s1 hd pre e' post s2 ws he ht => ?_⟩
    exact h (ev :: pre) e' post s2 (vs ++ ws) (by rw [he]; rfl) (.cons hd ht)
  · rintro ⟨h1, h2⟩ pre e' post s2 ws he ht
    cases pre with
    | nil => cases he; cases ht; exact h1
    | cons a pre =>
      cases he
      cases ht with
      | cons hd ht => exact h2 _ _ hd pre e' post s2 _ rfl ht

theorem performAll_ok {fuel : Nat} (es : List Event) : ∀ {s s' : Strat} {vs : List U256},
    performAll fuel es s = .ok (vs, s') ↔ Trace fuel es s vs s' ∧ AllValued fuel s es := by
  induction es with
  | nil =>
    intro s s' vs
    constructor
    · intro h; cases h; exact ⟨.nil, fun pre e post s1 ws he => by cases pre <;> cases he⟩
    · rintro ⟨h, _⟩; cases h; rfl
  | cons e es ih =>
    intro s s' vs
    constructor
    · intro h
      obtain ⟨⟨us, s1⟩, h1, h⟩ := bind_ok h
      obtain ⟨⟨ws, s2⟩, h2, h⟩ := bind_ok h
      cases h
      obtain ⟨k1, k2⟩ := perform_ok.1 h1
      obtain ⟨k3, k4⟩ := ih.1 h2
      refine ⟨.cons k1 k3, allValued_cons.2 ⟨k2, fun us' s1' hd => ?_⟩⟩
      have := perform_ok.2 ⟨hd, k2⟩
      rw [h1] at this
      cases this
      exact k4
    · rintro ⟨h1, h2⟩
      cases h1 with
      | cons hd ht =>
        obtain ⟨k1, k2⟩ := allValued_cons.1 h2
        unfold performAll
        rw [perform_ok.2 ⟨hd, k1⟩, Except_bind_ok]
        dsimp only
        rw [ih.2 ⟨ht, k2 _ _ hd⟩, Except_bind_ok]
        rfl

theorem performAll_err {fuel : Nat} (es : List Event) : ∀ {s : Strat} {x : Err},
    performAll fuel es s = .error x ↔ ∃ pre ev post ws s1, es = pre ++ ev :: post ∧ Trace fuel pre s ws s1 ∧ AllValued fuel s pre ∧
      ev.Fails fuel s1 x := by
  induction es with
  | nil =>
    intro s x
    constructor
    · intro h; cases h
    · rintro ⟨pre, ev, post, _, _, he, _⟩; cases pre <;> cases he
  | cons e es ih =>
    intro s x
    constructor
    · intro h
      rcases bind_err h with h | ⟨⟨us, s1⟩, h1, h⟩
      · exact ⟨[], e, es, [], s, rfl, .nil, fun pre e post s1 ws he => (by cases pre <;> cases he), perform_err.1 h⟩
      · rcases bind_err h with h | ⟨⟨ws, s2⟩, h2, h⟩
        · obtain ⟨pre, ev, post, ws, s2, rfl, k1, k2, k3⟩ := ih.1 h
          obtain ⟨j1, j2⟩ := perform_ok.1 h1
          refine ⟨e :: pre, ev, post, us ++ ws, s2, rfl, .cons j1 k1, allValued_cons.2 ⟨j2, fun us' s1' hd => ?_⟩, k3⟩
          have := perform_ok.2 ⟨hd, j2⟩
          rw [h1] at this
          cases this
          exact k2
        · cases h
    · rintro ⟨pre, ev, post, ws, s1, he, h1, h2, h3⟩
      cases pre with
      | nil =>
        cases he
        cases h1
        unfold performAll
        rw [perform_err.2 h3]
        rfl
      | cons a pre =>
        cases he
        cases h1 with
        | cons hd ht =>
          obtain ⟨k1, k2⟩ := allValued_cons.1 h2
          unfold performAll
          rw [perform_ok.2 ⟨hd, k1⟩, Except_bind_ok]
          dsimp only
          rw [ih.2 ⟨pre, ev, post, _, s1, rfl, ht, k2 _ _ hd, h3⟩]
          rfl

theorem performAll_append {fuel : Nat} (es fs : List Event) : ∀ (s : Strat), performAll fuel (es ++ fs) s =
    (performAll fuel es s >>= fun r => performAll fuel fs r.2 >>= fun q => .ok (r.1 ++ q.1, q.2)) := by
  induction es with
  | nil =>
    intro s
    show performAll fuel fs s = (performAll fuel fs s >>= fun q => .ok ([] ++ q.1, q.2))
    cases performAll fuel fs s <;> rfl
  | cons e es ih =>
    intro s
    show (perform fuel s e >>= fun r => performAll fuel (es ++ fs) r.2 >>= fun q => .ok (r.1 ++ q.1, q.2)) =
      ((perform fuel s e >>= fun r => performAll fuel es r.2 >>= fun q => .ok (r.1 ++ q.1, q.2)) >>= _)
    cases perform fuel s e with
    | error x => rfl
    | ok r =>
      rw [Except_bind_ok, Except_bind_ok, ih]
      cases performAll fuel es r.2 with
      | error x => rfl
      | ok q =>
        rw [Except_bind_ok, Except_bind_ok, Except_bind_ok]
        dsimp only
        cases performAll fuel fs q.2 with
        | error x => rfl
        | ok w => rw [Except_bind_ok, Except_bind_ok, Except_bind_ok, List.append_assoc]

/-! ### The loop performs the events of the rows -/

/-- The row of the next transaction. -/
def rowOf (e : Execution) (t : Transaction) (st : RunState) : Row :=
  let i := !st.started && decide (t.timestamp ≥ e.startTime)
  { tx := t, init := i, price := decide (t.timestamp > st.nextPrice),
    value := decide (t.timestamp ≥ if i then addInt t.timestamp e.snapShotInterval else st.nextSnapshot),
    rebalance := decide (t.timestamp ≥ if i then addInt t.timestamp e.updateInterval else st.nextUpdate) }

/-- The clock after it. -/
def tickOf (e : Execution) (t : Transaction) (st : RunState) : RunState :=
  let r := rowOf e t st
  let nu := if r.init then addInt t.timestamp e.updateInterval else st.nextUpdate
  let ns := if r.init then addInt t.timestamp e.snapShotInterval else st.nextSnapshot
  { st with started := st.started || r.init,
            nextPrice := if r.price then addInt st.nextPrice e.pricesSnapshotsInterval else st.nextPrice,
            nextSnapshot := if r.value then addInt ns e.snapShotInterval else ns,
            nextUpdate := if r.rebalance then addInt nu e.updateInterval else nu }

theorem tick_time (e : Execution) (t : Transaction) (st : RunState) : StepTime e t st (tickOf e t st) (rowOf e t st) where
  tx := rfl
  init := by
    show (!st.started && decide (t.timestamp ≥ e.startTime)) = true ↔ _
    simp only [Bool.and_eq_true, Bool.not_eq_true', decide_eq_true_eq, ge_iff_le]
  started := rfl
  price := by
    show decide (t.timestamp > st.nextPrice) = true ↔ _
    rw [decide_eq_true_eq]
  nextPrice := rfl
  value := by
    show decide (t.timestamp ≥ if (rowOf e t st).init then addInt t.timestamp e.snapShotInterval else st.nextSnapshot) = true ↔ _
    rw [decide_eq_true_eq]
  nextSnapshot := rfl
  rebalance := by
    show decide (t.timestamp ≥ if (rowOf e t st).init then addInt t.timestamp e.updateInterval else st.nextUpdate) = true ↔ _
    rw [decide_eq_true_eq]
  nextUpdate := rfl

theorem perf_if {fuel : Nat} {b : Bool} {ev : Event} {s : Strat} : performAll fuel (if b then [ev] else []) s =
    if b then perform fuel s ev else .ok ([], s) := by
  cases b with
  | false => rfl
  | true =>
    rw [if_pos rfl, if_pos rfl]
    show (perform fuel s ev >>= fun r => _) = _
    cases perform fuel s ev with
    | error x => rfl
    | ok r =>
      rw [Except_bind_ok]
      show Except.ok (r.1 ++ [], r.2) = _
      rw [List.append_nil]

theorem start_perform (e : Execution) (fuel : Nat) (t : Transaction) (st : RunState) : e.startIf fuel t st =
    (performAll fuel (if (rowOf e t st).init then [.init] else []) st.strategy >>= fun r =>
      .ok { st with strategy := r.2, snapshots := st.snapshots ++ r.1, started := st.started || (rowOf e t st).init,
                    nextUpdate := if (rowOf e t st).init then addInt t.timestamp e.updateInterval else st.nextUpdate,
                    nextSnapshot := if (rowOf e t st).init then addInt t.timestamp e.snapShotInterval else st.nextSnapshot }) := by
  rw [perf_if]
  unfold startIf
  have hi : (rowOf e t st).init = (!st.started && decide (t.timestamp ≥ e.startTime)) := rfl
  rw [← hi]
  cases (rowOf e t st).init with
  | false =>
    rw [if_neg (by decide), if_neg (by decide), Except_bind_ok, if_neg (by decide), if_neg (by decide), Bool.or_false, List.append_nil]
  | true =>
    rw [if_pos rfl, if_pos rfl, Bool.or_true, if_pos rfl, if_pos rfl]
    show _ = ((st.strategy.init fuel >>= fun r => usd r.1 r.2.pool.price >>= fun v => .ok ([v], r.2)) >>= _)
    cases st.strategy.init fuel with
    | error x => rfl
    | ok r =>
      rw [Except_bind_ok, Except_bind_ok]
      cases usd r.1 r.2.pool.price <;> rfl

theorem price_perform (e : Execution) (fuel : Nat) (t : Transaction) (st : RunState) (b : Bool) (hb : b = decide (t.timestamp > st.nextPrice)) :
    e.priceIf t st = (performAll fuel (if b then [.price] else []) st.strategy >>= fun r =>
      .ok { st with strategy := r.2, snapshots := st.snapshots ++ r.1,
                    nextPrice := if b then addInt st.nextPrice e.pricesSnapshotsInterval else st.nextPrice }) := by
  rw [perf_if]
  unfold priceIf
  cases b with
  | false =>
    rw [if_neg (fun h => by rw [decide_eq_true h] at hb; cases hb), if_neg (by decide), Except_bind_ok, if_neg (by decide), List.append_nil]
  | true =>
    rw [if_pos (of_decide_eq_true hb.symm), if_pos rfl, if_pos rfl]
    show _ = ((st.strategy.makeSnapshot >>= fun r => .ok ([], r)) >>= _)
    cases st.strategy.makeSnapshot with
    | error x => rfl
    | ok r =>
      rw [Except_bind_ok, Except_bind_ok, Except_bind_ok, List.append_nil]
      rfl

theorem value_perform (e : Execution) (fuel : Nat) (t : Transaction) (st : RunState) (b : Bool) (hb : b = decide (t.timestamp ≥ st.nextSnapshot)) :
    e.valueIf t st = (performAll fuel (if b then [.value] else []) st.strategy >>= fun r =>
      .ok { st with strategy := r.2, snapshots := st.snapshots ++ r.1,
                    nextSnapshot := if b then addInt st.nextSnapshot e.snapShotInterval else st.nextSnapshot }) := by
  rw [perf_if]
  unfold valueIf
  cases b with
  | false =>
    rw [if_neg (fun h => by rw [decide_eq_true h] at hb; cases hb), if_neg (by decide), Except_bind_ok, if_neg (by decide), List.append_nil]
  | true =>
    rw [if_pos (of_decide_eq_true hb.symm), if_pos rfl, if_pos rfl]
    show _ = ((st.strategy.getAmounts >>= fun c => usd c st.strategy.pool.price >>= fun v => .ok ([v], st.strategy)) >>= _)
    cases st.strategy.getAmounts with
    | error x => rfl
    | ok r =>
      rw [Except_bind_ok, Except_bind_ok]
      cases usd r st.strategy.pool.price <;> rfl

theorem rebalance_perform (e : Execution) (fuel : Nat) (t : Transaction) (st : RunState) (b : Bool) (hb : b = decide (t.timestamp ≥ st.nextUpdate)) :
    e.rebalanceIf fuel t st = (performAll fuel (if b then [.rebalance] else []) st.strategy >>= fun r =>
      .ok { st with strategy := r.2, snapshots := st.snapshots ++ r.1,
                    nextUpdate := if b then addInt st.nextUpdate e.updateInterval else st.nextUpdate }) := by
  rw [perf_if]
  unfold rebalanceIf
  cases b with
  | false =>
    rw [if_neg (fun h => by rw [decide_eq_true h] at hb; cases hb), if_neg (by decide), Except_bind_ok, if_neg (by decide), List.append_nil]
  | true =>
    rw [if_pos (of_decide_eq_true hb.symm), if_pos rfl, if_pos rfl]
    show _ = ((st.strategy.rebalance fuel >>= fun r => .ok ([], r.2)) >>= _)
    cases st.strategy.rebalance fuel with
    | error x => rfl
    | ok r =>
      rw [Except_bind_ok, Except_bind_ok, Except_bind_ok, List.append_nil]
      rfl

theorem apply_perform (fuel : Nat) (t : Transaction) (st : RunState) :
    applyTrans fuel t st = (performAll fuel [.apply t] st.strategy >>= fun r =>
      .ok { st with strategy := r.2, snapshots := st.snapshots ++ r.1 }) := by
  have h : performAll fuel [.apply t] st.strategy = perform fuel st.strategy (.apply t) := perf_if (b := true)
  rw [h]
  unfold applyTrans
  show _ = ((t.apply fuel st.strategy.pool >>= fun p => .ok ([], { st.strategy with pool := p })) >>= _)
  cases t.apply fuel st.strategy.pool with
  | error x => rfl
  | ok p =>
    rw [Except_bind_ok, Except_bind_ok, Except_bind_ok, List.append_nil]
    rfl

theorem step_perform (e : Execution) (fuel : Nat) (t : Transaction) (st : RunState) : e.step fuel t st =
    (performAll fuel (rowOf e t st).events st.strategy >>= fun r =>
      .ok { tickOf e t st with strategy := r.2, snapshots := st.snapshots ++ r.1 }) := by
  unfold Row.events step
  rw [performAll_append, performAll_append, performAll_append, performAll_append, start_perform]
  cases performAll fuel (if (rowOf e t st).init then [.init] else []) st.strategy with
  | error x => rfl
  | ok r1 =>
    simp only [Except_bind_ok]
    rw [price_perform e fuel t _ (rowOf e t st).price ?_]
    swap
    · rfl
    dsimp only
    cases performAll fuel (if (rowOf e t st).price then [.price] else []) r1.2 with
    | error x => rfl
    | ok r2 =>
      simp only [Except_bind_ok]
      rw [value_perform e fuel t _ (rowOf e t st).value ?_]
      swap
      · rfl
      dsimp only
      cases performAll fuel (if (rowOf e t st).value then [.value] else []) r2.2 with
      | error x => rfl
      | ok r3 =>
        simp only [Except_bind_ok]
        rw [rebalance_perform e fuel t _ (rowOf e t st).rebalance ?_]
        swap
        · rfl
        dsimp only
        cases performAll fuel (if (rowOf e t st).rebalance then [.rebalance] else []) r3.2 with
        | error x => rfl
        | ok r4 =>
          simp only [Except_bind_ok]
          rw [apply_perform]
          dsimp only
          have ht : (rowOf e t st).tx = t := rfl
          rw [ht]
          cases performAll fuel [.apply t] r4.2 with
          | error x => rfl
          | ok r5 =>
            simp only [Except_bind_ok]
            simp only [List.append_assoc]
            rfl

/-- The rows of the transactions `ts`, from the clock `st` on. -/
def rowsOf (e : Execution) : List Transaction → RunState → List Row
  | [], _ => []
  | t :: ts, st => if t.timestamp > e.endTime then [] else rowOf e t st :: rowsOf e ts (tickOf e t st)

/-- The clock after the transactions. -/
def ticksOf (e : Execution) : List Transaction → RunState → RunState
  | [], st => st
  | t :: ts, st => if t.timestamp > e.endTime then st else ticksOf e ts (tickOf e t st)

theorem rowsOf_clock (e : Execution) (ts : List Transaction) : ∀ (st : RunState) (s : Strat) (vs : List U256),
    rowsOf e ts { st with strategy := s, snapshots := vs } = rowsOf e ts st := by
  induction ts with
  | nil => intro st s vs; rfl
  | cons t ts ih =>
    intro st s vs
    unfold rowsOf
    by_cases h : t.timestamp > e.endTime
    · rw [if_pos h, if_pos h]
    · rw [if_neg h, if_neg h]
      congr 1
      exact ih (tickOf e t st) s vs

theorem ticksOf_clock (e : Execution) (ts : List Transaction) : ∀ (st : RunState) (s : Strat) (vs : List U256),
    ticksOf e ts { st with strategy := s, snapshots := vs } = { ticksOf e ts st with strategy := s, snapshots := vs } := by
  induction ts with
  | nil => intro st s vs; rfl
  | cons t ts ih =>
    intro st s vs
    unfold ticksOf
    by_cases h : t.timestamp > e.endTime
    · rw [if_pos h, if_pos h]
    · rw [if_neg h, if_neg h]
      exact ih (tickOf e t st) s vs

theorem loop_perform (e : Execution) (fuel : Nat) (ts : List Transaction) : ∀ (st : RunState), e.loop fuel ts st =
    (performAll fuel ((rowsOf e ts st).flatMap Row.events) st.strategy >>= fun r =>
      .ok { ticksOf e ts st with strategy := r.2, snapshots := st.snapshots ++ r.1 }) := by
  induction ts with
  | nil =>
    intro st
    show Except.ok st = Except.ok { st with strategy := st.strategy, snapshots := st.snapshots ++ [] }
    rw [List.append_nil]
  | cons t ts ih =>
    intro st
    unfold loop rowsOf ticksOf
    by_cases h : t.timestamp > e.endTime
    · rw [if_pos h, if_pos h, if_pos h]
      show Except.ok st = Except.ok { st with strategy := st.strategy, snapshots := st.snapshots ++ [] }
      rw [List.append_nil]
    · rw [if_neg h, if_neg h, if_neg h, List.flatMap_cons, performAll_append, step_perform]
      cases performAll fuel (rowOf e t st).events st.strategy with
      | error x => rfl
      | ok r =>
        rw [Except_bind_ok, Except_bind_ok, Except_bind_ok, ih]
        have h1 := rowsOf_clock e ts (tickOf e t st) r.2 (st.snapshots ++ r.1)
        have h2 := ticksOf_clock e ts (tickOf e t st) r.2 (st.snapshots ++ r.1)
        rw [h1, h2]
        dsimp only
        cases performAll fuel ((rowsOf e ts (tickOf e t st)).flatMap Row.events) r.2 with
        | error x => rfl
        | ok q =>
          rw [Except_bind_ok, Except_bind_ok, Except_bind_ok]
          dsimp only
          rw [List.append_assoc]

theorem rows_inv {e : Execution} (hc : Clock e) (ts : List Transaction) : ∀ {rows : List Row} {st : RunState},
    (∀ t ∈ ts, t ∈ e.transactions) → LoopInv e rows st →
    LoopInv e (rows ++ rowsOf e ts st) (ticksOf e ts st) ∧ (rowsOf e ts st).map Row.tx = upTo e.endTime ts := by
  induction ts with
  | nil =>
    intro rows st _ hi
    exact ⟨by show LoopInv e (rows ++ []) st; rw [List.append_nil]; exact hi, rfl⟩
  | cons t ts ih =>
    intro rows st hm hi
    unfold rowsOf ticksOf
    by_cases h : t.timestamp > e.endTime
    · rw [if_pos h, if_pos h]
      refine ⟨by rw [List.append_nil]; exact hi, ?_⟩
      unfold upTo
      rw [List.takeWhile_cons_of_neg (by rw [decide_eq_true_eq]; omega)]
      rfl
    · rw [if_neg h, if_neg h]
      obtain ⟨k1, k2⟩ := ih (fun x hx => hm x (List.mem_cons_of_mem _ hx)) (loopInv_step hc (hm t List.mem_cons_self) hi (tick_time e t st))
      refine ⟨by rw [List.append_assoc] at k1; exact k1, ?_⟩
      rw [List.map_cons, k2]
      unfold upTo
      rw [List.takeWhile_cons_of_pos (by rw [decide_eq_true_eq]; omega)]
      rfl

theorem scheduled_rows {e : Execution} (hc : Clock e) : Scheduled e (rowsOf e e.transactions e.initial) := by
  obtain ⟨k1, k2⟩ := rows_inv hc e.transactions (fun _ h => h) (loopInv_start e)
  rw [List.nil_append] at k1
  exact ⟨k2, k1.start, k1.value, k1.rebalance, k1.price⟩

theorem row_ext {r q : Row} (h0 : r.tx = q.tx) (h1 : r.init = true ↔ q.init = true) (h2 : r.price = true ↔ q.price = true)
    (h3 : r.value = true ↔ q.value = true) (h4 : r.rebalance = true ↔ q.rebalance = true) : r = q := by
  rw [Bool.coe_iff_coe] at h1 h2 h3 h4
  cases r
  cases q
  dsimp only at *
  subst h0 h1 h2 h3 h4
  rfl

theorem priced_prefix {I : Int} {act : Row → Bool} {rows more : List Row} (h : EveryFromZero I act (rows ++ more)) : EveryFromZero I act rows := by
  intro pre r post he
  exact h pre r (post ++ more) (by rw [he, List.append_assoc]; rfl)

/-- There is only one list of rows that follows the schedule. -/
theorem rows_unique {st u v p : Int} (rows : List Row) : ∀ {rows' : List Row}, rows.map Row.tx = rows'.map Row.tx →
    StartsAt st rows → Every v Row.value rows → Every u Row.rebalance rows → EveryFromZero p Row.price rows →
    StartsAt st rows' → Every v Row.value rows' → Every u Row.rebalance rows' → EveryFromZero p Row.price rows' → rows = rows' := by
  induction rows using List.reverseRecOn with
  | nil =>
    intro rows' h
    intros
    cases rows' with
    | nil => rfl
    | cons a as => cases h
  | append_singleton rows r ih =>
    intro rows' h a1 a2 a3 a4 b1 b2 b3 b4
    rcases List.eq_nil_or_concat rows' with rfl | ⟨rows', q, rfl⟩
    · rw [List.map_append] at h
      exact absurd (List.append_eq_nil_iff.1 h).2 (by simp)
    · rw [List.concat_eq_append] at *
      rw [List.map_append, List.map_append] at h
      obtain ⟨h1, h2⟩ := List.append_inj' h rfl
      have hq : r.tx = q.tx := by
        rw [List.map_singleton, List.map_singleton] at h2
        exact (List.cons.inj h2).1
      have := ih h1 (startsAt_prefix a1) (every_prefix a2) (every_prefix a3) (priced_prefix a4)
        (startsAt_prefix b1) (every_prefix b2) (every_prefix b3) (priced_prefix b4)
      subst this
      have ht : r.time = q.time := by unfold Row.time; rw [hq]
      have hi : r.init = true ↔ q.init = true := by
        rw [a1 rows r [] rfl, b1 rows q [] rfl, ht]
      have hs : ∀ σ, StartedAt (rows ++ [r]) σ ↔ StartedAt (rows ++ [q]) σ := by
        intro σ; rw [startedAt_snoc, startedAt_snoc, hi, ht]
      congr 2
      apply row_ext hq hi
      · rw [a4 rows r [] rfl, b4 rows q [] rfl, ht]
      · rw [a2 rows r [] rfl, b2 rows q [] rfl, ht]; simp only [hs]
      · rw [a3 rows r [] rfl, b3 rows q [] rfl, ht]; simp only [hs]

theorem scheduled_unique {e : Execution} {rows rows' : List Row} (h : Scheduled e rows) (h' : Scheduled e rows') : rows = rows' :=
  rows_unique rows (h.txs.trans h'.txs.symm) h.start h.value h.rebalance h.price h'.start h'.value h'.rebalance h'.price

theorem run_perform (e : Execution) (fuel : Nat) : e.run fuel =
    (performAll fuel ((rowsOf e e.transactions e.initial).flatMap Row.events) e.strategy >>= fun r =>
      r.2.burnAll >>= fun b => usd b.1 b.2.pool.price >>= fun v =>
        .ok { e with strategy := b.2, snapshots := e.snapshots ++ r.1 ++ [v] }) := by
  unfold run
  rw [loop_perform]
  have h0 : e.initial.strategy = e.strategy := rfl
  rw [h0]
  cases performAll fuel ((rowsOf e e.transactions e.initial).flatMap Row.events) e.strategy with
  | error x => rfl
  | ok r => rfl

/-! ### More iterations do not matter -/

/-- More iterations do not change an outcome that has been reached. -/
def Stable {α : Type} (g : Nat → Go α) : Prop := ∀ f f', f ≤ f' → g f = .error .fuel ∨ g f' = g f

theorem stable_const {α : Type} (x : Go α) : Stable (fun _ => x) := fun _ _ _ => Or.inr rfl

theorem Stable.bind {α β : Type} {g : Nat → Go α} {k : Nat → α → Go β} (h : Stable g) (hk : ∀ a, Stable fun f => k f a) :
    Stable fun f => g f >>= k f := by
  intro f f' hf
  dsimp only
  rcases h f f' hf with h1 | h1
  · left; rw [h1]; rfl
  · rw [h1]
    cases g f with
    | error x => right; rfl
    | ok a =>
      rw [Except_bind_ok, Except_bind_ok]
      exact hk a f f' hf

theorem Stable.map {α β : Type} {g : Nat → Go α} {k : α → Go β} (h : Stable g) : Stable fun f => g f >>= k :=
  h.bind (k := fun _ => k) fun a => stable_const (k a)

theorem Stable.after {α β : Type} {x : Go α} {k : Nat → α → Go β} (hk : ∀ a, Stable fun f => k f a) : Stable fun f => x >>= k f :=
  (stable_const x).bind hk

theorem stable_swap (p : Pool) (z : Bool) (amount limit : U256) : Stable fun f => p.swap f z amount limit :=
  fun _ _ hf => swap_fuel hf

theorem stable_ite {α : Type} {c : Prop} [Decidable c] {g k : Nat → Go α} (hg : Stable g) (hk : Stable k) :
    Stable fun f => if c then g f else k f := by
  by_cases h : c
  · simp only [if_pos h]; exact hg
  · simp only [if_neg h]; exact hk

theorem stable_swapMint (s : Strat) (l u : Int) : Stable fun f => s.swapMint f l u := by
  unfold Strat.swapMint
  refine Stable.after fun a => Stable.after fun b => Stable.map ?_
  unfold Strat.swapExcess
  refine Stable.after fun x => Stable.after fun y => ?_
  dsimp only
  refine stable_ite (Stable.after fun hf => stable_ite ?_ (stable_const _)) (Stable.after fun hf => stable_ite ?_ (stable_const _))
  · exact (stable_swap _ _ _ _).map
  · exact (stable_swap _ _ _ _).map

theorem stable_init (s : Strat) : Stable fun f => s.init f := by
  unfold Strat.init
  refine Stable.map ?_
  unfold Strat.openFirst
  cases s.kind with
  | swapHalf w => exact stable_swapMint s _ _
  | _ => exact stable_const _

theorem stable_rebalance (s : Strat) : Stable fun f => s.rebalance f := by
  unfold Strat.rebalance
  have key : Stable fun f => (s.closeAll >>= fun c => c.2.openAgain f >>= fun s' => (.ok (some c.1, s') : Go _)) := by
    refine Stable.after fun c => Stable.map ?_
    unfold Strat.openAgain
    cases c.2.kind with
    | swapHalf w => exact stable_swapMint c.2 _ _
    | _ => exact stable_const _
  cases s.kind with
  | noProvision => exact stable_const _
  | _ => exact key

theorem stable_exec (op : PoolOp) (p : Pool) : Stable fun f => op.exec f p := by
  cases op with
  | exactInput a t l => exact (stable_swap p _ a l).map
  | exactOutput a t l => exact (stable_swap p _ a l).map
  | _ => exact stable_const _

theorem stable_perform (s : Strat) (ev : Event) : Stable fun f => perform f s ev := by
  cases ev with
  | init => exact (stable_init s).map
  | rebalance => exact (stable_rebalance s).map
  | apply t =>
    have h : Stable fun f => t.apply f s.pool := by
      have : (fun f => t.apply f s.pool) = fun f => (match opOf t s.pool with | some op => op.exec f s.pool | none => .ok s.pool) :=
        funext fun f => apply_iff
      rw [this]
      cases opOf t s.pool with
      | none => exact stable_const _
      | some op => exact stable_exec op s.pool
    exact h.map
  | price => exact stable_const _
  | value => exact stable_const _

theorem stable_performAll (es : List Event) : ∀ s, Stable fun f => performAll f es s := by
  induction es with
  | nil => intro s; exact stable_const _
  | cons e es ih =>
    intro s
    exact (stable_perform s e).bind fun r => (ih r.2).map

theorem stable_run (e : Execution) : Stable fun f => e.run f := by
  have : (fun f => e.run f) = fun f => (performAll f ((rowsOf e e.transactions e.initial).flatMap Row.events) e.strategy >>= fun r =>
      r.2.burnAll >>= fun b => usd b.1 b.2.pool.price >>= fun v =>
        .ok { e with strategy := b.2, snapshots := e.snapshots ++ r.1 ++ [v] }) := funext fun f => run_perform e f
  rw [this]
  exact (stable_performAll _ _).map

/-! ### No look-ahead -/

/-- The rows of transactions up to the end. -/
def rowsIn (e : Execution) : List Transaction → RunState → List Row
  | [], _ => []
  | t :: ts, st => rowOf e t st :: rowsIn e ts (tickOf e t st)

def ticksIn (e : Execution) : List Transaction → RunState → RunState
  | [], st => st
  | t :: ts, st => ticksIn e ts (tickOf e t st)

theorem rowsOf_in (e : Execution) (ts : List Transaction) : ∀ st, rowsOf e ts st = rowsIn e (upTo e.endTime ts) st := by
  induction ts with
  | nil => intro st; rfl
  | cons t ts ih =>
    intro st
    unfold rowsOf upTo
    by_cases h : t.timestamp > e.endTime
    · rw [if_pos h, List.takeWhile_cons_of_neg (by rw [decide_eq_true_eq]; omega)]; rfl
    · rw [if_neg h, List.takeWhile_cons_of_pos (by rw [decide_eq_true_eq]; omega), ih]; rfl

theorem rowsIn_append (e : Execution) (ts us : List Transaction) : ∀ st,
    rowsIn e (ts ++ us) st = rowsIn e ts st ++ rowsIn e us (ticksIn e ts st) := by
  induction ts with
  | nil => intro st; rfl
  | cons t ts ih =>
    intro st
    show rowOf e t st :: rowsIn e (ts ++ us) (tickOf e t st) = _
    rw [ih]
    rfl

theorem rowsIn_clock (e : Execution) (ts : List Transaction) : ∀ (st : RunState) (s : Strat) (vs : List U256),
    rowsIn e ts { st with strategy := s, snapshots := vs } = rowsIn e ts st := by
  induction ts with
  | nil => intro st s vs; rfl
  | cons t ts ih =>
    intro st s vs
    unfold rowsIn
    congr 1
    exact ih (tickOf e t st) s vs

theorem rowsIn_same {e f : Execution} (h : SameSetup e f) (ts : List Transaction) : ∀ st, rowsIn e ts st = rowsIn f ts st := by
  have hr : ∀ t st, rowOf e t st = rowOf f t st := by
    intro t st; unfold rowOf; rw [h.start, h.snapshot, h.update]
  have ht : ∀ t st, tickOf e t st = tickOf f t st := by
    intro t st; unfold tickOf; rw [hr, h.price, h.snapshot, h.update]
  induction ts with
  | nil => intro st; rfl
  | cons t ts ih =>
    intro st
    unfold rowsIn
    rw [hr, ht, ih]

theorem rows_ahead {e f : Execution} (h : SameSetup e f) (hp : upTo e.endTime e.transactions <+: upTo f.endTime f.transactions) :
    ∃ more, rowsOf f f.transactions f.initial = rowsOf e e.transactions e.initial ++ more := by
  obtain ⟨us, hu⟩ := hp
  refine ⟨rowsIn f us (ticksIn f (upTo e.endTime e.transactions) f.initial), ?_⟩
  rw [rowsOf_in, rowsOf_in, ← hu, rowsIn_append, rowsIn_same h]
  congr 1
  exact (rowsIn_clock f _ f.initial e.strategy e.snapshots).symm

/-! ### Buy and hold -/

theorem idle_perform {fuel : Nat} {s : Strat} {r : Row} {p' : Pool} (hk : s.kind = .noProvision) (ha : Applies fuel r.tx s.pool p')
    (hv : Valuable (s.amount0, s.amount1) s.pool.price) :
    ∃ vs, performAll fuel r.events s = .ok (vs, { s with pool := p' }) := by
  obtain ⟨v, hu⟩ := (usd_ok_iff _ _).2 hv
  have hi : ∀ b : Bool, ∃ vs, performAll fuel (if b then [.init] else []) s = .ok (vs, s) := by
    intro b
    rw [perf_if]
    cases b with
    | false => exact ⟨[], rfl⟩
    | true =>
      rw [if_pos rfl]
      refine ⟨[v], ?_⟩
      have : s.init fuel = .ok ((s.amount0, s.amount1), s) := by unfold Strat.init Strat.openFirst; rw [hk]; rfl
      unfold perform
      rw [this, Except_bind_ok, hu, Except_bind_ok]
      rfl
  have hp : ∀ b : Bool, ∃ vs, performAll fuel (if b then [.price] else []) s = .ok (vs, s) := by
    intro b
    rw [perf_if]
    cases b with
    | false => exact ⟨[], rfl⟩
    | true =>
      rw [if_pos rfl]
      refine ⟨[], ?_⟩
      have : s.makeSnapshot = .ok s := by unfold Strat.makeSnapshot; rw [hk]
      unfold perform
      rw [this, Except_bind_ok]
      rfl
  have hw : ∀ b : Bool, ∃ vs, performAll fuel (if b then [.value] else []) s = .ok (vs, s) := by
    intro b
    rw [perf_if]
    cases b with
    | false => exact ⟨[], rfl⟩
    | true =>
      rw [if_pos rfl]
      refine ⟨[v], ?_⟩
      have : s.getAmounts = .ok (s.amount0, s.amount1) := by unfold Strat.getAmounts; rw [hk]
      unfold perform
      rw [this, Except_bind_ok, hu, Except_bind_ok]
      rfl
  have hr : ∀ b : Bool, ∃ vs, performAll fuel (if b then [.rebalance] else []) s = .ok (vs, s) := by
    intro b
    rw [perf_if]
    cases b with
    | false => exact ⟨[], rfl⟩
    | true =>
      rw [if_pos rfl]
      refine ⟨[], ?_⟩
      have : s.rebalance fuel = .ok (none, s) := by unfold Strat.rebalance; rw [hk]
      unfold perform
      rw [this, Except_bind_ok]
      rfl
  obtain ⟨v1, h1⟩ := hi r.init
  obtain ⟨v2, h2⟩ := hp r.price
  obtain ⟨v3, h3⟩ := hw r.value
  obtain ⟨v4, h4⟩ := hr r.rebalance
  have h5 : performAll fuel [.apply r.tx] s = .ok ([], { s with pool := p' }) := by
    have h : performAll fuel [.apply r.tx] s = perform fuel s (.apply r.tx) := perf_if (b := true)
    rw [h]
    exact perform_ok.2 ⟨⟨p', ha, rfl, rfl⟩, trivial⟩
  refine ⟨v1 ++ v2 ++ v3 ++ v4 ++ [], ?_⟩
  unfold Row.events
  rw [performAll_append, performAll_append, performAll_append, performAll_append]
  simp only [h1, h2, h3, h4, h5, Except_bind_ok]

theorem idle_performs {fuel : Nat} (rows : List Row) : ∀ {s : Strat} {p' : Pool}, s.kind = .noProvision →
    Replay fuel (rows.map Row.tx) s.pool p' →
    (∀ ts p1, ts <+: rows.map Row.tx → Replay fuel ts s.pool p1 → Valuable (s.amount0, s.amount1) p1.price) →
    ∃ vs, performAll fuel (rows.flatMap Row.events) s = .ok (vs, { s with pool := p' }) := by
  induction rows with
  | nil =>
    intro s p' hk hr hv
    cases hr
    exact ⟨[], rfl⟩
  | cons r rows ih =>
    intro s p' hk hr hv
    rw [List.map_cons] at hr hv
    cases hr with
    | @cons _ _ _ q _ h1 h2 =>
      obtain ⟨us, k1⟩ := idle_perform hk h1 (hv [] s.pool (List.nil_prefix) .nil)
      obtain ⟨ws, k2⟩ := ih (s := { s with pool := q }) hk h2 fun ts p2 hp hq =>
        hv (r.tx :: ts) p2 ((List.prefix_cons_inj _).2 hp) (.cons h1 hq)
      refine ⟨us ++ ws, ?_⟩
      rw [List.flatMap_cons, performAll_append, k1, Except_bind_ok]
      dsimp only at k2 ⊢
      rw [k2, Except_bind_ok]

end Execution
end Uni
