import Verif.Proofs.Later
/-! # Runs that differ in one setting -/
namespace Uni
namespace Execution
open U256 Spec Strat Pool

/-! ### The interval of the value snapshots -/

/-- The first list of events is the second one without some of the value snapshots. -/
inductive Fewer : List Event → List Event → Prop
  | nil : Fewer [] []
  | keep {e : Event} {es fs : List Event} (h : Fewer es fs) : Fewer (e :: es) (e :: fs)
  | drop {es fs : List Event} (h : Fewer es fs) : Fewer es (.value :: fs)

theorem fewer_refl (es : List Event) : Fewer es es := by
  induction es with
  | nil => exact .nil
  | cons e es ih => exact .keep ih

theorem fewer_append {es fs es' fs' : List Event} (h : Fewer es fs) (h' : Fewer es' fs') : Fewer (es ++ es') (fs ++ fs') := by
  induction h with
  | nil => exact h'
  | keep _ ih => exact .keep ih
  | drop _ ih => exact .drop ih

theorem performAll_cons {fuel : Nat} {e : Event} {es : List Event} {s s' : Strat} {vs : List U256} :
    performAll fuel (e :: es) s = .ok (vs, s') ↔ ∃ us ws t, perform fuel s e = .ok (us, t) ∧ performAll fuel es t = .ok (ws, s') ∧
      vs = us ++ ws := by
  constructor
  · intro h
    obtain ⟨r, h1, h⟩ := bind_ok h
    obtain ⟨q, h2, h⟩ := bind_ok h
    cases h
    exact ⟨r.1, q.1, r.2, h1, h2, rfl⟩
  · rintro ⟨us, ws, t, h1, h2, rfl⟩
    show (perform fuel s e >>= fun r => performAll fuel es r.2 >>= fun q => .ok (r.1 ++ q.1, q.2)) = _
    rw [h1, Except_bind_ok]
    dsimp only
    rw [h2, Except_bind_ok]

theorem perform_value {fuel : Nat} {s t : Strat} {us : List U256} (h : perform fuel s .value = .ok (us, t)) : t = s := by
  obtain ⟨c, _, h⟩ := bind_ok h
  obtain ⟨v, _, h⟩ := bind_ok h
  cases h
  rfl

theorem performAll_fewer {fuel : Nat} {es fs : List Event} (h : Fewer es fs) : ∀ {s s' : Strat} {vs : List U256},
    performAll fuel fs s = .ok (vs, s') → ∃ ws, performAll fuel es s = .ok (ws, s') ∧ ws.Sublist vs := by
  induction h with
  | nil => intro s s' vs h; exact ⟨vs, h, List.Sublist.refl _⟩
  | keep _ ih =>
    intro s s' vs h
    obtain ⟨us, ws, t, h1, h2, rfl⟩ := performAll_cons.1 h
    obtain ⟨xs, h3, h4⟩ := ih h2
    exact ⟨us ++ xs, performAll_cons.2 ⟨us, xs, t, h1, h3, rfl⟩, (List.append_sublist_append_left us).2 h4⟩
  | drop _ ih =>
    intro s s' vs h
    obtain ⟨us, ws, t, h1, h2, rfl⟩ := performAll_cons.1 h
    rw [perform_value h1] at h2
    obtain ⟨xs, h3, h4⟩ := ih h2
    exact ⟨xs, h3, h4.trans (List.sublist_append_right us ws)⟩

/-- The row without its value snapshot. -/
def blind (r : Row) : Row := { r with value := false }

theorem blind_fewer (r : Row) : Fewer (blind r).events r.events := by
  unfold Row.events blind
  refine fewer_append (fewer_append (fewer_append (fewer_refl _) ?_) (fewer_refl _)) (fewer_refl _)
  cases r.value with
  | false => exact .nil
  | true => exact .drop .nil

theorem row_fewer {r q : Row} (h : blind r = blind q) (hv : r.value = true → q.value = true) : Fewer r.events q.events := by
  obtain ⟨t, i, p, v, b⟩ := r
  obtain ⟨t', i', p', v', b'⟩ := q
  unfold blind at h
  simp only [Row.mk.injEq] at h
  obtain ⟨rfl, rfl, rfl, -, rfl⟩ := h
  unfold Row.events
  refine fewer_append (fewer_append (fewer_append (fewer_refl _) ?_) (fewer_refl _)) (fewer_refl _)
  dsimp only at hv ⊢
  cases v with
  | false =>
    cases v' with
    | false => exact .nil
    | true => exact .drop .nil
  | true => rw [hv rfl]; exact fewer_refl _

theorem rows_blind (e : Execution) (v w : Int) (ts : List Transaction) : ∀ {a b : RunState}, a.started = b.started →
    a.nextUpdate = b.nextUpdate → a.nextPrice = b.nextPrice →
    (rowsOf { e with snapShotInterval := v } ts a).map blind = (rowsOf { e with snapShotInterval := w } ts b).map blind := by
  induction ts with
  | nil => intros; rfl
  | cons t ts ih =>
    intro a b h1 h2 h3
    unfold rowsOf
    dsimp only
    by_cases hend : t.timestamp > e.endTime
    · rw [if_pos hend, if_pos hend]
    · rw [if_neg hend, if_neg hend, List.map_cons, List.map_cons]
      congr 1
      · unfold blind rowOf
        simp only [h1, h2, h3]
      · apply ih
        · unfold tickOf rowOf; simp only [h1]
        · unfold tickOf rowOf; simp only [h1, h2]
        · unfold tickOf rowOf; simp only [h3]

theorem blind_rows_fewer (rows : List Row) : Fewer ((rows.map blind).flatMap Row.events) (rows.flatMap Row.events) := by
  induction rows with
  | nil => exact .nil
  | cons r rows ih =>
    rw [List.map_cons, List.flatMap_cons, List.flatMap_cons]
    exact fewer_append (blind_fewer r) ih

theorem rows_fewer {xs ys : List Row} (h : List.Forall₂ (fun r q => blind r = blind q ∧ (r.value = true → q.value = true)) xs ys) :
    Fewer (xs.flatMap Row.events) (ys.flatMap Row.events) := by
  induction h with
  | nil => exact .nil
  | cons h1 _ ih =>
    rw [List.flatMap_cons, List.flatMap_cons]
    exact fewer_append (row_fewer h1.1 h1.2) ih

theorem rows_subset {xs : List Row} : ∀ {ys : List Row}, xs.map blind = ys.map blind →
    (∀ pre r post pre' q post', xs = pre ++ r :: post → ys = pre' ++ q :: post' → pre.map blind = pre'.map blind →
      blind r = blind q → r.value = true → q.value = true) →
    List.Forall₂ (fun r q => blind r = blind q ∧ (r.value = true → q.value = true)) xs ys := by
  induction xs with
  | nil =>
    intro ys h _
    cases ys with
    | nil => exact .nil
    | cons y ys => simp at h
  | cons r xs ih =>
    intro ys h hv
    cases ys with
    | nil => simp at h
    | cons q ys =>
      rw [List.map_cons, List.map_cons] at h
      obtain ⟨h1, h2⟩ := List.cons.inj h
      refine .cons ⟨h1, hv [] r xs [] q ys rfl rfl rfl h1⟩ (ih h2 ?_)
      intro pre r' post pre' q' post' k1 k2 k3 k4
      exact hv (r :: pre) r' post (q :: pre') q' post' (by rw [k1]; rfl) (by rw [k2]; rfl)
        (by rw [List.map_cons, List.map_cons, h1, k3]) k4

theorem started_blind {xs : List Row} {σ : Int} : StartedAt (xs.map blind) σ ↔ StartedAt xs σ := by
  constructor
  · rintro ⟨r, hr, h1, h2⟩
    obtain ⟨q, hq, rfl⟩ := List.mem_map.1 hr
    exact ⟨q, hq, h1, h2⟩
  · rintro ⟨r, hr, h1, h2⟩
    exact ⟨blind r, List.mem_map_of_mem hr, h1, h2⟩

/-! ### The interval of the price snapshots -/

theorem rows_price (e : Execution) (v w : Int) (ts : List Transaction) : ∀ {a b : RunState}, a.started = b.started →
    a.nextUpdate = b.nextUpdate → a.nextSnapshot = b.nextSnapshot →
    List.Forall₂ Alike (rowsOf { e with pricesSnapshotsInterval := v } ts a) (rowsOf { e with pricesSnapshotsInterval := w } ts b) := by
  induction ts with
  | nil => intros; exact .nil
  | cons t ts ih =>
    intro a b h1 h2 h3
    unfold rowsOf
    dsimp only
    by_cases hend : t.timestamp > e.endTime
    · rw [if_pos hend, if_pos hend]; exact .nil
    · rw [if_neg hend, if_neg hend]
      refine .cons ⟨⟨rfl, fun _ => ⟨rfl, rfl, rfl⟩, fun _ => ⟨rfl, rfl⟩, fun _ => rfl⟩, ?_, ?_, ?_⟩ (ih ?_ ?_ ?_)
      · unfold rowOf; simp only [h1]
      · unfold rowOf; simp only [h1, h3]
      · unfold rowOf; simp only [h1, h2]
      · unfold tickOf rowOf; simp only [h1]
      · unfold tickOf rowOf; simp only [h1, h2]
      · unfold tickOf rowOf; simp only [h1, h3]

/-! ### The interval of the rebalances -/

/-- The events without the rebalances. -/
def idle (es : List Event) : List Event := es.filter fun e => match e with | .rebalance => false | _ => true

theorem performAll_idle {fuel : Nat} (es : List Event) : ∀ {s : Strat}, s.kind = .noProvision →
    performAll fuel es s = performAll fuel (idle es) s := by
  induction es with
  | nil => intro s _; rfl
  | cons e es ih =>
    intro s hk
    have hkp : ¬ KeepsPrices s.kind := by rw [hk]; exact id
    have hstep : (perform fuel s e >>= fun r => performAll fuel es r.2 >>= fun q => .ok (r.1 ++ q.1, q.2)) =
        (perform fuel s e >>= fun r => performAll fuel (idle es) r.2 >>= fun q => .ok (r.1 ++ q.1, q.2)) := by
      cases hp : perform fuel s e with
      | error x => rfl
      | ok r =>
        rw [Except_bind_ok, Except_bind_ok, ih (s := r.2)]
        rw [perform_kind (vs := r.1) (s' := r.2) hp hkp]
        exact hk
    by_cases he : e = .rebalance
    · subst he
      show (perform fuel s .rebalance >>= fun r => performAll fuel es r.2 >>= fun q => .ok (r.1 ++ q.1, q.2)) = performAll fuel (idle es) s
      have : perform fuel s .rebalance = .ok ([], s) := by
        show (s.rebalance fuel >>= _) = _
        unfold Strat.rebalance
        rw [hk]
        rfl
      rw [this, Except_bind_ok]
      dsimp only
      rw [ih hk]
      cases performAll fuel (idle es) s <;> rfl
    · have : idle (e :: es) = e :: idle es := by
        unfold idle
        cases e <;> first | exact absurd rfl he | rfl
      rw [this]
      exact hstep

theorem rows_idle (e : Execution) (v w : Int) (ts : List Transaction) : ∀ {a b : RunState}, a.started = b.started →
    a.nextSnapshot = b.nextSnapshot → a.nextPrice = b.nextPrice →
    idle ((rowsOf { e with updateInterval := v } ts a).flatMap Row.events) =
      idle ((rowsOf { e with updateInterval := w } ts b).flatMap Row.events) := by
  have hu : ∀ r : Row, idle r.events = (if r.init then [.init] else []) ++ (if r.price then [.price] else []) ++
      (if r.value then [.value] else []) ++ [.apply r.tx] := by
    intro r
    unfold Row.events idle
    cases r.init <;> cases r.price <;> cases r.value <;> cases r.rebalance <;> rfl
  induction ts with
  | nil => intros; rfl
  | cons t ts ih =>
    intro a b h1 h2 h3
    unfold rowsOf
    dsimp only
    by_cases hend : t.timestamp > e.endTime
    · rw [if_pos hend, if_pos hend]
    · rw [if_neg hend, if_neg hend, List.flatMap_cons, List.flatMap_cons]
      have happ : ∀ xs ys, idle (xs ++ ys) = idle xs ++ idle ys := fun xs ys => List.filter_append xs ys
      rw [happ, happ, hu, hu]
      congr 1
      · unfold rowOf
        simp only [h1, h2, h3]
      · apply ih
        · unfold tickOf rowOf; simp only [h1]
        · unfold tickOf rowOf; simp only [h1, h2]
        · unfold tickOf rowOf; simp only [h3]

/-! ### Start and end -/

theorem rows_bounds (e : Execution) {s s' f f' : Int} (ts : List Transaction)
    (hs : ∀ t ∈ ts, s ≤ t.timestamp ↔ s' ≤ t.timestamp) (hf : ∀ t ∈ ts, t.timestamp ≤ f ↔ t.timestamp ≤ f') : ∀ (a : RunState),
    rowsOf { e with startTime := s, endTime := f } ts a = rowsOf { e with startTime := s', endTime := f' } ts a := by
  induction ts with
  | nil => intro a; rfl
  | cons t ts ih =>
    intro a
    rw [List.forall_mem_cons] at hs hf
    have ih := ih hs.2 hf.2
    have hr : rowOf { e with startTime := s, endTime := f } t a = rowOf { e with startTime := s', endTime := f' } t a := by
      unfold rowOf
      simp only [ge_iff_le, hs.1]
    have ht : tickOf { e with startTime := s, endTime := f } t a = tickOf { e with startTime := s', endTime := f' } t a := by
      unfold tickOf
      rw [hr]
    unfold rowsOf
    dsimp only
    rw [hr, ht, ih]
    have := hf.1
    by_cases hend : t.timestamp > f
    · rw [if_pos hend, if_pos (by omega)]
    · rw [if_neg hend, if_neg (by omega)]

end Execution
end Uni
