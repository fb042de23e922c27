import Verif.Proofs.TickData
/-! # C21, C22: the tick store -/
namespace Uni
namespace Props
open U256 Spec TickData

theorem exec_ok {t : TickData} (hs : Increasing t.ticks) (o : TickOp) {m : TickMap}
    (h : o.apply (lookup t.ticks) = some m) :
    ∃ t', o.exec t = .ok t' ∧ t'.spacing = t.spacing ∧ Increasing t'.ticks ∧ lookup t'.ticks = m := by
  cases o with
  | update i cur d g0 g1 upper =>
    obtain ⟨ts', h1, h2, h3⟩ := updateTick_spec hs i cur d g0 g1 upper
    refine ⟨{ t with ticks := ts' }, by show (_ >>= _) = _; rw [h1]; rfl, rfl, h2, ?_⟩
    unfold TickOp.apply at h; dsimp only at h
    funext j
    show lookup ts' j = m j
    rw [h3 j]
    rcases hx : lookup t.ticks i with _ | x
    · rw [hx] at h
      dsimp only at h
      rw [← Option.some.inj h]
      unfold TickMap.put updated makeTick
      by_cases hc : i ≤ cur
      · simp only [if_pos hc]
      · simp only [if_neg hc]
    · rw [hx] at h
      dsimp only at h
      rw [← Option.some.inj h]
      have := lookup_index hx
      unfold TickMap.put updated
      subst this
      rfl
  | clear i =>
    obtain ⟨ts', h1, h2, h3⟩ := clearTick_spec hs i
    refine ⟨{ t with ticks := ts' }, h1, rfl, h2, ?_⟩
    unfold TickOp.apply at h; dsimp only at h
    rw [← Option.some.inj h]
    funext j
    exact h3 j
  | cross i g0 g1 =>
    unfold TickOp.apply at h; dsimp only at h
    rcases hx : lookup t.ticks i with _ | x
    · rw [hx] at h; cases h
    · obtain ⟨ts', h1, h2, h3⟩ := cross_some hs hx g0 g1
      refine ⟨{ t with ticks := ts' }, by show (_ >>= _) = _; rw [h1]; rfl, rfl, h2, ?_⟩
      rw [hx] at h
      dsimp only at h
      rw [← Option.some.inj h]
      have := lookup_index hx
      funext j
      show lookup ts' j = _
      rw [h3 j]
      unfold TickMap.put
      subst this
      rfl

theorem exec_panic {t : TickData} (hs : Increasing t.ticks) (o : TickOp) (h : o.apply (lookup t.ticks) = none) :
    o.exec t = .error .panic := by
  cases o with
  | update i cur d g0 g1 upper =>
    unfold TickOp.apply at h; dsimp only at h
    rcases hx : lookup t.ticks i with _ | x <;> rw [hx] at h <;> cases h
  | clear i => cases h
  | cross i g0 g1 =>
    unfold TickOp.apply at h; dsimp only at h
    rcases hx : lookup t.ticks i with _ | x
    · show (_ >>= _) = _
      rw [cross_none hs hx]; rfl
    · rw [hx] at h; cases h

/-- C21: after any history of updates, clears and crossings of a fresh store, the store is sorted with one entry per
tick and its entries are exactly those of the map specification; it panics exactly when the history crosses a tick
that has no entry; no search runs forever. -/
theorem C21_history (spacing : Int) (ops : List TickOp) :
    match applyAll (fun _ => none) ops with
    | some m => ∃ t, execAll (TickData.new spacing) ops = .ok t ∧ t.spacing = spacing ∧ Increasing t.ticks ∧ lookup t.ticks = m
    | none => execAll (TickData.new spacing) ops = .error .panic := by
  have key : ∀ (ops : List TickOp) (t : TickData), Increasing t.ticks →
      match applyAll (lookup t.ticks) ops with
      | some m => ∃ t', execAll t ops = .ok t' ∧ t'.spacing = t.spacing ∧ Increasing t'.ticks ∧ lookup t'.ticks = m
      | none => execAll t ops = .error .panic := by
    intro ops
    induction ops with
    | nil => intro t hs; exact ⟨t, rfl, rfl, hs, rfl⟩
    | cons o os ih =>
      intro t hs
      unfold applyAll execAll
      rcases ho : o.apply (lookup t.ticks) with _ | m
      · rw [exec_panic hs o ho]; rfl
      · obtain ⟨t1, h1, h2, h3, h4⟩ := exec_ok hs o ho
        rw [h1, Except_bind_ok]
        show match applyAll m os with | some m => _ | none => _
        have := ih t1 h3
        rw [h4, h2] at this
        exact this
  have := key ops (TickData.new spacing) List.Pairwise.nil
  exact this

/-- C21: reading a tick returns its entry, and panics exactly when there is none. -/
theorem C21_read (t : TickData) (hs : Increasing t.ticks) (i : Int) :
    t.getTick i = match lookup t.ticks i with | some x => .ok x | none => .error .panic := by
  rcases h : lookup t.ticks i with _ | x
  · exact getTick_none hs h
  · exact getTick_some hs h

/-- C21: an update reports `true` exactly when the entry existed and its gross liquidity became zero. -/
theorem C21_flag (t : TickData) (hs : Increasing t.ticks) (i cur : Int) (d g0 g1 : U256) (upper b : Bool) (t' : TickData)
    (h : t.updateTick i cur d g0 g1 upper = .ok (b, t')) :
    b = true ↔ ∃ x, lookup t.ticks i = some x ∧ (x.gross.toNat + d.toNat) % 2 ^ 256 = 0 := by
  obtain ⟨ts', h1, h2, h3⟩ := updateTick_spec hs i cur d g0 g1 upper
  rw [h] at h1
  have hb : b = nowEmpty (lookup t.ticks i) d := by cases h1; rfl
  rw [hb]
  unfold nowEmpty
  rcases hx : lookup t.ticks i with _ | x
  · simp
  · dsimp only
    rw [isZero_iff, toNat_add]
    simp

-- a non-trivial history: two ranges sharing a boundary, a crossing, and a removal
private def demoOps : List TickOp :=
  [.update (-60) 5 (ofNat 7) (ofNat 100) (ofNat 200) false, .update 60 5 (ofNat 7) (ofNat 100) (ofNat 200) true,
   .update 60 5 (ofNat 9) (ofNat 100) (ofNat 200) false, .update 120 5 (ofNat 9) (ofNat 100) (ofNat 200) true,
   .cross 60 (ofNat 300) (ofNat 250), .update (-60) 5 (neg (ofNat 7)) (ofNat 300) (ofNat 250) false, .clear (-60)]
example : execAll (TickData.new 60) demoOps =
    .ok ⟨[⟨60, ofNat 2, ofNat 16, ofNat 300, ofNat 250⟩, ⟨120, neg (ofNat 9), ofNat 9, zero, zero⟩], 60⟩ := by decide +kernel
example : execAll (TickData.new 60) [.update (-60) 5 (ofNat 7) zero zero false, .cross 60 zero zero] = .error .panic := by decide +kernel

/-- A tick is initialized if the store has an entry for it. -/
abbrev Initialized (t : TickData) (i : Int) : Prop := (lookup t.ticks i).isSome

/-- C22: searching up from any tick in a non-empty store returns a tick strictly above the start, skips no
initialized tick, and tells whether the returned tick is initialized. -/
theorem C22_up (t : TickData) (hs : Increasing t.ticks) (hne : t.ticks ≠ []) (hsp : 0 < t.spacing) (tick : Int) :
    ∃ n b, t.nextInitializedTickWithinOneWord tick false = .ok (n, b) ∧ tick < n ∧ n ≤ tick + 257 * t.spacing ∧
      (∀ j, tick < j → j < n → ¬ Initialized t j) ∧ (b = true ↔ Initialized t n) := by
  obtain ⟨n, b, h, h1, h2, h3⟩ := next_up hs hne (by omega) tick
  have hmax := lt_wordMax hsp tick
  have hn : tick < n := by
    cases b
    · rw [h2 rfl]; exact hmax
    · exact (h1 rfl).2.1
  have hup : wordMax t tick ≤ tick + 257 * t.spacing := by
    unfold wordMax
    have e1 : Int.tdiv tick t.spacing * t.spacing ≤ tick + t.spacing - 1 := by
      rcases lt_or_ge tick 0 with hneg | hpos
      · have := (tdiv_neg_bounds hsp hneg).1
        rw [sub_mul] at this; omega
      · rw [Int.tdiv_eq_ediv_of_nonneg hpos]
        have := Int.ediv_mul_le tick (show t.spacing ≠ 0 by omega)
        omega
    have e2 : ((Int.tdiv tick t.spacing + 1) / 256 + 1) * 256 ≤ Int.tdiv tick t.spacing + 257 := by omega
    have e3 := Int.mul_le_mul_of_nonneg_right e2 (le_of_lt hsp)
    have e4 : (Int.tdiv tick t.spacing + 257) * t.spacing = Int.tdiv tick t.spacing * t.spacing + 257 * t.spacing := by ring
    omega
  have hle : n ≤ wordMax t tick := by
    cases b
    · exact le_of_eq (h2 rfl)
    · exact (h1 rfl).2.2
  refine ⟨n, b, h, hn, le_trans hle hup, ?_, ?_⟩
  · intro j hj hjn hi
    have := (h3 j hi hj).1
    omega
  · constructor
    · intro hb; exact (h1 hb).1
    · intro hi; exact (h3 n hi hn).2 rfl

/-- C22: searching down from a tick whose word end is correct (see `C22_down_wrong`; every non-negative tick and every
multiple of the spacing qualifies) returns a tick at or below the start, skips no initialized tick, and tells whether
the returned tick is initialized. -/
theorem C22_down (t : TickData) (hs : Increasing t.ticks) (hne : t.ticks ≠ []) (hsp : 0 < t.spacing) (tick : Int)
    (hgood : ¬ ∃ k : Int, k ≤ 0 ∧ 256 * k * t.spacing - t.spacing < tick ∧ tick < 256 * k * t.spacing) :
    ∃ n b, t.nextInitializedTickWithinOneWord tick true = .ok (n, b) ∧ n ≤ tick ∧ tick - 256 * t.spacing < n ∧
      (∀ j, n < j → j ≤ tick → ¬ Initialized t j) ∧ (b = true ↔ Initialized t n) := by
  obtain ⟨n, b, h, h1, h2, h3⟩ := next_down hs hne (by omega) tick
  have hmin : wordMin t tick ≤ tick := by
    by_contra hc
    exact hgood ((wordMin_gt_iff hsp tick).1 (by omega))
  have hn : n ≤ tick := by
    cases b
    · rw [h2 rfl]; exact hmin
    · exact (h1 rfl).2.1
  have hlow : tick - 256 * t.spacing < wordMin t tick := by
    unfold wordMin
    have e1 : tick < Int.tdiv tick t.spacing * t.spacing + t.spacing := by
      have := Int.lt_tdiv_add_one_mul_self tick hsp
      linarith
    have e2 : Int.tdiv tick t.spacing - 255 ≤ Int.tdiv tick t.spacing / 256 * 256 := by omega
    have e3 := Int.mul_le_mul_of_nonneg_right e2 (le_of_lt hsp)
    rw [sub_mul] at e3
    omega
  have hle : wordMin t tick ≤ n := by
    cases b
    · exact le_of_eq (h2 rfl).symm
    · exact (h1 rfl).2.2
  refine ⟨n, b, h, hn, by omega, ?_, ?_⟩
  · intro j hj hjn hi
    have := (h3 j hi hjn).1
    omega
  · constructor
    · intro hb; exact (h1 hb).1
    · intro hi; exact (h3 n hi hn).2 rfl

/-- C22, the defect: for exactly the other start ticks (negative, within one spacing below a word boundary) the
downward search returns the word boundary *above* the start, flagged as not initialized. -/
theorem C22_down_wrong (t : TickData) (hs : Increasing t.ticks) (hne : t.ticks ≠ []) (hsp : 0 < t.spacing) (tick k : Int)
    (hk : k ≤ 0) (h1 : 256 * k * t.spacing - t.spacing < tick) (h2 : tick < 256 * k * t.spacing) :
    t.nextInitializedTickWithinOneWord tick true = .ok (256 * k * t.spacing, false) := by
  obtain ⟨n, b, h, h3, h4, h5⟩ := next_down hs hne (by omega) tick
  have hw := (wordMin_gt_iff hsp tick).2 ⟨k, hk, h1, h2⟩
  have hb : b = false := by
    cases b
    · rfl
    · have := h3 rfl; omega
  have hn := h4 hb
  have hneg : tick < 0 := by
    have h0 : 256 * k * t.spacing ≤ 0 := Int.mul_nonpos_of_nonpos_of_nonneg (by omega) (le_of_lt hsp)
    omega
  obtain ⟨h6, h7⟩ := tdiv_neg_bounds hsp hneg
  have h8 : Int.tdiv tick t.spacing = 256 * k := by
    apply le_antisymm
    · have : (Int.tdiv tick t.spacing - 1) * t.spacing < 256 * k * t.spacing := by omega
      have := lt_of_mul_lt_mul_right this (le_of_lt hsp)
      omega
    · have : (256 * k - 1) * t.spacing < Int.tdiv tick t.spacing * t.spacing := by rw [sub_mul]; omega
      have := lt_of_mul_lt_mul_right this (le_of_lt hsp)
      omega
  have h9 : wordMin t tick = 256 * k * t.spacing := by
    unfold wordMin
    rw [h8, show 256 * k / 256 * 256 = 256 * k by omega]
  rw [h, hn, hb, h9]

/-- C22: non-negative ticks and multiples of the spacing are always searched correctly. -/
theorem C22_down_good (spacing tick : Int) (hsp : 0 < spacing) (h : 0 ≤ tick ∨ spacing ∣ tick) :
    ¬ ∃ k : Int, k ≤ 0 ∧ 256 * k * spacing - spacing < tick ∧ tick < 256 * k * spacing := by
  rintro ⟨k, hk, h1, h2⟩
  rcases h with h | ⟨m, rfl⟩
  · have h0 : 256 * k * spacing ≤ 0 := Int.mul_nonpos_of_nonpos_of_nonneg (by omega) (le_of_lt hsp)
    omega
  · have e1 : (256 * k - 1) * spacing < m * spacing := by rw [sub_mul, mul_comm m]; omega
    have e2 : m * spacing < 256 * k * spacing := by rw [mul_comm m]; exact h2
    have := lt_of_mul_lt_mul_right e1 (le_of_lt hsp)
    have := lt_of_mul_lt_mul_right e2 (le_of_lt hsp)
    omega

/-- C22: on an empty store the search panics. -/
theorem C22_empty (t : TickData) (h : t.ticks = []) (tick : Int) (lte : Bool) :
    t.nextInitializedTickWithinOneWord tick lte = .error .panic := next_empty h tick lte

-- concrete store; start ticks 100 (good), -70 (good: word minimum far below), -1 (wrong)
private def demoStore : TickData := ⟨[⟨-120, ofNat 5, ofNat 5, zero, zero⟩, ⟨60, neg (ofNat 5), ofNat 5, zero, zero⟩], 60⟩
example : Increasing demoStore.ticks := by unfold demoStore Increasing; simp
example : demoStore.nextInitializedTickWithinOneWord 100 true = .ok (60, true) := by decide +kernel
example : demoStore.nextInitializedTickWithinOneWord (-70) true = .ok (-120, true) := by decide +kernel
example : demoStore.nextInitializedTickWithinOneWord (-1) true = .ok (0, false) := by decide +kernel
example : demoStore.nextInitializedTickWithinOneWord (-70) false = .ok (-60, false) ∨
    demoStore.nextInitializedTickWithinOneWord (-70) false = .ok (60, true) := by decide +kernel

end Props
end Uni
