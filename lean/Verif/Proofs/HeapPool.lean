import Verif.Proofs.HeapTicks
/-! # The pool on the heap refines the pool of the value model -/
namespace Uni
open U256 FullMath TickMath SwapMath
open scoped List

/-- What one operation of a pool may do to the heap: see `Evolve`; the price is left where it is or is a new number that the
pool does not write to. -/
structure StepOk (h : Heap) (p : HPool) (h' : Heap) (p' : HPool) : Prop where
  ev : Evolve h h' p.writes p'.writes
  price : p'.price = p.price ∨ (h.next ≤ p'.price ∧ p'.price < h'.next ∧ p'.price ∉ p'.writes)

theorem StepOk.refl (h : Heap) (p : HPool) : StepOk h p h p := ⟨Evolve.refl _ _, Or.inl rfl⟩

theorem StepOk.sep {h h' : Heap} {p p' : HPool} (k : StepOk h p h' p') (s : Sep h p) : Sep h' p' := by
  refine ⟨k.ev.safe s.safe, ?_, ?_⟩
  · rcases k.price with e | e
    · rw [e]
      intro hm
      rcases k.ev.mem hm with h1 | h1
      · exact s.price h1
      · have := s.priceLt; omega
    · exact e.2.2
  · rcases k.price with e | e
    · rw [e]; exact Nat.lt_of_lt_of_le s.priceLt k.ev.le
    · exact e.2.1

theorem StepOk.trans {h h' h'' : Heap} {p p' p'' : HPool} (s : Sep h p) (k : StepOk h p h' p') (l : StepOk h' p' h'' p'') :
    StepOk h p h'' p'' := by
  refine ⟨k.ev.trans l.ev, ?_⟩
  have s' := k.sep s
  have s'' := l.sep s'
  rcases l.price with e | e
  · rcases k.price with f | f
    · exact Or.inl (e.trans f)
    · refine Or.inr ⟨by rw [e]; exact f.1, s''.priceLt, s''.price⟩
  · exact Or.inr ⟨Nat.le_trans k.ev.le e.1, e.2.1, e.2.2⟩

/-! ### Parts of a pool -/

theorem Sep.ticks {h : Heap} {p : HPool} (s : Sep h p) : Safe h p.ticks.refs := by
  have e : p.ticks.refs <+ p.writes :=
    ((List.sublist_append_right [p.liquidity, p.growth0, p.growth1] p.ticks.refs).trans (List.sublist_append_left _ _))
  exact ⟨e.nodup s.safe.nodup, fun r hr => s.safe.lt r (e.subset hr)⟩

theorem Sep.pos {h : Heap} {p : HPool} (s : Sep h p) : Safe h (posRefs p.positions) := by
  have e : posRefs p.positions <+ p.writes := List.sublist_append_right _ _
  exact ⟨e.nodup s.safe.nodup, fun r hr => s.safe.lt r (e.subset hr)⟩

theorem Sep.apart {h : Heap} {p : HPool} (s : Sep h p) :
    (p.liquidity ≠ p.growth0 ∧ p.liquidity ≠ p.growth1 ∧ p.growth0 ≠ p.growth1) ∧
    (p.liquidity ∉ p.ticks.refs ∧ p.growth0 ∉ p.ticks.refs ∧ p.growth1 ∉ p.ticks.refs) ∧
    (p.liquidity ∉ posRefs p.positions ∧ p.growth0 ∉ posRefs p.positions ∧ p.growth1 ∉ posRefs p.positions) ∧
    (∀ r ∈ p.ticks.refs, r ∉ posRefs p.positions) := by
  have h1 := s.safe.nodup
  unfold HPool.writes at h1
  obtain ⟨h2, _, h4⟩ := List.nodup_append'.1 h1
  obtain ⟨h5, _, h7⟩ := List.nodup_append'.1 h2
  simp only [List.nodup_cons, List.mem_cons, List.not_mem_nil, or_false, not_or] at h5
  have m : ∀ {r : Nat}, r ∈ [p.liquidity, p.growth0, p.growth1] → r ∈ [p.liquidity, p.growth0, p.growth1] ++ p.ticks.refs :=
    fun hr => List.mem_append_left _ hr
  refine ⟨⟨h5.1.1, h5.1.2, h5.2.1⟩, ⟨fun h => h7 (by simp) h, fun h => h7 (by simp) h, fun h => h7 (by simp) h⟩,
    ⟨fun h => h4 (m (by simp)) h, fun h => h4 (m (by simp)) h, fun h => h4 (m (by simp)) h⟩, fun r hr h => h4 (List.mem_append_right _ hr) h⟩

theorem Sep.lt {h : Heap} {p : HPool} (s : Sep h p) :
    p.liquidity < h.next ∧ p.growth0 < h.next ∧ p.growth1 < h.next :=
  ⟨s.safe.lt _ (by simp [HPool.writes]), s.safe.lt _ (by simp [HPool.writes]), s.safe.lt _ (by simp [HPool.writes])⟩

theorem Sep.price_ticks {h : Heap} {p : HPool} (s : Sep h p) : p.price ∉ p.ticks.refs :=
  fun hm => s.price (by simp [HPool.writes, hm])

theorem Sep.price_pos {h : Heap} {p : HPool} (s : Sep h p) : p.price ∉ posRefs p.positions :=
  fun hm => s.price (by simp [HPool.writes, hm])

/-! ### Changes of the ticks -/

theorem ticks_step {h h' : Heap} {p : HPool} {t : HTickData} (s : Sep h p) (e : Evolve h h' p.ticks.refs t.refs) :
    StepOk h p h' { p with ticks := t } ∧ ({ p with ticks := t } : HPool).view h' = { p.view h with ticks := t.view h' } := by
  refine ⟨⟨e.ctx _ _, Or.inl rfl⟩, ?_⟩
  obtain ⟨_, ⟨a1, a2, a3⟩, _, a4⟩ := s.apart
  unfold HPool.view
  dsimp only
  rw [e.frame _ s.priceLt s.price_ticks, e.frame _ s.lt.1 a1, e.frame _ s.lt.2.1 a2, e.frame _ s.lt.2.2 a3,
    positions_congr (h := h) (h' := h') fun r hr => e.frame r (s.pos.lt r hr) fun h1 => a4 r h1 hr]

/-! ### In-place changes of the liquidity and the growths -/

theorem liquidity_step {h : Heap} {p : HPool} (s : Sep h p) (v : U256) :
    StepOk h p (h.write p.liquidity v) p ∧ p.view (h.write p.liquidity v) = { p.view h with liquidity := v } := by
  obtain ⟨⟨b1, b2, b3⟩, ⟨a1, a2, a3⟩, ⟨c1, c2, c3⟩, a4⟩ := s.apart
  have hp : p.price ≠ p.liquidity := fun e => s.price (by simp [HPool.writes, e])
  refine ⟨⟨HTickData.evolve_write1 (by simp [HPool.writes]) v, Or.inl rfl⟩, ?_⟩
  unfold HPool.view
  dsimp only
  rw [write_same, write_other _ _ hp, write_other _ _ b1.symm, write_other _ _ b2.symm,
    HTickData.view_congr (h := h) fun r hr => write_other _ _ (by rintro rfl; exact a1 hr),
    positions_congr (h := h) fun r hr => write_other _ _ (by rintro rfl; exact c1 hr)]

theorem growth_step {h : Heap} {p : HPool} (s : Sep h p) (u v : U256) :
    StepOk h p ((h.write p.growth0 u).write p.growth1 v) p ∧
    p.view ((h.write p.growth0 u).write p.growth1 v) = { p.view h with growth0 := u, growth1 := v } := by
  obtain ⟨⟨b1, b2, b3⟩, ⟨a1, a2, a3⟩, ⟨c1, c2, c3⟩, a4⟩ := s.apart
  have hp : p.price ≠ p.growth0 := fun e => s.price (by simp [HPool.writes, e])
  have hq : p.price ≠ p.growth1 := fun e => s.price (by simp [HPool.writes, e])
  refine ⟨⟨HTickData.evolve_write2 (by simp [HPool.writes]) (by simp [HPool.writes]) u v, Or.inl rfl⟩, ?_⟩
  unfold HPool.view
  dsimp only
  rw [write_same, write_other _ _ hq, write_other _ _ hp, write_other _ _ b2, write_other _ _ b1, write_other _ _ b3, write_same,
    HTickData.view_congr (h := h) fun r hr => (write_other _ _ (by rintro rfl; exact a3 hr)).trans
      (write_other _ _ (by rintro rfl; exact a2 hr)),
    positions_congr (h := h) fun r hr => (write_other _ _ (by rintro rfl; exact c3 hr)).trans
      (write_other _ _ (by rintro rfl; exact c2 hr))]

/-! ### Changes of a position -/

theorem hlookup_disjoint {l : List (String × HInfo)} (hn : (posRefs l).Nodup) {k k' : String} {i j : HInfo}
    (hi : hlookup l k = some i) (hj : hlookup l k' = some j) (hk : k' ≠ k) : ∀ r ∈ j.refs, r ∉ i.refs := by
  induction l with
  | nil => cases hi
  | cons e l ih =>
    obtain ⟨_, h2, h3⟩ := List.nodup_append'.1 (show (e.2.refs ++ posRefs l).Nodup from hn)
    unfold hlookup at hi hj
    by_cases h1 : e.1 = k
    · rw [if_pos h1] at hi
      rw [if_neg (by rw [h1]; exact Ne.symm hk)] at hj
      cases hi
      intro r hr hr'
      exact h3 hr' (hlookup_refs hj r hr)
    · rw [if_neg h1] at hi
      by_cases h1' : e.1 = k'
      · rw [if_pos h1'] at hj
        cases hj
        intro r hr hr'
        exact h3 hr (hlookup_refs hi r hr')
      · rw [if_neg h1'] at hj
        exact ih h2 hi hj

theorem hlookup_nodup {l : List (String × HInfo)} (hn : (posRefs l).Nodup) {k : String} {i : HInfo}
    (hi : hlookup l k = some i) : i.refs.Nodup := by
  induction l with
  | nil => cases hi
  | cons e l ih =>
    obtain ⟨h1, h2, _⟩ := List.nodup_append'.1 (show (e.2.refs ++ posRefs l).Nodup from hn)
    unfold hlookup at hi
    by_cases hk : e.1 = k
    · rw [if_pos hk] at hi; cases hi; exact h1
    · rw [if_neg hk] at hi; exact ih h2 hi

/-- Replacing the position under a key by one whose cells are those of the old one or new. -/
theorem positions_step {h h' : Heap} {p : HPool} {k : String} {i : HInfo} (s : Sep h p)
    (e : Evolve h h' (refsAt p.positions k) i.refs) :
    StepOk h p h' { p with positions := hset p.positions k i } ∧
    ({ p with positions := hset p.positions k i } : HPool).view h' =
      { p.view h with positions := Pool.setPos (p.view h).positions k (i.view h') } := by
  have hsub : ∀ r ∈ refsAt p.positions k, r ∈ posRefs p.positions := by
    intro r hr
    unfold refsAt at hr
    cases hx : hlookup p.positions k with
    | none => rw [hx] at hr; cases hr
    | some j => rw [hx] at hr; exact hlookup_refs hx r hr
  obtain ⟨_, _, ⟨c1, c2, c3⟩, a4⟩ := s.apart
  refine ⟨⟨?_, Or.inl rfl⟩, ?_⟩
  · obtain ⟨rest, h1, h2⟩ := posRefs_hset p.positions k i
    have e1 : Evolve h h' (posRefs p.positions) (posRefs (hset p.positions k i)) :=
      (e.ctx [] rest).perm h1 h2.subperm
    have e2 := e1.ctx ([p.liquidity, p.growth0, p.growth1] ++ p.ticks.refs) []
    rw [List.append_nil, List.append_nil] at e2
    exact e2
  · unfold HPool.view
    dsimp only
    rw [e.frame _ s.priceLt fun hm => s.price_pos (hsub _ hm), e.frame _ s.lt.1 fun hm => c1 (hsub _ hm),
      e.frame _ s.lt.2.1 fun hm => c2 (hsub _ hm), e.frame _ s.lt.2.2 fun hm => c3 (hsub _ hm),
      HTickData.view_congr (h := h) (h' := h') fun r hr => e.frame r (s.ticks.lt r hr) fun hm => a4 r hr (hsub _ hm)]
    congr 1
    funext k'
    rw [hlookup_hset]
    unfold Pool.setPos
    by_cases hk : k' = k
    · rw [if_pos hk, if_pos hk]; rfl
    · rw [if_neg hk, if_neg hk]
      show _ = (hlookup p.positions k').map (HInfo.view h)
      cases hj : hlookup p.positions k' with
      | none => rfl
      | some j =>
        show some (j.view h') = some (j.view h)
        rw [HInfo.view_congr]
        intro r hr
        apply e.frame r (s.pos.lt r (hlookup_refs hj r hr))
        unfold refsAt
        cases hx : hlookup p.positions k with
        | none => intro hm; cases hm
        | some j' => exact hlookup_disjoint s.pos.nodup hx hj hk r hr

theorem info_ne {i : HInfo} (h : i.refs.Nodup) :
    (i.liquidity ≠ i.owed0 ∧ i.inside0 ≠ i.owed0 ∧ i.inside1 ≠ i.owed0) ∧
    (i.liquidity ≠ i.owed1 ∧ i.inside0 ≠ i.owed1 ∧ i.inside1 ≠ i.owed1) ∧ i.owed0 ≠ i.owed1 := by
  unfold HInfo.refs at h
  simp only [List.nodup_cons, List.mem_cons, List.not_mem_nil, or_false, not_or] at h
  obtain ⟨⟨a, b, c, d⟩, ⟨e, f, g⟩, ⟨i1, j1⟩, k1, _⟩ := h
  exact ⟨⟨c, f, i1⟩, ⟨d, g, j1⟩, k1⟩

theorem info_write2 {h : Heap} {i : HInfo} (hn : i.refs.Nodup) (u v : U256) :
    i.view ((h.write i.owed0 u).write i.owed1 v) = { i.view h with owed0 := u, owed1 := v } := by
  obtain ⟨⟨a, b, c⟩, ⟨d, e, f⟩, g⟩ := info_ne hn
  unfold HInfo.view
  dsimp only
  rw [write_other _ _ d, write_other _ _ a, write_other _ _ e, write_other _ _ b, write_other _ _ f, write_other _ _ c,
    write_other _ _ g, write_same, write_same]

theorem hset_same {l : List (String × HInfo)} {k : String} {i : HInfo} (h : hlookup l k = some i) : hset l k i = l := by
  induction l with
  | nil => cases h
  | cons e l ih =>
    unfold hlookup at h
    unfold hset
    by_cases hk : e.1 = k
    · rw [if_pos hk] at h
      cases h
      rw [if_pos hk, ← hk]
    · rw [if_neg hk] at h
      rw [if_neg hk, ih h]

/-- In-place changes of the owed amounts of a position. -/
theorem owed_step {h : Heap} {p : HPool} {k : String} {i : HInfo} (s : Sep h p) (hi : hlookup p.positions k = some i)
    (u v : U256) :
    StepOk h p ((h.write i.owed0 u).write i.owed1 v) p ∧
    p.view ((h.write i.owed0 u).write i.owed1 v) =
      { p.view h with positions := Pool.setPos (p.view h).positions k { i.view h with owed0 := u, owed1 := v } } := by
  have hr : refsAt p.positions k = i.refs := by unfold refsAt; rw [hi]
  have e : Evolve h ((h.write i.owed0 u).write i.owed1 v) (refsAt p.positions k) i.refs := by
    rw [hr]
    exact HTickData.evolve_write2 (by simp [HInfo.refs]) (by simp [HInfo.refs]) u v
  have := positions_step s e
  rw [hset_same hi, info_write2 (hlookup_nodup s.pos.nodup hi)] at this
  exact this

theorem new_spec (h : Heap) : (HInfo.new h).1.view (HInfo.new h).2 = Info.new ∧ Evolve h (HInfo.new h).2 [] (HInfo.new h).1.refs ∧
    (HInfo.new h).1.refs = [h.next, h.next + 1, h.next + 2, h.next + 3, h.next + 4] := by
  refine ⟨?_, ?_, rfl⟩
  · have key : ∀ k, (HInfo.new h).2.cell k = if h.next ≤ k ∧ k < h.next + 5 then zero else h.cell k := by
      intro k
      show (if k = h.next + 1 + 1 + 1 + 1 then zero else if k = h.next + 1 + 1 + 1 then zero else
        if k = h.next + 1 + 1 then zero else if k = h.next + 1 then zero else if k = h.next then zero else h.cell k) = _
      by_cases hk : h.next ≤ k ∧ k < h.next + 5
      · rw [if_pos hk]
        split <;> try rfl
        split <;> try rfl
        split <;> try rfl
        split <;> try rfl
        split <;> try rfl
        omega
      · rw [if_neg hk, if_neg (by omega), if_neg (by omega), if_neg (by omega), if_neg (by omega), if_neg (by omega)]
    have e : (HInfo.new h).1 = ⟨h.next, h.next + 1, h.next + 2, h.next + 3, h.next + 4⟩ := rfl
    unfold HInfo.view Info.new
    rw [e]
    simp only [key]
    rw [if_pos (by omega), if_pos (by omega), if_pos (by omega), if_pos (by omega), if_pos (by omega)]
  · have e := (Evolve.alloc h zero)
    refine ⟨by show h.next ≤ h.next + 1 + 1 + 1 + 1 + 1; omega, ?_, _, ?_, ?_, by rw [List.append_nil]⟩
    · intro k hk _
      show (if k = h.next + 1 + 1 + 1 + 1 then zero else if k = h.next + 1 + 1 + 1 then zero else
        if k = h.next + 1 + 1 then zero else if k = h.next + 1 then zero else if k = h.next then zero else h.cell k) = _
      rw [if_neg (by omega), if_neg (by omega), if_neg (by omega), if_neg (by omega), if_neg (by omega)]
    · show [h.next, h.next + 1, h.next + 2, h.next + 3, h.next + 4].Nodup
      simp
    · intro r hr
      have hr : r ∈ [h.next, h.next + 1, h.next + 2, h.next + 3, h.next + 4] := hr
      simp only [List.mem_cons, List.not_mem_nil, or_false] at hr
      show h.next ≤ r ∧ r < h.next + 1 + 1 + 1 + 1 + 1
      omega

theorem posOrNew_spec (h : Heap) (l : List (String × HInfo)) (k : String) :
    (HPool.posOrNew h (hlookup l k)).1.view (HPool.posOrNew h (hlookup l k)).2 =
      Pool.posOrNew ((hlookup l k).map (HInfo.view h)) ∧
    Evolve h (HPool.posOrNew h (hlookup l k)).2 (refsAt l k) (HPool.posOrNew h (hlookup l k)).1.refs := by
  unfold refsAt
  cases hlookup l k with
  | none => exact ⟨(new_spec h).1, (new_spec h).2.1⟩
  | some i => exact ⟨rfl, Evolve.refl _ _⟩

theorem update_refines {h : Heap} {i : HInfo} (s : Safe h i.refs) (delta in0 in1 : U256) :
    Refines (i.update h delta in0 in1) ((i.view h).update delta in0 in1) fun a b =>
      b = a.1.view a.2 ∧ Evolve h a.2 i.refs a.1.refs := by
  unfold HInfo.update Info.update
  refine Refines.bind (Refines.refl _) ?_
  rintro o0 _ rfl
  refine Refines.bind (Refines.refl _) ?_
  rintro o1 _ rfl
  refine Refines.pure ?_
  obtain ⟨⟨a, b, c⟩, ⟨d, e, f⟩, g⟩ := info_ne s.nodup
  have l0 : i.owed0 < h.next := s.lt _ (by simp [HInfo.refs])
  have l1 : i.owed1 < h.next := s.lt _ (by simp [HInfo.refs])
  have key : ∀ (u0 u1 : U256) (k : Nat),
      (((((h.alloc (add (h.cell i.liquidity) delta)).2.alloc in0).2.alloc in1).2.write i.owed0 u0).write i.owed1 u1).cell k =
      if k = i.owed1 then u1 else if k = i.owed0 then u0 else if k = h.next + 1 + 1 then in1 else if k = h.next + 1 then in0
        else if k = h.next then add (h.cell i.liquidity) delta else h.cell k := fun _ _ _ => rfl
  have key0 : ∀ (k : Nat), k < h.next →
      (((h.alloc (add (h.cell i.liquidity) delta)).2.alloc in0).2.alloc in1).2.cell k = h.cell k := by
    intro k hk
    show (if k = h.next + 1 + 1 then in1 else if k = h.next + 1 then in0
        else if k = h.next then add (h.cell i.liquidity) delta else h.cell k) = _
    rw [if_neg (by omega), if_neg (by omega), if_neg (by omega)]
  have key1 : ∀ (u0 : U256),
      ((((h.alloc (add (h.cell i.liquidity) delta)).2.alloc in0).2.alloc in1).2.write i.owed0 u0).cell i.owed1 =
      h.cell i.owed1 := by
    intro u0
    rw [write_other _ _ g.symm, key0 _ l1]
  dsimp only
  refine ⟨?_, ?_⟩
  · unfold HInfo.view
    dsimp only
    simp only [key, alloc_ref, alloc_next]
    rw [key1, key0 _ l0]
    have n0 : h.next ≠ i.owed0 := by omega
    have n1 : h.next ≠ i.owed1 := by omega
    have n2 : h.next + 1 ≠ i.owed0 := by omega
    have n3 : h.next + 1 ≠ i.owed1 := by omega
    have n4 : h.next + 1 + 1 ≠ i.owed0 := by omega
    have n5 : h.next + 1 + 1 ≠ i.owed1 := by omega
    have n6 : h.next ≠ h.next + 1 + 1 := by omega
    have n7 : h.next ≠ h.next + 1 := by omega
    have n8 : h.next + 1 ≠ h.next + 1 + 1 := by omega
    rw [if_neg n1, if_neg n0, if_neg n6, if_neg n7, if_neg n3, if_neg n2, if_neg n8, if_neg n5, if_neg n4, if_neg g]
    simp only [if_true]
  · refine ⟨?_, ?_, [h.next, h.next + 1, h.next + 1 + 1], ?_, ?_, ?_⟩
    · show h.next ≤ h.next + 1 + 1 + 1; omega
    · intro k hk hw
      rw [key]
      unfold HInfo.refs at hw
      simp only [List.mem_cons, List.not_mem_nil, or_false, not_or] at hw
      rw [if_neg hw.2.2.2.2, if_neg hw.2.2.2.1, if_neg (by omega), if_neg (by omega), if_neg (by omega)]
    · simp only [List.nodup_cons, List.mem_cons, List.not_mem_nil, or_false, not_or]
      refine ⟨⟨by omega, by omega⟩, by omega, by simp, List.nodup_nil⟩
    · intro r hr
      simp only [List.mem_cons, List.not_mem_nil, or_false] at hr
      show h.next ≤ r ∧ r < h.next + 1 + 1 + 1
      omega
    · show [h.next, h.next + 1, h.next + 1 + 1, i.owed0, i.owed1] <+~
        [h.next, h.next + 1, h.next + 1 + 1] ++ [i.liquidity, i.inside0, i.inside1, i.owed0, i.owed1]
      apply List.Sublist.subperm
      refine List.Sublist.append (l₁ := [h.next, h.next + 1, h.next + 1 + 1]) (r₁ := [i.owed0, i.owed1]) (List.Sublist.refl _) ?_
      exact ((List.sublist_append_right [i.liquidity, i.inside0, i.inside1] [i.owed0, i.owed1]))

end Uni
