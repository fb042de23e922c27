import Verif.Proofs.HeapOps
import Verif.Proofs.SwapLoop
import Verif.Spec.Heap
/-! # Several pools on one heap -/
namespace Uni
open U256 FullMath TickMath SwapMath Spec
open scoped List

theorem execOn_refines {h : Heap} {p : HPool} (s : Sep h p) (fuel : Nat) (o : PoolOp) :
    Refines (o.execOn fuel h p) (o.exec fuel (p.view h)) (OpRel h p) := by
  cases o with
  | mint l u a => exact mint_refines s l u a
  | burn l u a => exact burn_refines s l u a
  | mintStrategy l u a =>
    refine Refines.bind (mintStrategy_refines s l u a) ?_
    rintro a _ ⟨rfl, k⟩
    exact Refines.pure ⟨rfl, k⟩
  | burnStrategy l u a =>
    refine Refines.bind (burnStrategy_refines s l u a) ?_
    rintro a _ ⟨rfl, k⟩
    exact Refines.pure ⟨rfl, k⟩
  | collectStrategy l u =>
    refine Refines.bind (collectStrategy_refines s l u) ?_
    rintro a _ ⟨rfl, k⟩
    exact Refines.pure ⟨rfl, k⟩
  | flash a b => exact flash_refines s a b
  | exactInput a t l =>
    refine Refines.bind (swap_refines s fuel (decide (t = p.token0)) a l) ?_
    rintro a _ ⟨rfl, k⟩
    exact Refines.pure ⟨rfl, k⟩
  | exactOutput a t l =>
    refine Refines.bind (swap_refines s fuel (decide (t = p.token1)) a l) ?_
    rintro a _ ⟨rfl, k⟩
    exact Refines.pure ⟨rfl, k⟩

/-! ### New pools and clones -/

theorem new_refines {h : Heap} (t0 t1 : String) (fee : Int) {price : Nat} (hp : price < h.next) :
    Refines (HPool.new h t0 t1 fee price) (Pool.new t0 t1 fee (h.cell price)) fun a b =>
      b = a.2.view a.1 ∧ Sep a.1 a.2 ∧ Evolve h a.1 [] a.2.writes ∧ a.2.price = price := by
  unfold HPool.new Pool.new
  refine Refines.bind (Refines.refl _) fun _ _ _ => ?_
  refine Refines.bind (Refines.refl _) ?_
  rintro tick _ rfl
  have ev := (((Evolve.alloc h zero).ctx [] []).trans
    ((Evolve.alloc (h.alloc zero).2 zero).ctx [h.next] [])).trans
    ((Evolve.alloc ((h.alloc zero).2.alloc zero).2 zero).ctx [h.next, h.next + 1] [])
  have s : Safe h ([] : List Nat) := ⟨List.nodup_nil, by simp⟩
  refine Refines.pure ⟨?_, ⟨ev.safe s, ?_, ?_⟩, ev, rfl⟩
  · unfold HPool.view
    dsimp only [Heap.alloc]
    rw [if_neg (by omega), if_neg (by omega), if_neg (by omega), if_neg (by omega), if_neg (by omega), if_pos rfl,
      if_neg (by omega), if_pos rfl, if_pos rfl]
    rfl
  · intro hm
    have : price ∈ [h.next, h.next + 1, h.next + 1 + 1] := hm
    simp only [List.mem_cons, List.not_mem_nil, or_false] at this
    omega
  · show price < h.next + 1 + 1 + 1
    omega

theorem clone_info {h : Heap} {i : HInfo} (s : ∀ r ∈ i.refs, r < h.next) :
    (i.clone h).1.view (i.clone h).2 = (i.view h).clone ∧ Evolve h (i.clone h).2 [] (i.clone h).1.refs := by
  have l1 := s i.liquidity (by simp [HInfo.refs])
  have l2 := s i.inside0 (by simp [HInfo.refs])
  have l3 := s i.inside1 (by simp [HInfo.refs])
  have l5 := s i.owed1 (by simp [HInfo.refs])
  unfold HInfo.clone
  dsimp only
  have e1 : (h.alloc (h.cell i.liquidity)).2.cell i.inside0 = h.cell i.inside0 := alloc_other _ _ l2
  generalize ha : h.alloc (h.cell i.liquidity) = a at *
  have a1 : a.1 = h.next := by rw [← ha]; rfl
  have a2 : a.2.next = h.next + 1 := by rw [← ha]; rfl
  have ac : ∀ k, k < h.next → a.2.cell k = h.cell k := by intro k hk; rw [← ha]; exact alloc_other _ _ hk
  have as : a.2.cell h.next = h.cell i.liquidity := by rw [← ha]; exact if_pos rfl
  have ea : Evolve h a.2 [] [a.1] := by rw [← ha]; exact Evolve.alloc _ _
  generalize hb : a.2.alloc (a.2.cell i.inside0) = b at *
  have b1 : b.1 = h.next + 1 := by rw [← hb, ← a2]; rfl
  have b2 : b.2.next = h.next + 2 := by rw [← hb]; show a.2.next + 1 = _; omega
  have bc : ∀ k, k < h.next + 1 → b.2.cell k = a.2.cell k := by
    intro k hk; rw [← hb]; exact alloc_other _ _ (by omega)
  have bs : b.2.cell (h.next + 1) = h.cell i.inside0 := by rw [← e1, ← hb, ← a2]; exact if_pos rfl
  have eb : Evolve a.2 b.2 [] [b.1] := by rw [← hb]; exact Evolve.alloc _ _
  have e2 : b.2.cell i.inside1 = h.cell i.inside1 := by rw [bc _ (by omega), ac _ l3]
  generalize hc : b.2.alloc (b.2.cell i.inside1) = c at *
  have c1 : c.1 = h.next + 2 := by rw [← hc, ← b2]; rfl
  have c2 : c.2.next = h.next + 3 := by rw [← hc]; show b.2.next + 1 = _; omega
  have cc : ∀ k, k < h.next + 2 → c.2.cell k = b.2.cell k := by
    intro k hk; rw [← hc]; exact alloc_other _ _ (by omega)
  have cs : c.2.cell (h.next + 2) = h.cell i.inside1 := by rw [← e2, ← hc, ← b2]; exact if_pos rfl
  have ec : Evolve b.2 c.2 [] [c.1] := by rw [← hc]; exact Evolve.alloc _ _
  have e3 : c.2.cell i.owed1 = h.cell i.owed1 := by rw [cc _ (by omega), bc _ (by omega), ac _ l5]
  generalize hd : c.2.alloc (c.2.cell i.owed1) = d at *
  have d1 : d.1 = h.next + 3 := by rw [← hd, ← c2]; rfl
  have d2 : d.2.next = h.next + 4 := by rw [← hd]; show c.2.next + 1 = _; omega
  have dc : ∀ k, k < h.next + 3 → d.2.cell k = c.2.cell k := by
    intro k hk; rw [← hd]; exact alloc_other _ _ (by omega)
  have ds : d.2.cell (h.next + 3) = h.cell i.owed1 := by rw [← e3, ← hd, ← c2]; exact if_pos rfl
  have ed : Evolve c.2 d.2 [] [d.1] := by rw [← hd]; exact Evolve.alloc _ _
  have e4 : d.2.cell i.owed1 = h.cell i.owed1 := by rw [dc _ (by omega), e3]
  generalize he : d.2.alloc (d.2.cell i.owed1) = e at *
  have f1 : e.1 = h.next + 4 := by rw [← he, ← d2]; rfl
  have fc : ∀ k, k < h.next + 4 → e.2.cell k = d.2.cell k := by
    intro k hk; rw [← he]; exact alloc_other _ _ (by omega)
  have fs : e.2.cell (h.next + 4) = h.cell i.owed1 := by rw [← e4, ← he, ← d2]; exact if_pos rfl
  have ee : Evolve d.2 e.2 [] [e.1] := by rw [← he]; exact Evolve.alloc _ _
  constructor
  · unfold HInfo.view Info.clone
    dsimp only
    rw [a1, b1, c1, d1, f1, fs, fc _ (by omega), dc _ (by omega), cc _ (by omega), bc _ (by omega), as,
      fc _ (by omega), dc _ (by omega), cc _ (by omega), bs, fc _ (by omega), dc _ (by omega), cs, fc _ (by omega), ds]
  · exact ((((ea.trans (eb.ctx [a.1] [])).trans (ec.ctx [a.1, b.1] [])).trans (ed.ctx [a.1, b.1, c.1] [])).trans
      (ee.ctx [a.1, b.1, c.1, d.1] []))

theorem clonePositions_spec : ∀ (l : List (String × HInfo)) (h : Heap), (∀ r ∈ posRefs l, r < h.next) →
    (fun k => (hlookup (HPool.clonePositions h l).1 k).map (HInfo.view (HPool.clonePositions h l).2)) =
      (fun k => ((hlookup l k).map (HInfo.view h)).map Info.clone) ∧
    Evolve h (HPool.clonePositions h l).2 [] (posRefs (HPool.clonePositions h l).1)
  | [], h, _ => ⟨rfl, Evolve.refl _ _⟩
  | (k0, i) :: l, h, hl => by
    have hi : ∀ r ∈ i.refs, r < h.next := fun r hr => hl r (List.mem_append_left _ hr)
    obtain ⟨c1, c2⟩ := clone_info hi
    have hl' : ∀ r ∈ posRefs l, r < (i.clone h).2.next := fun r hr =>
      Nat.lt_of_lt_of_le (hl r (List.mem_append_right _ hr)) c2.le
    obtain ⟨d1, d2⟩ := clonePositions_spec l (i.clone h).2 hl'
    have safeC : Safe (i.clone h).2 (i.clone h).1.refs := c2.safe ⟨List.nodup_nil, by simp⟩
    constructor
    · funext k
      show (if k0 = k then some (i.clone h).1 else hlookup (HPool.clonePositions (i.clone h).2 l).1 k).map
        (HInfo.view (HPool.clonePositions (i.clone h).2 l).2) = ((if k0 = k then some i else hlookup l k).map (HInfo.view h)).map Info.clone
      by_cases hk : k0 = k
      · rw [if_pos hk, if_pos hk]
        show some _ = some _
        rw [HInfo.view_congr (h := (i.clone h).2) fun r hr => d2.frame r (safeC.lt r hr) (by simp), c1]
      · rw [if_neg hk, if_neg hk]
        have e1 := congrFun d1 k
        refine e1.trans ?_
        have e2 := congrFun (positions_congr (l := l) (h := h) (h' := (i.clone h).2) fun r hr =>
          c2.frame r (hl r (List.mem_append_right _ hr)) (by simp)) k
        rw [e2]
    · have := c2.trans (d2.ctx (i.clone h).1.refs [])
      refine this.perm (List.Perm.refl _) ?_
      rw [List.append_nil]
      exact List.Subperm.refl _

/-- The clone of a pool: what it shows, what it shares, and that nothing visible changes. -/
theorem clone_spec {h : Heap} {p : HPool} (s : Sep h p) :
    (p.clone h).2.view (p.clone h).1 = (p.view h).clone ∧ (p.clone h).2.ticks = p.ticks ∧
    Sep (p.clone h).1 (p.clone h).2 ∧ (∀ r, r < h.next → (p.clone h).1.cell r = h.cell r) ∧ h.next ≤ (p.clone h).1.next ∧
    (∀ r ∈ (p.clone h).2.writes, r ∈ p.ticks.refs ∨ h.next ≤ r) ∧ h.next ≤ (p.clone h).2.price := by
  obtain ⟨c1, c2⟩ := clonePositions_spec p.positions h fun r hr => s.pos.lt r hr
  have hn0 : (HPool.clonePositions h p.positions).2.next ≥ h.next := c2.le
  have hc0 : ∀ k, k < h.next → (HPool.clonePositions h p.positions).2.cell k = h.cell k := fun k hk =>
    c2.frame k hk (by simp)
  have sc : Safe (HPool.clonePositions h p.positions).2 (posRefs (HPool.clonePositions h p.positions).1) :=
    c2.safe ⟨List.nodup_nil, by simp⟩
  have hfresh : ∀ r ∈ posRefs (HPool.clonePositions h p.positions).1, h.next ≤ r := by
    intro r hr
    rcases c2.mem hr with h1 | h1
    · cases h1
    · exact h1.1
  unfold HPool.clone
  dsimp only [HTickData.clone]
  generalize HPool.clonePositions h p.positions = ps at *
  obtain ⟨l1, l2, l3⟩ := s.lt
  have l0 := s.priceLt
  have key : ∀ v1 v2 v3 v4 k, k < ps.2.next →
      ((((ps.2.alloc v1).2.alloc v2).2.alloc v3).2.alloc v4).2.cell k = ps.2.cell k := by
    intro v1 v2 v3 v4 k hk
    dsimp only [Heap.alloc]
    rw [if_neg (by omega), if_neg (by omega), if_neg (by omega), if_neg (by omega)]
  have hcell : ∀ v1 v2 v3 v4 k, k < h.next →
      ((((ps.2.alloc v1).2.alloc v2).2.alloc v3).2.alloc v4).2.cell k = h.cell k := by
    intro v1 v2 v3 v4 k hk
    rw [key _ _ _ _ _ (by omega), hc0 k hk]
  have hw : ∀ v1 v2 v3, ([ps.2.next + 1, ps.2.next + 2, ps.2.next + 3] ++ p.ticks.refs ++ posRefs ps.1 : List Nat) =
      ({ p with price := (ps.2.alloc v1).1, liquidity := ((ps.2.alloc v1).2.alloc v2).1,
                growth0 := (((ps.2.alloc v1).2.alloc v2).2.alloc v3).1, growth1 := ps.2.next + 3, positions := ps.1 } : HPool).writes :=
    fun _ _ _ => rfl
  have hnd : ([ps.2.next + 1, ps.2.next + 2, ps.2.next + 3] ++ p.ticks.refs ++ posRefs ps.1 : List Nat).Nodup := by
    have n1 : [ps.2.next + 1, ps.2.next + 2, ps.2.next + 3].Nodup := by
      simp only [List.nodup_cons, List.mem_cons, List.not_mem_nil, or_false, not_or]
      exact ⟨⟨by omega, by omega⟩, by omega, by simp, List.nodup_nil⟩
    refine List.nodup_append'.2 ⟨List.nodup_append'.2 ⟨n1, s.ticks.nodup, ?_⟩, sc.nodup, ?_⟩
    · intro r hr hr'
      have := s.ticks.lt r hr'
      simp only [List.mem_cons, List.not_mem_nil, or_false] at hr
      omega
    · intro r hr hr'
      have g1 := hfresh r hr'
      have g2 := sc.lt r hr'
      rcases List.mem_append.1 hr with hr | hr
      · simp only [List.mem_cons, List.not_mem_nil, or_false] at hr
        omega
      · have := s.ticks.lt r hr; omega
  refine ⟨?_, rfl, ⟨⟨hnd, ?_⟩, ?_, ?_⟩, fun r hr => hcell _ _ _ _ r hr, ?_, ?_, hn0⟩
  · have htv : ∀ v1 v2 v3 v4, p.ticks.view ((((ps.2.alloc v1).2.alloc v2).2.alloc v3).2.alloc v4).2 = p.ticks.view h :=
      fun _ _ _ _ => HTickData.view_congr fun r hr => hcell _ _ _ _ r (s.ticks.lt r hr)
    have hpv : ∀ v1 v2 v3 v4, (fun k => (hlookup ps.1 k).map (HInfo.view ((((ps.2.alloc v1).2.alloc v2).2.alloc v3).2.alloc v4).2)) =
        fun k => ((hlookup p.positions k).map (HInfo.view h)).map Info.clone := by
      intro v1 v2 v3 v4
      rw [← c1]
      exact positions_congr fun r hr => key _ _ _ _ r (sc.lt r hr)
    unfold HPool.view Pool.clone
    dsimp only
    rw [htv, hpv]
    dsimp only [Heap.alloc]
    simp only [if_true]
    have n0 : (ps.2.next = ps.2.next + 1 + 1 + 1) = False := by simp; omega
    have n1 : (ps.2.next = ps.2.next + 1 + 1) = False := by simp; omega
    have n2 : (ps.2.next = ps.2.next + 1) = False := by simp
    have n3 : (ps.2.next + 1 = ps.2.next + 1 + 1 + 1) = False := by simp
    have n4 : (ps.2.next + 1 = ps.2.next + 1 + 1) = False := by simp
    have n5 : (ps.2.next + 1 + 1 = ps.2.next + 1 + 1 + 1) = False := by simp
    have m1 : (p.liquidity = ps.2.next) = False := by simp; omega
    have m2 : (p.growth0 = ps.2.next) = False := by simp; omega
    have m3 : (p.growth0 = ps.2.next + 1) = False := by simp; omega
    have m4 : (p.growth1 = ps.2.next) = False := by simp; omega
    have m5 : (p.growth1 = ps.2.next + 1) = False := by simp; omega
    have m6 : (p.growth1 = ps.2.next + 1 + 1) = False := by simp; omega
    simp only [n0, n1, n2, n3, n4, n5, m1, m2, m3, m4, m5, m6, if_false, hc0 _ l0, hc0 _ l1, hc0 _ l2, hc0 _ l3]
  · intro r hr
    show r < ps.2.next + 1 + 1 + 1 + 1
    rcases List.mem_append.1 (show r ∈ [ps.2.next + 1, ps.2.next + 2, ps.2.next + 3] ++ p.ticks.refs ++ posRefs ps.1 from hr) with hr | hr
    · rcases List.mem_append.1 hr with hr | hr
      · simp only [List.mem_cons, List.not_mem_nil, or_false] at hr
        omega
      · have := s.ticks.lt r hr; omega
    · have := sc.lt r hr; omega
  · intro hr
    rcases List.mem_append.1 (show ps.2.next ∈ [ps.2.next + 1, ps.2.next + 2, ps.2.next + 3] ++ p.ticks.refs ++ posRefs ps.1 from hr) with hr | hr
    · rcases List.mem_append.1 hr with hr | hr
      · simp only [List.mem_cons, List.not_mem_nil, or_false] at hr
        omega
      · have := s.ticks.lt _ hr; omega
    · have := sc.lt _ hr; omega
  · show ps.2.next < ps.2.next + 1 + 1 + 1 + 1
    omega
  · show h.next ≤ ps.2.next + 1 + 1 + 1 + 1
    omega
  · intro r hr
    rcases List.mem_append.1 (show r ∈ [ps.2.next + 1, ps.2.next + 2, ps.2.next + 3] ++ p.ticks.refs ++ posRefs ps.1 from hr) with hr | hr
    · rcases List.mem_append.1 hr with hr | hr
      · simp only [List.mem_cons, List.not_mem_nil, or_false] at hr
        right; omega
      · exact Or.inl hr
    · exact Or.inr (hfresh r hr)

/-! ### Worlds -/

/-- Neither pool writes to what the other reads. -/
def Apart (p q : HPool) : Prop :=
  (∀ r ∈ p.writes, r ∉ q.price :: q.writes) ∧ ∀ r ∈ q.writes, r ∉ p.price :: p.writes

theorem Apart.symm {p q : HPool} (a : Apart p q) : Apart q p := ⟨a.2, a.1⟩

/-- The pools of a world are in order and apart. -/
structure WorldOk (w : HWorld) : Prop where
  sep : ∀ p ∈ w.pools, Sep w.heap p
  apart : w.pools.Pairwise Apart

/-- Another pool after a step. -/
theorem step_other {h h' : Heap} {p p' q : HPool} (k : StepOk h p h' p') (sq : Sep h q) (a : Apart p q) :
    q.view h' = q.view h ∧ Sep h' q ∧ Apart p' q := by
  have hc : ∀ r ∈ q.price :: q.writes, r < h.next ∧ h'.cell r = h.cell r := by
    intro r hr
    have hlt : r < h.next := by
      rcases List.mem_cons.1 hr with rfl | h1
      · exact sq.priceLt
      · exact sq.safe.lt r h1
    exact ⟨hlt, k.ev.frame r hlt fun hp => a.1 r hp hr⟩
  refine ⟨HPool.view_congr fun r hr => (hc r hr).2, ⟨⟨sq.safe.nodup, fun r hr => ?_⟩, sq.price, ?_⟩, ?_, ?_⟩
  · exact Nat.lt_of_lt_of_le (sq.safe.lt r hr) k.ev.le
  · exact Nat.lt_of_lt_of_le sq.priceLt k.ev.le
  · intro r hr hq
    rcases k.ev.mem hr with h1 | h1
    · exact a.1 r h1 hq
    · have := (hc r hq).1; omega
  · intro r hr hp
    have hlt := sq.safe.lt r hr
    rcases List.mem_cons.1 hp with h1 | h1
    · rcases k.price with h2 | h2
      · exact a.2 r hr (by rw [h1, h2]; exact List.mem_cons_self)
      · omega
    · rcases k.ev.mem h1 with h2 | h2
      · exact a.2 r hr (List.mem_cons_of_mem _ h2)
      · omega

theorem world_set {h h' : Heap} : ∀ {l : List HPool} {i : Nat} {p p' : HPool}, (∀ q ∈ l, Sep h q) → l.Pairwise Apart →
    l[i]? = some p → StepOk h p h' p' →
    WorldOk ⟨h', l.set i p'⟩ ∧ (l.set i p').map (HPool.view h') = (l.map (HPool.view h)).set i (p'.view h') ∧
    ∀ q, Sep h q → (∀ x ∈ l, Apart x q) → ∀ x ∈ l.set i p', Apart x q
  | [], i, p, p', _, _, hi, _ => by cases hi
  | x :: l, 0, p, p', hs, ha, hi, k => by
    have : x = p := Option.some.inj hi
    subst this
    have hx := hs x List.mem_cons_self
    obtain ⟨a1, a2⟩ := List.pairwise_cons.1 ha
    have ho : ∀ q ∈ l, q.view h' = q.view h ∧ Sep h' q ∧ Apart p' q := fun q hq =>
      step_other k (hs q (List.mem_cons_of_mem _ hq)) (a1 q hq)
    refine ⟨⟨?_, ?_⟩, ?_, ?_⟩
    · intro q hq
      rcases List.mem_cons.1 hq with rfl | hq
      · exact k.sep hx
      · exact (ho q hq).2.1
    · exact List.pairwise_cons.2 ⟨fun q hq => (ho q hq).2.2, a2⟩
    · show _ :: _ = _ :: _
      congr 1
      exact List.map_congr_left fun q hq => (ho q hq).1
    · intro q sq hq y hy
      rcases List.mem_cons.1 hy with rfl | hy
      · exact (step_other k sq (hq x List.mem_cons_self)).2.2
      · exact hq y (List.mem_cons_of_mem _ hy)
  | x :: l, i + 1, p, p', hs, ha, hi, k => by
    have hi' : l[i]? = some p := hi
    obtain ⟨a1, a2⟩ := List.pairwise_cons.1 ha
    have hp : p ∈ l := List.mem_of_getElem? hi'
    obtain ⟨w1, w2, w3⟩ := world_set (fun q hq => hs q (List.mem_cons_of_mem _ hq)) a2 hi' k
    have sx := hs x List.mem_cons_self
    obtain ⟨o1, o2, o3⟩ := step_other k sx (a1 p hp).symm
    have hxl : ∀ y ∈ l.set i p', Apart y x := w3 x sx fun y hy => (a1 y hy).symm
    refine ⟨⟨?_, ?_⟩, ?_, ?_⟩
    · intro q hq
      rcases List.mem_cons.1 hq with rfl | hq
      · exact o2
      · exact w1.sep q hq
    · exact List.pairwise_cons.2 ⟨fun q hq => (hxl q hq).symm, w1.apart⟩
    · show _ :: _ = _ :: _
      rw [o1]
      congr 1
    · intro q sq hq y hy
      rcases List.mem_cons.1 hy with rfl | hy
      · exact hq _ List.mem_cons_self
      · exact w3 q sq (fun z hz => hq z (List.mem_cons_of_mem _ hz)) y hy

theorem act_refines (fuel : Nat) {w : HWorld} (ok : WorldOk w) (a : Act)
    (hc : ∀ i p, a = .clone i → w.view[i]? = some p → p.ticks.ticks = []) :
    Refines (w.act fuel a) (a.onValues fuel w.view) fun x y => y = x.view ∧ WorldOk x := by
  cases a with
  | op i o =>
    have hv : w.view[i]? = (w.pools[i]?).map (HPool.view w.heap) := List.getElem?_map
    show Refines (match w.pools[i]? with | none => _ | some p => _) (match w.view[i]? with | none => _ | some p => _) _
    rw [hv]
    cases hi : w.pools[i]? with
    | none => exact rfl
    | some p =>
      have sp := ok.sep p (List.mem_of_getElem? hi)
      refine Refines.bind (execOn_refines sp fuel o) ?_
      rintro r _ ⟨rfl, k⟩
      obtain ⟨w1, w2, _⟩ := world_set ok.sep ok.apart hi k
      exact Refines.pure ⟨w2.symm, w1⟩
  | clone i =>
    have hv : w.view[i]? = (w.pools[i]?).map (HPool.view w.heap) := List.getElem?_map
    show Refines (match w.pools[i]? with | none => _ | some p => _) (match w.view[i]? with | none => _ | some p => _) _
    rw [hv]
    cases hi : w.pools[i]? with
    | none => exact rfl
    | some p =>
      have sp := ok.sep p (List.mem_of_getElem? hi)
      have ht : p.ticks.refs = [] := by
        have h1 := hc i (p.view w.heap) rfl (by rw [hv, hi]; rfl)
        have h2 : p.ticks.ticks.map (HTick.view w.heap) = [] := h1
        have h3 : p.ticks.ticks = [] := List.map_eq_nil_iff.1 h2
        unfold HTickData.refs
        rw [h3]; rfl
      obtain ⟨c1, _, c3, c4, c5, c6, c7⟩ := clone_spec sp
      have ho : ∀ q ∈ w.pools, q.view (p.clone w.heap).1 = q.view w.heap ∧ Sep (p.clone w.heap).1 q := by
        intro q hq
        have sq := ok.sep q hq
        refine ⟨HPool.view_congr fun r hr => ?_, ⟨sq.safe.nodup, fun r hr => Nat.lt_of_lt_of_le (sq.safe.lt r hr) c5⟩, sq.price,
          Nat.lt_of_lt_of_le sq.priceLt c5⟩
        rcases List.mem_cons.1 hr with rfl | h1
        · exact c4 _ sq.priceLt
        · exact c4 r (sq.safe.lt r h1)
      refine Refines.ok ⟨?_, ⟨?_, ?_⟩⟩
      · show w.view ++ [(p.view w.heap).clone] = (w.pools ++ [(p.clone w.heap).2]).map (HPool.view (p.clone w.heap).1)
        rw [List.map_append, ← c1]
        show w.view ++ _ = _ ++ [_]
        congr 1
        exact (List.map_congr_left fun q hq => (ho q hq).1).symm
      · intro q hq
        rcases List.mem_append.1 hq with h1 | h1
        · exact (ho q h1).2
        · rw [List.mem_singleton.1 h1]; exact c3
      · refine List.pairwise_append.2 ⟨ok.apart, List.pairwise_singleton _ _, ?_⟩
        intro q hq y hy
        rw [List.mem_singleton.1 hy]
        have sq := ok.sep q hq
        have hlt : ∀ r ∈ q.price :: q.writes, r < w.heap.next := by
          intro r hr
          rcases List.mem_cons.1 hr with rfl | h1
          · exact sq.priceLt
          · exact sq.safe.lt r h1
        have hge : ∀ r ∈ (p.clone w.heap).2.price :: (p.clone w.heap).2.writes, w.heap.next ≤ r := by
          intro r hr
          rcases List.mem_cons.1 hr with rfl | h1
          · exact c7
          · rcases c6 r h1 with h2 | h2
            · rw [ht] at h2; cases h2
            · exact h2
        constructor
        · intro r hr hr'
          have g1 := hlt r (List.mem_cons_of_mem _ hr)
          have g2 := hge r hr'
          omega
        · intro r hr hr'
          have g1 := hge r (List.mem_cons_of_mem _ hr)
          have g2 := hlt r hr'
          omega

theorem run_refines (fuel : Nat) : ∀ (l : List Act) {w : HWorld}, WorldOk w → ClonesUnticked fuel l w.view →
    Refines (w.run fuel l) (runValues fuel l w.view) fun x y => y = x.view ∧ WorldOk x
  | [], _, ok, _ => Refines.ok ⟨rfl, ok⟩
  | a :: l, w, ok, hc => by
    unfold HWorld.run runValues
    have h1 := act_refines fuel ok a hc.1
    cases hx : w.act fuel a with
    | error e => rw [(h1.inv_error e).1 hx]; exact rfl
    | ok w' =>
      obtain ⟨v, hv, rfl, ok'⟩ := h1.inv_ok hx
      rw [hv]
      exact run_refines fuel l ok' (hc.2 _ hv)

/-! ### Each pool sees only its own operations -/

theorem run_project (fuel : Nat) : ∀ (l : List Act) {w w' : List Pool} {i : Nat} {p : Pool}, runValues fuel l w = .ok w' →
    w[i]? = some p → ∃ p', w'[i]? = some p' ∧ runAlone fuel (opsOf i l) p = .ok p'
  | [], w, w', i, p, hr, hi => by
    cases hr
    exact ⟨p, hi, rfl⟩
  | .op j o :: l, w, w', i, p, hr, hi => by
    unfold runValues at hr
    obtain ⟨w1, h1, h2⟩ := Pool.bind_ok hr
    unfold Act.onValues at h1
    dsimp only at h1
    cases hj : w[j]? with
    | none => rw [hj] at h1; cases h1
    | some q =>
      rw [hj] at h1
      obtain ⟨q', h3, h4⟩ := Pool.bind_ok h1
      have h4 : w.set j q' = w1 := Except.ok.inj h4
      have hlt : j < w.length := by
        rw [List.getElem?_eq_some_iff] at hj
        exact hj.1
      subst h4
      unfold opsOf
      by_cases hij : j = i
      · subst hij
        rw [hi] at hj
        cases hj
        rw [if_pos rfl]
        obtain ⟨p', e1, e2⟩ := run_project fuel l (i := j) (p := q') h2 (List.getElem?_set_self hlt)
        refine ⟨p', e1, ?_⟩
        show (o.exec fuel p >>= fun p' => runAlone fuel (opsOf j l) p') = _
        rw [h3]
        exact e2
      · rw [if_neg hij]
        exact run_project fuel l h2 (by rw [List.getElem?_set_ne hij]; exact hi)
  | .clone j :: l, w, w', i, p, hr, hi => by
    unfold runValues at hr
    obtain ⟨w1, h1, h2⟩ := Pool.bind_ok hr
    unfold Act.onValues at h1
    dsimp only at h1
    cases hj : w[j]? with
    | none => rw [hj] at h1; cases h1
    | some q =>
      rw [hj] at h1
      have h4 : w ++ [q.clone] = w1 := Except.ok.inj h1
      subst h4
      have hlt : i < w.length := by
        rw [List.getElem?_eq_some_iff] at hi
        exact hi.1
      exact run_project fuel l h2 (by rw [List.getElem?_append_left hlt]; exact hi)

end Uni
