import Verif.Proofs.HeapPool
/-! # Every pool operation on the heap refines the operation of the value model -/
namespace Uni
open U256 FullMath TickMath SwapMath
open scoped List

/-- The relation between the outcomes of an operation on the heap and in the value model. -/
def OpRel (h : Heap) (p : HPool) (a : Heap × HPool) (b : Pool) : Prop := b = a.2.view a.1 ∧ StepOk h p a.1 a.2

theorem ticks_growth {h h' : Heap} {p : HPool} {W : List Nat} (s : Sep h p) (e : Evolve h h' p.ticks.refs W) :
    h'.cell p.growth0 = h.cell p.growth0 ∧ h'.cell p.growth1 = h.cell p.growth1 ∧ h'.cell p.liquidity = h.cell p.liquidity := by
  obtain ⟨_, ⟨a1, a2, a3⟩, _, _⟩ := s.apart
  exact ⟨e.frame _ s.lt.2.1 a2, e.frame _ s.lt.2.2 a3, e.frame _ s.lt.1 a1⟩

theorem modifyPosition_refines {h : Heap} {p : HPool} (s : Sep h p) (lower upper : Int) (amount : U256) :
    Refines (p.modifyPosition h lower upper amount) ((p.view h).modifyPosition lower upper amount) (OpRel h p) := by
  unfold HPool.modifyPosition Pool.modifyPosition
  refine Refines.bind (Refines.refl _) fun _ _ _ => ?_
  refine Refines.bind (HTickData.updateTick_refines s.ticks lower p.tick amount _ _ false) ?_
  rintro a _ ⟨rfl, ea⟩
  rw [(ticks_growth s ea).1, (ticks_growth s ea).2.1]
  refine Refines.bind (HTickData.updateTick_refines (ea.safe s.ticks) upper p.tick amount _ _ true) ?_
  rintro b _ ⟨rfl, eb⟩
  refine Refines.bind (HTickData.clearIf_refines a.1 b.2.1 b.2.2 lower) ?_
  rintro t1 _ ⟨rfl, e1⟩
  refine Refines.bind (HTickData.clearIf_refines b.1 b.2.1 t1 upper) ?_
  rintro t2 _ ⟨rfl, e2⟩
  have e := ((ea.trans eb).trans e1).trans e2
  obtain ⟨k1, k2⟩ := ticks_step s e
  have s2 := k1.sep s
  refine Refines.ite ?_ ?_
  · intro _
    refine Refines.pure ⟨?_, ?_⟩
    · obtain ⟨_, m2⟩ := liquidity_step s2 (add (b.2.1.cell p.liquidity) amount)
      refine Eq.trans ?_ m2.symm
      rw [k2, (ticks_growth s e).2.2]
      rfl
    · exact k1.trans s (liquidity_step s2 (add (b.2.1.cell p.liquidity) amount)).1
  · intro _
    exact Refines.pure ⟨k2.symm, k1⟩

theorem mint_refines {h : Heap} {p : HPool} (s : Sep h p) (lower upper : Int) (amount : U256) :
    Refines (p.mint h lower upper amount) ((p.view h).mint lower upper amount) (OpRel h p) := by
  unfold HPool.mint Pool.mint
  exact Refines.bind (Refines.refl _) fun _ _ _ => modifyPosition_refines s lower upper amount

theorem burn_refines {h : Heap} {p : HPool} (s : Sep h p) (lower upper : Int) (amount : U256) :
    Refines (p.burn h lower upper amount) ((p.view h).burn lower upper amount) (OpRel h p) :=
  modifyPosition_refines s lower upper (neg amount)

theorem flash_refines {h : Heap} {p : HPool} (s : Sep h p) (a0 a1 : U256) :
    Refines (p.flash h a0 a1) ((p.view h).flash a0 a1) (OpRel h p) := by
  unfold HPool.flash Pool.flash
  refine Refines.bind (Refines.refl _) fun _ _ _ => ?_
  refine Refines.bind (Refines.refl _) ?_
  rintro f0 _ rfl
  refine Refines.bind (Refines.refl _) ?_
  rintro f1 _ rfl
  refine Refines.bind (Refines.refl _) ?_
  rintro g0 _ rfl
  refine Refines.bind (Refines.refl _) ?_
  rintro g1 _ rfl
  have e : (h.write p.growth0 (add (h.cell p.growth0) g0)).cell p.growth1 = h.cell p.growth1 :=
    write_other _ _ s.apart.1.2.2.symm
  dsimp only
  rw [e]
  obtain ⟨k1, k2⟩ := growth_step s (add (h.cell p.growth0) g0) (add (h.cell p.growth1) g1)
  exact Refines.pure ⟨k2.symm, k1⟩

/-! ### Strategy positions -/

theorem updateBounds_refines {h : Heap} {p : HPool} (s : Sep h p) (lower upper : Int) (amount : U256) :
    Refines (p.updateBounds h lower upper amount) ((p.view h).updateBounds lower upper amount) fun a b =>
      b = (a.1, a.2.1, a.2.2.2.view a.2.2.1) ∧ Evolve h a.2.2.1 p.ticks.refs a.2.2.2.refs := by
  unfold HPool.updateBounds Pool.updateBounds
  refine Refines.ite (fun _ => ⟨rfl, Evolve.refl _ _⟩) fun _ => ?_
  refine Refines.bind (HTickData.updateTick_refines s.ticks lower p.tick amount _ _ false) ?_
  rintro a _ ⟨rfl, ea⟩
  rw [(ticks_growth s ea).1, (ticks_growth s ea).2.1]
  refine Refines.bind (HTickData.updateTick_refines (ea.safe s.ticks) upper p.tick amount _ _ true) ?_
  rintro b _ ⟨rfl, eb⟩
  exact Refines.pure ⟨rfl, ea.trans eb⟩

theorem refsAt_sub {l : List (String × HInfo)} {k : String} : ∀ r ∈ refsAt l k, r ∈ posRefs l := by
  intro r hr
  unfold refsAt at hr
  cases hx : hlookup l k with
  | none => rw [hx] at hr; cases hr
  | some j => rw [hx] at hr; exact hlookup_refs hx r hr

theorem refsAt_safe {h : Heap} {l : List (String × HInfo)} (s : Safe h (posRefs l)) (k : String) : Safe h (refsAt l k) := by
  refine ⟨?_, fun r hr => s.lt r (refsAt_sub r hr)⟩
  unfold refsAt
  cases hx : hlookup l k with
  | none => exact List.nodup_nil
  | some j => exact hlookup_nodup s.nodup hx

theorem updatePosition_refines {h : Heap} {p : HPool} (s : Sep h p) (lower upper : Int) (amount : U256) :
    Refines (p.updatePosition h lower upper amount) ((p.view h).updatePosition lower upper amount) fun a b =>
      b = (a.1.view a.2.1, a.2.2.view a.2.1) ∧ StepOk h p a.2.1 a.2.2 ∧
      hlookup a.2.2.positions (Pool.posKey lower upper) = some a.1 ∧ a.2.2.tick = p.tick ∧ a.2.2.liquidity = p.liquidity := by
  unfold HPool.updatePosition Pool.updatePosition
  refine Refines.bind (updateBounds_refines s lower upper amount) ?_
  rintro ⟨c1, c2, h1, t⟩ _ ⟨rfl, eb⟩
  dsimp only at eb ⊢
  rw [(ticks_growth s eb).1, (ticks_growth s eb).2.1]
  refine Refines.bind (Refines.refl _) ?_
  rintro ins _ rfl
  obtain ⟨k1, k2⟩ := ticks_step s eb
  have s1 := k1.sep s
  have hpos : (p.view h).positions (Pool.posKey lower upper) =
      (hlookup p.positions (Pool.posKey lower upper)).map (HInfo.view h1) := by
    have := congrFun (congrArg Pool.positions k2) (Pool.posKey lower upper)
    exact this.symm
  rw [hpos]
  obtain ⟨q1, q2⟩ := posOrNew_spec h1 p.positions (Pool.posKey lower upper)
  rw [← q1]
  have sq := q2.safe (refsAt_safe s1.pos (Pool.posKey lower upper))
  refine Refines.bind (update_refines sq amount ins.1 ins.2) ?_
  rintro ⟨pos, h2⟩ _ ⟨rfl, eu⟩
  dsimp only at eu ⊢
  have e2 := q2.trans eu
  obtain ⟨m1, m2⟩ := positions_step (p := { p with ticks := t }) s1 e2
  have s2 := m1.sep s1
  have hticks : t.view h1 = t.view h2 := by
    have := congrArg Pool.ticks m2
    exact this.symm
  rw [hticks]
  refine Refines.bind (HTickData.clearIf_refines _ h2 t lower) ?_
  rintro t1 _ ⟨rfl, e3⟩
  refine Refines.bind (HTickData.clearIf_refines _ h2 t1 upper) ?_
  rintro t2 _ ⟨rfl, e4⟩
  obtain ⟨n1, n2⟩ := ticks_step (p := { p with ticks := t, positions := hset p.positions (Pool.posKey lower upper) pos }) s2
    (e3.trans e4)
  refine Refines.pure ⟨?_, (k1.trans s m1).trans s n1, ?_, rfl, rfl⟩
  · apply Prod.ext
    · rfl
    · refine Eq.trans ?_ n2.symm
      rw [m2, k2]
  · show hlookup (hset p.positions (Pool.posKey lower upper) pos) (Pool.posKey lower upper) = some pos
    rw [hlookup_hset, if_pos rfl]

theorem modifyStrategy_refines {h : Heap} {p : HPool} (s : Sep h p) (lower upper : Int) (amount : U256) :
    Refines (p.modifyPositionStrategy h lower upper amount) ((p.view h).modifyPositionStrategy lower upper amount) fun a b =>
      b = (a.1.view a.2.2.2.1, a.2.1, a.2.2.1, a.2.2.2.2.view a.2.2.2.1) ∧ StepOk h p a.2.2.2.1 a.2.2.2.2 ∧
      hlookup a.2.2.2.2.positions (Pool.posKey lower upper) = some a.1 := by
  unfold HPool.modifyPositionStrategy Pool.modifyPositionStrategy
  refine Refines.bind (Refines.refl _) fun _ _ _ => ?_
  refine Refines.bind (updatePosition_refines s lower upper amount) ?_
  rintro ⟨i, h1, p1⟩ _ ⟨rfl, k1, k2, k3, k4⟩
  dsimp only at k1 k2 k3 k4 ⊢
  have s1 := k1.sep s
  refine Refines.ite (fun _ => Refines.pure ⟨rfl, k1, k2⟩) fun _ => ?_
  refine Refines.bind (Refines.refl _) ?_
  rintro am _ rfl
  show Refines (if lower ≤ p.tick ∧ p.tick < upper then _ else _) (if lower ≤ p.tick ∧ p.tick < upper then _ else _) _
  refine Refines.ite ?_ ?_
  · intro _
    obtain ⟨m1, m2⟩ := liquidity_step s1 (add (h1.cell p1.liquidity) amount)
    refine Refines.pure ⟨?_, k1.trans s m1, k2⟩
    have hi : i.view (h1.write p1.liquidity (add (h1.cell p1.liquidity) amount)) = i.view h1 := by
      have := congrFun (congrArg Pool.positions m2) (Pool.posKey lower upper)
      have e : ∀ hh, (p1.view hh).positions (Pool.posKey lower upper) = some (i.view hh) := by
        intro hh
        show (hlookup p1.positions _).map _ = _
        rw [k2]; rfl
      rw [e] at this
      exact Option.some.inj (this.trans (e h1))
    dsimp only
    rw [hi, m2]
    rfl
  · intro _
    exact Refines.pure ⟨rfl, k1, k2⟩

theorem mintStrategy_refines {h : Heap} {p : HPool} (s : Sep h p) (lower upper : Int) (amount : U256) :
    Refines (p.mintStrategy h lower upper amount) ((p.view h).mintStrategy lower upper amount) fun a b =>
      b = (a.1, a.2.1, a.2.2.2.view a.2.2.1) ∧ StepOk h p a.2.2.1 a.2.2.2 := by
  unfold HPool.mintStrategy Pool.mintStrategy
  refine Refines.bind (Refines.refl _) fun _ _ _ => ?_
  refine Refines.bind (modifyStrategy_refines s lower upper amount) ?_
  rintro a _ ⟨rfl, k1, _⟩
  exact Refines.pure ⟨rfl, k1⟩

theorem burnStrategy_refines {h : Heap} {p : HPool} (s : Sep h p) (lower upper : Int) (amount : U256) :
    Refines (p.burnStrategy h lower upper amount) ((p.view h).burnStrategy lower upper amount) fun a b =>
      b = (a.1, a.2.1, a.2.2.2.view a.2.2.1) ∧ StepOk h p a.2.2.1 a.2.2.2 := by
  unfold HPool.burnStrategy Pool.burnStrategy
  refine Refines.bind (modifyStrategy_refines s lower upper (neg amount)) ?_
  rintro ⟨i, a0, a1, h1, p1⟩ _ ⟨rfl, k1, k2⟩
  dsimp only at k1 k2 ⊢
  have s1 := k1.sep s
  have hn := info_ne (hlookup_nodup s1.pos.nodup k2)
  rw [write_other _ _ hn.2.2.symm]
  obtain ⟨m1, m2⟩ := owed_step s1 k2 (add (h1.cell i.owed0) (neg a0)) (add (h1.cell i.owed1) (neg a1))
  refine Refines.pure ⟨?_, k1.trans s m1⟩
  dsimp only
  rw [m2]
  rfl

theorem collectStrategy_refines {h : Heap} {p : HPool} (s : Sep h p) (lower upper : Int) :
    Refines (p.collectStrategy h lower upper) ((p.view h).collectStrategy lower upper) fun a b =>
      b = (a.1, a.2.1, a.2.2.2.view a.2.2.1) ∧ StepOk h p a.2.2.1 a.2.2.2 := by
  unfold HPool.collectStrategy Pool.collectStrategy
  show Refines _ (match (hlookup p.positions (Pool.posKey lower upper)).map (HInfo.view h) with
    | none => goPanic
    | some pos => _) _
  cases hi : hlookup p.positions (Pool.posKey lower upper) with
  | none => exact rfl
  | some i =>
    obtain ⟨m1, m2⟩ := owed_step s hi zero zero
    refine Refines.ok ⟨?_, m1⟩
    dsimp only
    rw [m2]
    rfl

/-! ### Swaps -/

/-- The loop states of the two models. -/
def StateRel (h : Heap) (p : HPool) (s : HPool.State) (v : SwapState) : Prop :=
  v = { remaining := s.remaining, calculated := s.calculated, price := s.price, tick := s.tick, growth := s.growth,
        liquidity := s.liquidity, ticks := p.ticks.view s.heap } ∧ Evolve h s.heap p.ticks.refs p.ticks.refs

theorem crossTick_refines {h h1 : Heap} {p : HPool} (s : Sep h p) (e : Evolve h h1 p.ticks.refs p.ticks.refs)
    (zeroForOne initialized : Bool) (tickNext : Int) (growth liquidity : U256) :
    Refines (p.crossTick zeroForOne initialized tickNext growth liquidity h1)
      ((p.view h).crossTick zeroForOne initialized tickNext growth liquidity (p.ticks.view h1)) fun a b =>
        b = (a.1, p.ticks.view a.2) ∧ Evolve h1 a.2 p.ticks.refs p.ticks.refs := by
  unfold HPool.crossTick Pool.crossTick
  refine Refines.ite ?_ fun _ => ⟨rfl, Evolve.refl _ _⟩
  intro _
  rw [(ticks_growth s e).1, (ticks_growth s e).2.1]
  refine Refines.bind (HTickData.cross_refines (e.safe s.ticks) tickNext _ _) ?_
  rintro a _ ⟨rfl, e2⟩
  exact Refines.pure ⟨rfl, e2⟩

theorem swapStep_refines {h : Heap} {p : HPool} (s : Sep h p) (zeroForOne exactInput : Bool) (limit : U256)
    {x : HPool.State} {y : SwapState} (r : StateRel h p x y) :
    Refines (p.swapStep zeroForOne exactInput limit x) ((p.view h).swapStep zeroForOne exactInput limit y) (StateRel h p) := by
  obtain ⟨rfl, e⟩ := r
  unfold HPool.swapStep Pool.swapStep
  refine Refines.bind (Refines.refl _) ?_
  rintro n _ rfl
  dsimp only
  refine Refines.bind (Refines.refl _) ?_
  rintro pn _ rfl
  refine Refines.bind (Refines.refl _) ?_
  rintro st _ rfl
  refine Refines.bind (Refines.refl _) ?_
  rintro g _ rfl
  unfold HPool.finishStep Pool.finishStep
  dsimp only
  refine Refines.ite ?_ fun _ => Refines.ite ?_ fun _ => ⟨rfl, e⟩
  · intro _
    refine Refines.bind (crossTick_refines s e zeroForOne n.2 _ g x.liquidity) ?_
    rintro c _ ⟨rfl, e2⟩
    exact Refines.pure ⟨rfl, e.trans e2⟩
  · intro _
    refine Refines.bind (Refines.refl _) ?_
    rintro t _ rfl
    exact Refines.pure ⟨rfl, e⟩

theorem swapLoop_refines {h : Heap} {p : HPool} (s : Sep h p) (zeroForOne exactInput : Bool) (limit : U256) (fuel : Nat)
    {x : HPool.State} {y : SwapState} (r : StateRel h p x y) :
    Refines (p.swapLoop zeroForOne exactInput limit fuel x) ((p.view h).swapLoop zeroForOne exactInput limit fuel y)
      (StateRel h p) := by
  induction fuel generalizing x y with
  | zero => exact rfl
  | succ fuel ih =>
    unfold HPool.swapLoop Pool.swapLoop
    have hc : Pool.running limit y = (!x.remaining.isZero && decide (cmp x.price limit ≠ 0)) := by
      obtain ⟨rfl, _⟩ := r; rfl
    rw [hc]
    refine Refines.ite ?_ fun _ => r
    intro _
    exact Refines.bind (swapStep_refines s zeroForOne exactInput limit r) fun a b hab => ih hab

theorem afterSwap_spec {h : Heap} {p : HPool} (s : Sep h p) (zeroForOne : Bool) {x : HPool.State} {y : SwapState}
    (r : StateRel h p x y) :
    (p.view h).afterSwap zeroForOne y = (p.afterSwap zeroForOne x).2.view (p.afterSwap zeroForOne x).1 ∧
    StepOk h p (p.afterSwap zeroForOne x).1 (p.afterSwap zeroForOne x).2 := by
  obtain ⟨rfl, e⟩ := r
  obtain ⟨k1, k2⟩ := ticks_step (t := p.ticks) s e
  have sx : Sep x.heap p := k1.sep s
  have hv : p.view x.heap = { p.view h with ticks := p.ticks.view x.heap } := k2
  obtain ⟨l1, l2, l3⟩ := sx.lt
  have key : ∀ k, k < x.heap.next → (p.afterSwap zeroForOne x).1.cell k = x.heap.cell k := by
    intro k hk
    show (if k = x.heap.next + 1 + 1 then x.growth else if k = x.heap.next + 1 then x.price else
      if k = x.heap.next then x.liquidity else x.heap.cell k) = _
    rw [if_neg (by omega), if_neg (by omega), if_neg (by omega)]
  have key0 : (p.afterSwap zeroForOne x).1.cell x.heap.next = x.liquidity := by
    show (if x.heap.next = x.heap.next + 1 + 1 then x.growth else if x.heap.next = x.heap.next + 1 then x.price else
      if x.heap.next = x.heap.next then x.liquidity else x.heap.cell _) = _
    rw [if_neg (by omega), if_neg (by omega), if_pos rfl]
  have key1 : (p.afterSwap zeroForOne x).1.cell (x.heap.next + 1) = x.price := by
    show (if x.heap.next + 1 = x.heap.next + 1 + 1 then x.growth else if x.heap.next + 1 = x.heap.next + 1 then x.price else
      if x.heap.next + 1 = x.heap.next then x.liquidity else x.heap.cell _) = _
    rw [if_neg (by omega), if_pos rfl]
  have key2 : (p.afterSwap zeroForOne x).1.cell (x.heap.next + 1 + 1) = x.growth := if_pos rfl
  have hnext : (p.afterSwap zeroForOne x).1.next = x.heap.next + 1 + 1 + 1 := rfl
  have hticks : p.ticks.view (p.afterSwap zeroForOne x).1 = p.ticks.view x.heap :=
    HTickData.view_congr fun r hr => key r (sx.ticks.lt r hr)
  have hpos : (fun k => (hlookup p.positions k).map (HInfo.view (p.afterSwap zeroForOne x).1)) =
      fun k => (hlookup p.positions k).map (HInfo.view x.heap) := positions_congr fun r hr => key r (sx.pos.lt r hr)
  have hfresh : ∀ r ∈ p.writes, r < x.heap.next := sx.safe.lt
  constructor
  · have e1 : (p.view h).positions = (p.view x.heap).positions := (congrArg Pool.positions hv).symm
    have e2 : (p.view h).growth0 = (p.view x.heap).growth0 := (congrArg Pool.growth0 hv).symm
    have e3 : (p.view h).growth1 = (p.view x.heap).growth1 := (congrArg Pool.growth1 hv).symm
    unfold Pool.afterSwap
    rw [e1, e2, e3]
    generalize hA : (p.afterSwap zeroForOne x).1 = H at *
    show _ = HPool.view H 
      { p with
        tick := x.tick
        liquidity := x.heap.next
        price := x.heap.next + 1
        growth0 := (if zeroForOne then x.heap.next + 1 + 1 else p.growth0)
        growth1 := (if zeroForOne then p.growth1 else x.heap.next + 1 + 1) }
    unfold HPool.view
    dsimp only
    rw [key0, key1, hticks, hpos]
    cases zeroForOne
    · simp only [Bool.false_eq_true, if_false]
      rw [key2, key _ l2]
    · simp only [if_true]
      rw [key2, key _ l3]
  · have hw : (p.afterSwap zeroForOne x).2.writes =
        [x.heap.next, if zeroForOne then x.heap.next + 1 + 1 else p.growth0, if zeroForOne then p.growth1 else x.heap.next + 1 + 1] ++
          p.ticks.refs ++ posRefs p.positions := rfl
    have hprice : (p.afterSwap zeroForOne x).2.price = x.heap.next + 1 := rfl
    refine ⟨k1.ev.trans ⟨?_, fun r hr _ => key r hr, [x.heap.next, x.heap.next + 1 + 1], ?_, ?_, ?_⟩, Or.inr ⟨?_, ?_, ?_⟩⟩
    · rw [hnext]; omega
    · simp only [List.nodup_cons, List.mem_cons, List.not_mem_nil, or_false]
      exact ⟨by omega, by simp, List.nodup_nil⟩
    · intro r hr
      simp only [List.mem_cons, List.not_mem_nil, or_false] at hr
      rw [hnext]; omega
    · rw [hw]
      show _ <+~ [x.heap.next, x.heap.next + 1 + 1] ++ ([p.liquidity, p.growth0, p.growth1] ++ p.ticks.refs ++ posRefs p.positions)
      rw [List.append_assoc, List.append_assoc, ← List.append_assoc [x.heap.next, x.heap.next + 1 + 1]]
      refine (List.subperm_append_right _).2 ?_
      cases zeroForOne
      · simp only [Bool.false_eq_true, if_false]
        have : [x.heap.next, p.growth0, x.heap.next + 1 + 1] ~ [x.heap.next, x.heap.next + 1 + 1, p.growth0] :=
          List.Perm.cons _ (List.Perm.swap _ _ _)
        refine this.subperm.trans ?_
        apply List.Sublist.subperm
        refine List.Sublist.cons₂ _ (List.Sublist.cons₂ _ (List.Sublist.cons _ (List.Sublist.cons₂ _ (List.Sublist.cons _ ?_))))
        exact List.Sublist.refl _
      · simp only [if_true]
        apply List.Sublist.subperm
        refine List.Sublist.cons₂ _ (List.Sublist.cons₂ _ (List.Sublist.cons _ (List.Sublist.cons _ (List.Sublist.cons₂ _ ?_))))
        exact List.Sublist.refl _
    · rw [hprice]; have := e.le; omega
    · rw [hprice, hnext]; omega
    · rw [hprice, hw]
      intro hm
      have hg0 : p.growth0 ∈ p.writes := by simp [HPool.writes]
      have hg1 : p.growth1 ∈ p.writes := by simp [HPool.writes]
      rcases List.mem_append.1 hm with hm | hm
      · rcases List.mem_append.1 hm with hm | hm
        · simp only [List.mem_cons, List.not_mem_nil, or_false] at hm
          have := hfresh _ hg0
          have := hfresh _ hg1
          cases zeroForOne
          · simp only [Bool.false_eq_true, if_false] at hm
            omega
          · simp only [if_true] at hm
            omega
        · have := sx.ticks.lt _ hm; omega
      · have := sx.pos.lt _ hm; omega

theorem swap_refines {h : Heap} {p : HPool} (s : Sep h p) (fuel : Nat) (zeroForOne : Bool) (amount limit : U256) :
    Refines (HPool.swap fuel h p zeroForOne amount limit) (Pool.swap fuel (p.view h) zeroForOne amount limit) fun a b =>
      b = (a.1, a.2.1, a.2.2.2.view a.2.2.1) ∧ StepOk h p a.2.2.1 a.2.2.2 := by
  unfold HPool.swap Pool.swap
  refine Refines.bind (Refines.refl _) fun _ _ _ => ?_
  dsimp only
  refine Refines.bind (Refines.refl _) fun _ _ _ => ?_
  refine Refines.bind (swapLoop_refines s zeroForOne _ _ fuel (y := Pool.initState (p.view h) zeroForOne amount)
    ⟨rfl, Evolve.refl _ _⟩) ?_
  intro x y r
  obtain ⟨k1, k2⟩ := afterSwap_spec s zeroForOne r
  refine Refines.pure ⟨?_, k2⟩
  rw [k1]
  obtain ⟨rfl, _⟩ := r
  rfl

end Uni
