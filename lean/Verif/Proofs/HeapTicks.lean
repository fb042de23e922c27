import Verif.Proofs.HeapBase
import Mathlib.Data.List.Flatten
/-! # The tick store on the heap refines the tick store of the value model -/
namespace Uni
open U256
open scoped List

theorem idx_inv {α : Type} {xs : List α} {i : Int} {a : α} (h : idx xs i = .ok a) : 0 ≤ i ∧ xs[i.toNat]? = some a := by
  unfold idx at h
  by_cases hi : 0 ≤ i
  · rw [if_pos hi] at h
    cases hx : xs[i.toNat]? with
    | none => rw [hx] at h; cases h
    | some b => rw [hx] at h; cases h; exact ⟨hi, rfl⟩
  · rw [if_neg hi] at h; cases h

theorem idx_of {α : Type} {xs : List α} {i : Int} {a : α} (h1 : 0 ≤ i) (h2 : xs[i.toNat]? = some a) : idx xs i = .ok a := by
  unfold idx
  rw [if_pos h1, h2]

theorem idx_map_refines {α β : Type} (xs : List α) (f : α → β) (i : Int) :
    Refines (idx xs i) (idx (xs.map f) i) fun a b => b = f a ∧ 0 ≤ i ∧ xs[i.toNat]? = some a := by
  unfold idx
  by_cases hi : 0 ≤ i
  · rw [if_pos hi, if_pos hi, List.getElem?_map]
    cases hx : xs[i.toNat]? with
    | none => exact rfl
    | some a => exact ⟨rfl, hi, rfl⟩
  · rw [if_neg hi, if_neg hi]; exact rfl

theorem setIdx_of {α : Type} {xs : List α} {i : Int} (v : α) (h1 : 0 ≤ i) (h2 : i.toNat < xs.length) :
    setIdx xs i v = .ok (xs.set i.toNat v) := if_pos ⟨h1, h2⟩

namespace HTickData

theorem refs_pairwise {l : List HTick} (s : (l.flatMap HTick.refs).Nodup) {i j : Nat} {x y : HTick} (hx : l[i]? = some x)
    (hy : l[j]? = some y) (hij : i ≠ j) : ∀ r ∈ y.refs, r ∉ x.refs := by
  have hp := (List.nodup_flatMap.1 s).2
  rw [List.pairwise_iff_getElem] at hp
  obtain ⟨hi, rfl⟩ := List.getElem?_eq_some_iff.1 hx
  obtain ⟨hj, rfl⟩ := List.getElem?_eq_some_iff.1 hy
  rcases Nat.lt_or_gt_of_ne hij with h | h
  · intro r h1 h2
    exact hp i j hi hj h h2 h1
  · intro r h1 h2
    exact hp j i hj hi h h1 h2

/-- After a change to the cells of one tick, that tick has changed and the others have not. -/
theorem view_set {h h' : Heap} {t : HTickData} {i : Nat} {x : HTick} (s : Safe h t.refs) (hx : t.ticks[i]? = some x)
    (hf : ∀ r ∈ t.refs, r ∉ x.refs → h'.cell r = h.cell r) :
    t.ticks.map (HTick.view h') = (t.ticks.map (HTick.view h)).set i (x.view h') := by
  apply List.ext_getElem?
  intro j
  rw [List.getElem?_map, List.getElem?_set, List.getElem?_map, List.length_map]
  by_cases hij : i = j
  · subst hij
    have hlt : i < t.ticks.length := (List.getElem?_eq_some_iff.1 hx).1
    rw [if_pos rfl, if_pos hlt, hx]
    rfl
  · rw [if_neg hij]
    cases hy : t.ticks[j]? with
    | none => rfl
    | some y =>
      show some _ = some _
      rw [HTick.view_congr]
      intro r hr
      exact hf r (List.mem_flatMap.2 ⟨y, List.mem_of_getElem? hy, hr⟩) (refs_pairwise s.nodup hx hy hij r hr)

theorem mem_refs {t : HTickData} {i : Nat} {x : HTick} (hx : t.ticks[i]? = some x) {r : Nat} (hr : r ∈ x.refs) : r ∈ t.refs :=
  List.mem_flatMap.2 ⟨x, List.mem_of_getElem? hx, hr⟩

theorem tick_nodup {t : HTickData} (s : t.refs.Nodup) {i : Nat} {x : HTick} (hx : t.ticks[i]? = some x) : x.refs.Nodup :=
  (List.nodup_flatMap.1 s).1 x (List.mem_of_getElem? hx)

theorem tick_ne {x : HTick} (h : x.refs.Nodup) : x.net ≠ x.gross ∧ x.net ≠ x.out0 ∧ x.net ≠ x.out1 ∧ x.gross ≠ x.out0 ∧
    x.gross ≠ x.out1 ∧ x.out0 ≠ x.out1 := by
  unfold HTick.refs at h
  simp only [List.nodup_cons, List.mem_cons, List.not_mem_nil, or_false, not_or] at h
  obtain ⟨⟨a, b, c⟩, ⟨d, e⟩, f, _⟩ := h
  exact ⟨a, b, c, d, e, f⟩

/-- Two writes to cells of `W` keep to `W`. -/
theorem evolve_write2 {h : Heap} {W : List Nat} {a b : Nat} (ha : a ∈ W) (hb : b ∈ W) (u : U256) (v : U256) :
    Evolve h ((h.write a u).write b v) W W := by
  refine ⟨Nat.le_refl _, ?_, [], List.nodup_nil, by simp, List.Subperm.refl _⟩
  intro r _ hr
  rw [write_other _ _ (by rintro rfl; exact hr hb), write_other _ _ (by rintro rfl; exact hr ha)]

theorem evolve_write1 {h : Heap} {W : List Nat} {a : Nat} (ha : a ∈ W) (u : U256) : Evolve h (h.write a u) W W := by
  refine ⟨Nat.le_refl _, ?_, [], List.nodup_nil, by simp, List.Subperm.refl _⟩
  intro r _ hr
  rw [write_other _ _ (by rintro rfl; exact hr ha)]

theorem cross_refines {h : Heap} {t : HTickData} (s : Safe h t.refs) (tick : Int) (g0 g1 : U256) :
    Refines (t.cross h tick g0 g1) ((t.view h).cross tick g0 g1) fun a b =>
      b = (a.1, t.view a.2) ∧ Evolve h a.2 t.refs t.refs := by
  unfold HTickData.cross TickData.cross
  refine Refines.bind (R := fun a b => a = b ∧ (t.view h).getTickAt tick = .ok a) ?_ ?_
  · cases hx : (t.view h).getTickAt tick with
    | error e => exact rfl
    | ok a => exact ⟨rfl, rfl⟩
  · rintro r _ ⟨rfl, hr⟩
    unfold TickData.getTickAt at hr
    cases hb : (t.view h).binarySearch tick with
    | error e => rw [hb] at hr; cases hr
    | ok i =>
      rw [hb] at hr
      replace hr : (idx (t.view h).ticks i >>= fun x => invariant (decide (x.index = tick)) >>= fun _ => Pure.pure (i, x)) =
        .ok r := hr
      cases hi : idx (t.view h).ticks i with
      | error e => rw [hi] at hr; cases hr
      | ok x =>
        rw [hi] at hr
        replace hr : (invariant (decide (x.index = tick)) >>= fun _ => Pure.pure (i, x)) = .ok r := hr
        cases hv : invariant (decide (x.index = tick)) with
        | error e => rw [hv] at hr; cases hr
        | ok u =>
          rw [hv] at hr
          have hr' : (i, x) = r := Except.ok.inj hr
          subst hr'
          obtain ⟨y, hy, hxy, h0, hget⟩ := (idx_map_refines t.ticks (HTick.view h) i).inv_ok' hi
          dsimp only
          rw [hy]
          have hlt : i.toNat < (t.view h).ticks.length := by
            show _ < (t.ticks.map _).length
            rw [List.length_map]; exact (List.getElem?_eq_some_iff.1 hget).1
          rw [setIdx_of _ h0 hlt]
          obtain ⟨n1, n2, n3, n4, n5, n6⟩ := tick_ne (tick_nodup s.nodup hget)
          refine ⟨?_, evolve_write2 (mem_refs hget (by simp [HTick.refs])) (mem_refs hget (by simp [HTick.refs])) _ _⟩
          apply Prod.ext
          · show x.net = _
            rw [write_other _ _ n3, write_other _ _ n2, hxy]; rfl
          · show TickData.mk _ _ = TickData.mk _ _
            congr 1
            rw [view_set s hget (h' := (h.write y.out0 (sub g0 (h.cell y.out0))).write y.out1
              (sub g1 ((h.write y.out0 (sub g0 (h.cell y.out0))).cell y.out1)))]
            · congr 1
              rw [hxy]
              unfold HTick.view
              rw [write_other _ _ n3, write_other _ _ n2, write_other _ _ n5, write_other _ _ n4, write_other _ _ n6,
                write_same, write_same, write_other _ _ n6.symm]
            · intro r _ hr
              unfold HTick.refs at hr
              simp only [List.mem_cons, List.not_mem_nil, or_false, not_or] at hr
              rw [write_other _ _ hr.2.2.2, write_other _ _ hr.2.2.1]

theorem makeTick_spec (h : Heap) (tick cur : Int) (net gross g0 g1 : U256) :
    (makeTick h tick cur net gross g0 g1).1.view (makeTick h tick cur net gross g0 g1).2 =
      TickData.makeTick tick cur net gross g0 g1 ∧
    (makeTick h tick cur net gross g0 g1).1.refs = [h.next, h.next + 1, h.next + 2, h.next + 3] ∧
    (makeTick h tick cur net gross g0 g1).2.next = h.next + 4 ∧
    ∀ r < h.next, (makeTick h tick cur net gross g0 g1).2.cell r = h.cell r := by
  refine ⟨?_, rfl, rfl, ?_⟩
  · unfold makeTick TickData.makeTick HTick.view
    dsimp only
    rw [alloc_same, alloc_other _ _ (by simp only [alloc_ref, alloc_next]; omega),
      alloc_other _ _ (by simp only [alloc_ref, alloc_next]; omega),
      alloc_other _ _ (by simp only [alloc_ref, alloc_next]; omega), alloc_same,
      alloc_other _ _ (by simp only [alloc_ref, alloc_next]; omega),
      alloc_other _ _ (by simp only [alloc_ref, alloc_next]; omega), alloc_same,
      alloc_other _ _ (by simp only [alloc_ref, alloc_next]; omega), alloc_same]
    by_cases hc : tick ≤ cur
    · rw [if_pos hc, if_pos hc, if_pos hc]
    · rw [if_neg hc, if_neg hc, if_neg hc]
  · intro r hr
    unfold makeTick
    dsimp only
    rw [alloc_other _ _ (by simp only [alloc_ref, alloc_next]; omega),
      alloc_other _ _ (by simp only [alloc_ref, alloc_next]; omega),
      alloc_other _ _ (by simp only [alloc_ref, alloc_next]; omega), alloc_other _ _ hr]

theorem makeTick_evolve (h : Heap) (tick cur : Int) (net gross g0 g1 : U256) (W W' : List Nat)
    (hw : W' <+~ (makeTick h tick cur net gross g0 g1).1.refs ++ W) :
    Evolve h (makeTick h tick cur net gross g0 g1).2 W W' := by
  obtain ⟨_, h2, h3, h4⟩ := makeTick_spec h tick cur net gross g0 g1
  refine ⟨by omega, fun r hr _ => h4 r hr, _, ?_, ?_, hw⟩
  · rw [h2]; simp
  · intro r hr
    rw [h2] at hr
    simp only [List.mem_cons, List.not_mem_nil, or_false] at hr
    omega

theorem updateTick_refines {h : Heap} {t : HTickData} (s : Safe h t.refs) (index cur : Int) (delta g0 g1 : U256)
    (upper : Bool) :
    Refines (t.updateTick h index cur delta g0 g1 upper) ((t.view h).updateTick index cur delta g0 g1 upper) fun a b =>
      b = (a.1, a.2.2.view a.2.1) ∧ Evolve h a.2.1 t.refs a.2.2.refs := by
  unfold HTickData.updateTick TickData.updateTick
  refine Refines.bind (Refines.refl _) ?_
  rintro r _ rfl
  dsimp only
  refine Refines.ite ?_ ?_
  · intro _
    refine Refines.bind (idx_map_refines t.ticks (HTick.view h) r.1) ?_
    rintro y x ⟨hxy, h0, hget⟩
    have hlt : r.1.toNat < (t.view h).ticks.length := by
      show _ < (t.ticks.map _).length
      rw [List.length_map]; exact (List.getElem?_eq_some_iff.1 hget).1
    rw [setIdx_of _ h0 hlt]
    obtain ⟨n1, n2, n3, n4, n5, n6⟩ := tick_ne (tick_nodup s.nodup hget)
    refine Refines.ok ⟨?_, evolve_write2 (mem_refs hget (by simp [HTick.refs])) (mem_refs hget (by simp [HTick.refs])) _ _⟩
    have eg : ∀ u, (h.write y.net u).cell y.gross = h.cell y.gross := fun u => write_other _ _ n1.symm
    apply Prod.ext
    · show _ = U256.isZero _
      rw [write_same, eg, hxy]
      rfl
    · show TickData.mk _ _ = TickData.mk _ _
      congr 1
      rw [view_set s hget (h' := (h.write y.net (if upper = true then sub (h.cell y.net) delta else add (h.cell y.net) delta)).write
        y.gross (add ((h.write y.net (if upper = true then sub (h.cell y.net) delta else add (h.cell y.net) delta)).cell y.gross) delta))]
      · congr 1
        rw [hxy]
        unfold HTick.view
        rw [write_other _ _ n1, write_same, write_same, eg, write_other _ _ n4.symm, write_other _ _ n2.symm,
          write_other _ _ n5.symm, write_other _ _ n3.symm]
      · intro r _ hr
        unfold HTick.refs at hr
        simp only [List.mem_cons, List.not_mem_nil, or_false, not_or] at hr
        rw [write_other _ _ hr.2.1, write_other _ _ hr.1]
  · intro _
    obtain ⟨m1, m2, m3, m4⟩ := makeTick_spec h index cur (if upper = true then neg delta else delta) delta g0 g1
    have hev := makeTick_evolve h index cur (if upper = true then neg delta else delta) delta g0 g1
    generalize makeTick h index cur (if upper = true then neg delta else delta) delta g0 g1 = m at m1 m2 m3 m4 hev ⊢
    have hmap : t.ticks.map (HTick.view m.2) = t.ticks.map (HTick.view h) := by
      apply List.map_congr_left
      intro x hx
      exact HTick.view_congr fun r hr => m4 r (s.lt r (List.mem_flatMap.2 ⟨x, hx, hr⟩))
    refine Refines.ite ?_ ?_
    · intro _
      refine Refines.pure ⟨?_, hev _ _ ?_⟩
      · apply Prod.ext
        · rfl
        · show TickData.mk _ _ = TickData.mk _ _
          congr 1
          show _ = (t.ticks ++ [m.1]).map _
          rw [List.map_append, hmap]
          show _ = _ ++ [m.1.view m.2]
          rw [m1]; rfl
      · show (t.ticks ++ [m.1]).flatMap HTick.refs <+~ _
        rw [List.flatMap_append]
        refine List.Perm.subperm (List.perm_append_comm.trans ?_)
        show (m.1.refs ++ [] ++ _) ~ _
        rw [List.append_nil]
        exact List.Perm.refl _
    · intro _
      refine Refines.ite ?_ ?_
      · intro _
        refine Refines.pure ⟨?_, hev _ _ (List.Subperm.refl _)⟩
        apply Prod.ext
        · rfl
        · show TickData.mk _ _ = TickData.mk _ _
          congr 1
          show _ = m.1.view m.2 :: t.ticks.map _
          rw [hmap, m1]; rfl
      · intro _
        refine Refines.pure ⟨?_, hev _ _ ?_⟩
        · apply Prod.ext
          · rfl
          · show TickData.mk _ _ = TickData.mk _ _
            congr 1
            show _ = (t.ticks.take r.1.toNat ++ m.1 :: t.ticks.drop r.1.toNat).map _
            rw [List.map_append, List.map_cons, List.map_take, List.map_drop, hmap, m1]
            rfl
        · show (t.ticks.take r.1.toNat ++ m.1 :: t.ticks.drop r.1.toNat).flatMap HTick.refs <+~ m.1.refs ++ t.ticks.flatMap HTick.refs
          rw [List.flatMap_append]
          show (t.ticks.take r.1.toNat).flatMap HTick.refs ++ (m.1.refs ++ (t.ticks.drop r.1.toNat).flatMap HTick.refs) <+~ _
          conv_rhs => rw [← List.take_append_drop r.1.toNat t.ticks]
          rw [List.flatMap_append, ← List.append_assoc, ← List.append_assoc]
          exact List.Perm.subperm (List.Perm.append_right _ List.perm_append_comm)

theorem clearTick_refines (h : Heap) (t : HTickData) (index : Int) :
    Refines (t.clearTick h index) ((t.view h).clearTick index) fun a b =>
      b = a.view h ∧ Evolve h h t.refs a.refs := by
  unfold HTickData.clearTick TickData.clearTick
  refine Refines.bind (Refines.refl _) ?_
  rintro r _ rfl
  refine Refines.ite ?_ ?_
  · intro _
    refine Refines.pure ⟨?_, ?_⟩
    · show TickData.mk _ _ = TickData.mk _ _
      congr 1
      show (t.ticks.map _).eraseIdx _ = (t.ticks.eraseIdx _).map _
      rw [List.eraseIdx_map]
    · refine (Evolve.refl h t.refs).perm (List.Perm.refl _) ?_
      exact List.Sublist.subperm ((List.eraseIdx_sublist _ _).flatMap _)
  · intro _
    exact Refines.pure ⟨rfl, Evolve.refl _ _⟩

theorem clearIf_refines (c : Bool) (h : Heap) (t : HTickData) (index : Int) :
    Refines (HPool.clearIf c h t index) (Pool.clearIf c (t.view h) index) fun a b =>
      b = a.view h ∧ Evolve h h t.refs a.refs := by
  unfold HPool.clearIf Pool.clearIf
  exact Refines.ite (fun _ => clearTick_refines h t index) fun _ => ⟨rfl, Evolve.refl _ _⟩

end HTickData
end Uni
