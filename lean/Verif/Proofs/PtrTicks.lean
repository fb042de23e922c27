import Verif.Proofs.PtrMath
import Verif.Proofs.HeapTicks
import Verif.Model.PtrPool
/-! # The tick store on memory agrees with the tick store of the value model -/
namespace Uni
open InPlace Ptr U256
open scoped List

/-! ### Searches read the indices only -/

theorem Refines.eq {α : Type} {x y : Go α} (h : Refines x y Eq) : x = y := by
  cases x with
  | error e => cases y with
    | error f => exact congrArg _ h
    | ok b => exact h.elim
  | ok a => cases y with
    | error f => exact h.elim
    | ok b => exact congrArg _ h

/-- Two tick stores with the same indices. -/
structure SameIdx (t t' : TickData) : Prop where
  idx : t.ticks.map Tick.index = t'.ticks.map Tick.index
  spacing : t.spacing = t'.spacing

namespace SameIdx
variable {t t' : TickData}

theorem length (e : SameIdx t t') : t.ticks.length = t'.ticks.length := by
  have := congrArg List.length e.idx
  simpa using this

theorem len (e : SameIdx t t') : t.len = t'.len := by unfold TickData.len; rw [e.length]

theorem at_ (e : SameIdx t t') (i : Int) :
    Refines (Uni.idx t.ticks i) (Uni.idx t'.ticks i) (fun a b => a.index = b.index) := by
  unfold Uni.idx
  by_cases hi : 0 ≤ i
  · rw [if_pos hi, if_pos hi]
    have h1 : (t.ticks[i.toNat]?).map Tick.index = (t'.ticks[i.toNat]?).map Tick.index := by
      rw [← List.getElem?_map, ← List.getElem?_map, e.idx]
    cases hx : t.ticks[i.toNat]? with
    | none => cases hy : t'.ticks[i.toNat]? with
      | none => exact rfl
      | some b => rw [hx, hy] at h1; cases h1
    | some a => cases hy : t'.ticks[i.toNat]? with
      | none => rw [hx, hy] at h1; cases h1
      | some b => rw [hx, hy] at h1; exact Option.some.inj h1
  · rw [if_neg hi, if_neg hi]; exact rfl

theorem isBelowSmallest (e : SameIdx t t') (k : Int) : t.isBelowSmallest k = t'.isBelowSmallest k := by
  unfold TickData.isBelowSmallest
  rw [e.len]
  exact Refines.eq ((Refines.refl _).bind fun _ _ _ => (e.at_ 0).bind fun a b hab => by rw [hab]; exact rfl)

theorem isAtOrAboveLargest (e : SameIdx t t') (k : Int) : t.isAtOrAboveLargest k = t'.isAtOrAboveLargest k := by
  unfold TickData.isAtOrAboveLargest
  rw [e.len]
  exact Refines.eq ((Refines.refl _).bind fun _ _ _ => (e.at_ _).bind fun a b hab => by rw [hab]; exact rfl)

theorem isAboveLargest (e : SameIdx t t') (k : Int) : t.isAboveLargest k = t'.isAboveLargest k := by
  unfold TickData.isAboveLargest
  rw [e.len]
  exact Refines.eq ((e.at_ _).bind fun a b hab => by rw [hab]; exact rfl)

theorem lastBefore (e : SameIdx t t') (k i : Int) : t.lastBefore k i = t'.lastBefore k i := by
  unfold TickData.lastBefore
  rw [e.len]
  refine Refines.eq (Refines.ite (fun _ => Refines.refl _) fun _ => ?_)
  exact (e.at_ _).bind fun a b hab => by rw [hab]; exact rfl

theorem foundAt (e : SameIdx t t') (k i : Int) {x y : Tick} (h : x.index = y.index) : t.foundAt k i x = t'.foundAt k i y := by
  unfold TickData.foundAt
  rw [h, e.lastBefore]

theorem bsLoop (e : SameIdx t t') (k : Int) (fuel : Nat) (l r : Int) : t.bsLoop k fuel l r = t'.bsLoop k fuel l r := by
  induction fuel generalizing l r with
  | zero => rfl
  | succ n ih =>
    unfold TickData.bsLoop
    refine Refines.eq ((e.at_ _).bind fun a b hab => ?_)
    rw [e.foundAt k _ hab]
    refine (Refines.refl _).bind ?_
    rintro f _ rfl
    rw [hab, ih, ih]
    exact Refines.refl _

theorem binarySearch (e : SameIdx t t') (k : Int) : t.binarySearch k = t'.binarySearch k := by
  unfold TickData.binarySearch
  rw [e.isBelowSmallest, e.len, e.length, e.bsLoop]

theorem bs2Loop (e : SameIdx t t') (k : Int) (fuel : Nat) (l r : Int) : t.bs2Loop k fuel l r = t'.bs2Loop k fuel l r := by
  induction fuel generalizing l r with
  | zero => rfl
  | succ n ih =>
    unfold TickData.bs2Loop
    refine Refines.eq (Refines.ite (fun _ => (e.at_ _).bind fun a b hab => ?_) fun _ => Refines.refl _)
    rw [hab, ih, ih]
    exact Refines.refl _

theorem bs2Search (e : SameIdx t t') (k : Int) : t.bs2Search k = t'.bs2Search k := by
  unfold TickData.bs2Search
  rw [e.len, e.length, e.bs2Loop]
  refine Refines.eq ((Refines.refl _).bind ?_)
  rintro r _ rfl
  cases r with
  | inl i => exact Refines.refl _
  | inr l => exact (e.at_ _).bind fun a b hab => by rw [hab]; exact rfl

theorem binarySearch2 (e : SameIdx t t') (k : Int) : t.binarySearch2 k = t'.binarySearch2 k := by
  unfold TickData.binarySearch2
  rw [e.length, e.isBelowSmallest, e.isAboveLargest, e.bs2Search]

theorem nextInitializedTick (e : SameIdx t t') (k : Int) (lte : Bool) :
    Refines (t.nextInitializedTick k lte) (t'.nextInitializedTick k lte) (fun a b => a.index = b.index) := by
  unfold TickData.nextInitializedTick
  rw [e.isBelowSmallest, e.isAtOrAboveLargest, e.len, e.binarySearch]
  refine Refines.ite (fun _ => ?_) fun _ => ?_
  · refine (Refines.refl _).bind ?_
    rintro a _ rfl
    refine (Refines.refl _).bind fun _ _ _ => (Refines.refl _).bind ?_
    rintro b _ rfl
    refine Refines.ite (fun _ => e.at_ _) fun _ => (Refines.refl _).bind ?_
    rintro i _ rfl
    exact e.at_ _
  · refine (Refines.refl _).bind ?_
    rintro a _ rfl
    refine (Refines.refl _).bind fun _ _ _ => (Refines.refl _).bind ?_
    rintro b _ rfl
    refine Refines.ite (fun _ => e.at_ _) fun _ => (Refines.refl _).bind ?_
    rintro i _ rfl
    exact e.at_ _

theorem nextInitialized (e : SameIdx t t') (k : Int) (lte : Bool) :
    t.nextInitializedTickWithinOneWord k lte = t'.nextInitializedTickWithinOneWord k lte := by
  unfold TickData.nextInitializedTickWithinOneWord
  rw [e.spacing, e.isBelowSmallest, e.isAtOrAboveLargest]
  refine Refines.eq ((Refines.refl _).bind ?_)
  rintro q _ rfl
  dsimp only
  refine Refines.ite (fun _ => (Refines.refl _).bind ?_) fun _ => (Refines.refl _).bind ?_
  · rintro b _ rfl
    exact Refines.ite (fun _ => Refines.refl _) fun _ => (e.nextInitializedTick k lte).bind fun a b hab => by
      rw [hab]; exact rfl
  · rintro b _ rfl
    exact Refines.ite (fun _ => Refines.refl _) fun _ => (e.nextInitializedTick k lte).bind fun a b hab => by
      rw [hab]; exact rfl

end SameIdx

theorem shape_same (t : HTickData) (h : Heap) : SameIdx (shape t) (t.view h) := by
  refine ⟨?_, rfl⟩
  show (t.ticks.map _).map _ = (t.ticks.map _).map _
  rw [List.map_map, List.map_map]
  rfl

/-! ### Footprints -/

theorem Evolve.later {h0 h h1 : Heap} {W W' : List Nat} (e : Evolve h0 h W W') (le : h.next ≤ h1.next)
    (f : ∀ r, r < h0.next → r ∉ W → h1.cell r = h.cell r) : Evolve h0 h1 W W' := by
  refine ⟨le_trans e.le le, fun r hr hW => (f r hr hW).trans (e.frame r hr hW), ?_⟩
  obtain ⟨F, h1, h2, h3⟩ := e.foot
  exact ⟨F, h1, fun r hr => ⟨(h2 r hr).1, lt_of_lt_of_le (h2 r hr).2 le⟩, h3⟩

theorem Evolve.kept {h0 h h1 : Heap} {W W' : List Nat} (e : Evolve h0 h W W') (k : Kept h h1) : Evolve h0 h1 W W' :=
  e.later k.le fun r hr _ => k.cell r (lt_of_lt_of_le hr e.le)

theorem Evolve.stored {h0 h h1 : Heap} {W W' : List Nat} {z : Nat} {v : U256} (e : Evolve h0 h W W') (s : Stored h z h1 v)
    (hz : z ∈ W') : Evolve h0 h1 W W' := by
  refine e.later s.le fun r hr hW => s.cell r (lt_of_lt_of_le hr e.le) ?_
  rintro rfl
  rcases e.mem hz with h | h
  · exact hW h
  · omega

theorem Evolve.storedNew {h0 h h1 : Heap} {W W' : List Nat} {z : Nat} {v : U256} (e : Evolve h0 h W W') (s : Stored h z h1 v)
    (hz : h0.next ≤ z) : Evolve h0 h1 W W' :=
  e.later s.le fun r hr _ => s.cell r (lt_of_lt_of_le hr e.le) (by omega)

/-- numbers that are not written keep their values -/
theorem Evolve.at {c : Rights} {h h' : Heap} {W W' : List Nat} {x : Nat} {v : U256} (e : Evolve h h' W W') (a : At c h x v)
    (hx : x ∉ W) : At c h' x v :=
  ⟨lt_of_lt_of_le a.lt e.le, (e.frame x a.lt hx).trans a.val, a.can, le_trans a.base e.le⟩

theorem Kept.evolve {h h' : Heap} (k : Kept h h') (W : List Nat) : Evolve h h' W W := (Evolve.refl h W).kept k

theorem Consts.evolve {c : Rights} {h h' : Heap} {W W' : List Nat} (k : Consts c h) (e : Evolve h h' W W')
    (hw : ∀ r ∈ W, constEnd ≤ r) : Consts c h' :=
  k.map fun r v hr a => e.at a fun hm => by have := hw r hm; omega

theorem Consts.stored {c : Rights} {h h' : Heap} {z : Nat} {v : U256} (k : Consts c h) (s : Stored h z h' v)
    (hz : constEnd ≤ z) : Consts c h' := k.map fun r v hr a => s.at a (by omega)

/-- The cells `W` are in order and may be written. -/
structure Own (c : Rights) (h : Heap) (W : List Nat) : Prop where
  safe : Safe h W
  can : ∀ r ∈ W, c.canWrite r
  base : c.base ≤ h.next

theorem Own.at {c : Rights} {h : Heap} {W : List Nat} (o : Own c h W) {r : Nat} (hr : r ∈ W) : At c h r (h.cell r) :=
  ⟨o.safe.lt r hr, rfl, canRead_of_write (o.can r hr), o.base⟩

theorem Own.evolve {c : Rights} {h h' : Heap} {W W' : List Nat} (o : Own c h W) (e : Evolve h h' W W') : Own c h' W' := by
  refine ⟨e.safe o.safe, fun r hr => ?_, le_trans o.base e.le⟩
  rcases e.mem hr with h | h
  · exact o.can r h
  · exact .inr (le_trans o.base h.1)

theorem Tri.lift_refines {α β : Type} {c : Rights} {h : Heap} {g : Go α} {y : Go β} {R : α → β → Prop} (r : Refines g y R) :
    Tri c (InPlace.lift g) h y (fun a h' b => h' = h ∧ R a b) := by
  cases g with
  | error e => cases y with
    | error f => exact ⟨trivial, r⟩
    | ok b => exact r.elim
  | ok a => cases y with
    | error f => exact r.elim
    | ok b => exact ⟨trivial, rfl, r⟩

theorem Tri.refines_bind {α β γ δ : Type} {c : Rights} {h : Heap} {g : Go α} {y : Go β} {R : α → β → Prop} {f : α → HM γ}
    {k : β → Go δ} {S : γ → Heap → δ → Prop} (r : Refines g y R) (hf : ∀ a b, R a b → Tri c (f a) h (k b) S) :
    Tri c (InPlace.lift g >>= f) h (y >>= k) S :=
  (Tri.lift_refines r).bind fun a h' b hb => by rw [hb.1]; exact hf a b hb.2

theorem Tri.lift_eq {α γ δ : Type} {c : Rights} {h : Heap} {g g' : Go α} {f : α → HM γ} {k : α → Go δ} {S : γ → Heap → δ → Prop}
    (e : g = g') (hf : ∀ a, Tri c (f a) h (k a) S) : Tri c (InPlace.lift g >>= f) h (g' >>= k) S := by
  subst e
  exact Tri.lift_bind hf

/-! ### Ticks -/

theorem getTick_refines (t : HTickData) (h : Heap) (i : Int) :
    Refines (Ptr.getTick t i) ((t.view h).getTickAt i)
      (fun x r => r.2 = x.view h ∧ 0 ≤ r.1 ∧ t.ticks[r.1.toNat]? = some x) := by
  unfold Ptr.getTick TickData.getTickAt
  rw [(shape_same t h).binarySearch]
  refine (Refines.refl _).bind ?_
  rintro j _ rfl
  refine (idx_map_refines t.ticks (HTick.view h) j).bind ?_
  rintro x _ ⟨rfl, h0, hget⟩
  exact (Refines.refl _).bind fun _ _ _ => ⟨rfl, h0, hget⟩

theorem getTick_refines' (t : HTickData) (h : Heap) (i : Int) :
    Refines (Ptr.getTick t i) ((t.view h).getTick i) (fun x v => v = x.view h ∧ ∃ j : Nat, t.ticks[j]? = some x) := by
  unfold TickData.getTick
  have := getTick_refines t h i
  revert this
  cases Ptr.getTick t i with
  | error e => cases (t.view h).getTickAt i <;> exact fun x => x
  | ok x =>
    cases (t.view h).getTickAt i with
    | error e => exact fun x => x
    | ok r => exact fun k => ⟨k.1, _, k.2.2⟩

section ticks
variable {c : Rights} {h : Heap} {t : HTickData}

theorem tri_cross (o : Own c h t.refs) (tick : Int) {g0 g1 : Nat} {v0 v1 : U256} (a0 : At c h g0 v0) (a1 : At c h g1 v1)
    (n1 : g1 ∉ t.refs) :
    Tri c (Ptr.cross t tick g0 g1) h ((t.view h).cross tick v0 v1) (fun r h' b =>
      b.2 = t.view h' ∧ At c h' r b.1 ∧ r ∈ t.refs ∧ Evolve h h' t.refs t.refs) := by
  unfold Ptr.cross TickData.cross
  refine Tri.refines_bind (getTick_refines t h tick) ?_
  rintro x ⟨j, y⟩ ⟨hy, h0, hget⟩
  dsimp only at hy h0 hget ⊢
  subst hy
  have hlt : j.toNat < (t.view h).ticks.length := by
    show _ < (t.ticks.map _).length
    rw [List.length_map]; exact (List.getElem?_eq_some_iff.1 hget).1
  rw [setIdx_of _ h0 hlt]
  obtain ⟨n12, n13, n14, n23, n24, n34⟩ := HTickData.tick_ne (HTickData.tick_nodup o.safe.nodup hget)
  have m : ∀ r ∈ x.refs, r ∈ t.refs := fun r hr => HTickData.mem_refs hget hr
  have mn := m x.net (by simp [HTick.refs])
  have mg := m x.gross (by simp [HTick.refs])
  have m0 := m x.out0 (by simp [HTick.refs])
  have m1 := m x.out1 (by simp [HTick.refs])
  refine (tri_sub (o.can _ m0) a0 (o.at m0)).step fun _ h1 s1 => ?_
  refine (tri_sub (o.can _ m1) (s1.at a1 (by rintro rfl; exact n1 m0)) (s1.at (o.at m1) n34.symm)).step fun _ h2 s2 => ?_
  have an := s2.at (s1.at (o.at mn) n13) n14
  refine Tri.ret ⟨?_, an, mn, ((Evolve.refl h _).stored s1 m0).stored s2 m1⟩
  show TickData.mk _ _ = TickData.mk _ _
  congr 1
  rw [HTickData.view_set o.safe hget (h' := h2)]
  · congr 1
    unfold HTick.view
    rw [an.val, (s2.at (s1.at (o.at mg) n23) n24).val, s2.val, s2.cell _ (lt_of_lt_of_le (o.safe.lt _ m0) s1.le) n34, s1.val]
  · intro r hr hr'
    unfold HTick.refs at hr'
    simp only [List.mem_cons, List.not_mem_nil, or_false, not_or] at hr'
    rw [s2.cell r (lt_of_lt_of_le (o.safe.lt _ hr) s1.le) hr'.2.2.2, s1.cell r (o.safe.lt _ hr) hr'.2.2.1]

/-- new cells, each used once -/
structure NewRefs (h h' : Heap) (l : List Nat) : Prop where
  kept : Kept h h'
  nodup : l.Nodup
  mem : ∀ r ∈ l, h.next ≤ r ∧ r < h'.next

theorem tri_makeTick (kc : Consts c h) (tick cur : Int) {net gross g0 g1 : Nat} {vn vg v0 v1 : U256} (an : At c h net vn)
    (ag : At c h gross vg) (a0 : At c h g0 v0) (a1 : At c h g1 v1) :
    Tri c (Ptr.makeTick tick cur net gross g0 g1) h (.ok (TickData.makeTick tick cur vn vg v0 v1)) (fun m h' b =>
      b = m.view h' ∧ NewRefs h h' m.refs) := by
  unfold Ptr.makeTick
  refine (tri_clone an).fresh1 fun a h1 k1 aa la => ?_
  refine (tri_clone (ag.keep k1)).fresh1 fun b h2 k2 ab lb => ?_
  have fin : ∀ {cc d : Nat} {h3 h4 : Heap} {u0 u1 : U256}, Kept h2 h3 → At c h3 cc u0 → h2.next ≤ cc → Kept h3 h4 →
      At c h4 d u1 → h3.next ≤ d → (⟨tick, vn, vg, u0, u1⟩ : Tick) = (⟨tick, a, b, cc, d⟩ : HTick).view h4 ∧
        NewRefs h h4 (⟨tick, a, b, cc, d⟩ : HTick).refs := by
    intro cc d h3 h4 u0 u1 k3 ac lc k4 ad ld
    have l1 := aa.lt
    have l2 := ab.lt
    have l3 := ac.lt
    have l4 := ad.lt
    have e1 := k1.le
    have e2 := k2.le
    have e3 := k3.le
    have e4 := k4.le
    refine ⟨?_, ((k1.trans k2).trans k3).trans k4, ?_, ?_⟩
    · unfold HTick.view
      dsimp only
      rw [(((aa.keep k2).keep k3).keep k4).val, ((ab.keep k3).keep k4).val, (ac.keep k4).val, ad.val]
    · unfold HTick.refs
      simp only [List.nodup_cons, List.mem_cons, List.not_mem_nil, or_false, not_or, List.nodup_nil, not_false_eq_true,
        and_true]
      refine ⟨⟨?_, ?_, ?_⟩, ⟨?_, ?_⟩, ?_⟩ <;> omega
    · intro r hr
      unfold HTick.refs at hr
      simp only [List.mem_cons, List.not_mem_nil, or_false] at hr
      omega
  unfold TickData.makeTick
  by_cases hc : tick ≤ cur
  · rw [if_pos hc, if_pos hc]
    refine (tri_clone ((a0.keep k1).keep k2)).fresh1 fun cc h3 k3 ac lc => ?_
    refine (tri_clone (((a1.keep k1).keep k2).keep k3)).fresh1 fun d h4 k4 ad ld => ?_
    exact Tri.ret (fin k3 ac lc k4 ad ld)
  · rw [if_neg hc, if_neg hc]
    refine (tri_clone ((kc.keep k1).keep k2).zero).fresh1 fun cc h3 k3 ac lc => ?_
    refine (tri_clone (((kc.keep k1).keep k2).keep k3).zero).fresh1 fun d h4 k4 ad ld => ?_
    exact Tri.ret (fin k3 ac lc k4 ad ld)

theorem NewRefs.evolve {h h' : Heap} {l W W' : List Nat} (n : NewRefs h h' l) (hw : W' <+~ l ++ W) : Evolve h h' W W' :=
  ⟨n.kept.le, fun r hr _ => n.kept.cell r hr, l, n.nodup, n.mem, hw⟩

theorem insertTick_refs (t : HTickData) (i : Int) (x : HTick) : (insertTick t i x).refs <+~ x.refs ++ t.refs := by
  unfold insertTick
  by_cases h1 : i = -2
  · rw [if_pos h1]
    show (t.ticks ++ [x]).flatMap HTick.refs <+~ _
    rw [List.flatMap_append]
    refine List.Perm.subperm (List.perm_append_comm.trans ?_)
    show (x.refs ++ [] ++ _) ~ _
    rw [List.append_nil]
    exact List.Perm.refl _
  · rw [if_neg h1]
    by_cases h2 : i = -1
    · rw [if_pos h2]; exact List.Subperm.refl _
    · rw [if_neg h2]
      show (t.ticks.take i.toNat ++ x :: t.ticks.drop i.toNat).flatMap HTick.refs <+~ x.refs ++ t.ticks.flatMap HTick.refs
      rw [List.flatMap_append]
      show (t.ticks.take i.toNat).flatMap HTick.refs ++ (x.refs ++ (t.ticks.drop i.toNat).flatMap HTick.refs) <+~ _
      conv_rhs => rw [← List.take_append_drop i.toNat t.ticks]
      rw [List.flatMap_append, ← List.append_assoc, ← List.append_assoc]
      exact List.Perm.subperm (List.Perm.append_right _ List.perm_append_comm)

theorem insertTick_view (t : HTickData) (i : Int) (x : HTick) (h' : Heap) :
    (insertTick t i x).view h' =
      if i = -2 then { t.view h' with ticks := (t.view h').ticks ++ [x.view h'] }
      else if i = -1 then { t.view h' with ticks := x.view h' :: (t.view h').ticks }
      else { t.view h' with ticks := (t.view h').ticks.take i.toNat ++ x.view h' :: (t.view h').ticks.drop i.toNat } := by
  unfold insertTick HTickData.view
  by_cases h1 : i = -2
  · rw [if_pos h1, if_pos h1]
    simp only [List.map_append, List.map_cons, List.map_nil]
  · rw [if_neg h1, if_neg h1]
    by_cases h2 : i = -1
    · rw [if_pos h2, if_pos h2]
      simp only [List.map_cons]
    · rw [if_neg h2, if_neg h2]
      simp only [List.map_append, List.map_cons, List.map_take, List.map_drop]

theorem tri_setDelta (upper : Bool) {z delta : Nat} {vd w : U256} (hz : c.canWrite z) (az : At c h z w) (ad : At c h delta vd) :
    Tri c (setDelta upper z delta) h (.ok (if upper then U256.neg vd else vd)) (fun _ h' v => Stored h z h' v) := by
  unfold setDelta
  cases upper
  · exact tri_set hz ad
  · exact tri_neg hz az.lt ad

theorem tri_changeNet (upper : Bool) {z delta : Nat} {vd w : U256} (hz : c.canWrite z) (az : At c h z w) (ad : At c h delta vd) :
    Tri c (changeNet upper z delta) h (.ok (if upper then U256.sub w vd else U256.add w vd)) (fun _ h' v => Stored h z h' v) := by
  unfold changeNet
  cases upper
  · exact tri_add hz az ad
  · exact tri_sub hz az ad

theorem tri_updateTick (kc : Consts c h) (o : Own c h t.refs) (index cur : Int) {delta g0 g1 : Nat} {vd v0 v1 : U256}
    (ad : At c h delta vd) (a0 : At c h g0 v0) (a1 : At c h g1 v1) (nd : delta ∉ t.refs) (upper : Bool) :
    Tri c (Ptr.updateTick t index cur delta g0 g1 upper) h ((t.view h).updateTick index cur vd v0 v1 upper) (fun a h' b =>
      b = (a.1, a.2.view h') ∧ Evolve h h' t.refs a.2.refs) := by
  unfold Ptr.updateTick TickData.updateTick
  refine Tri.lift_eq ((shape_same t h).binarySearch2 index) fun r => ?_
  refine (tri_new o.base zero).fresh1 fun z h1 k1 az lz => ?_
  have wz : c.canWrite z := .inr (le_trans o.base lz)
  refine (tri_setDelta upper wz az (ad.keep k1)).step fun _ h2 s2 => ?_
  have k2 : Kept h h2 := s2.kept k1 lz
  have e2 : Evolve h h2 t.refs t.refs := k2.evolve _
  have o2 := o.evolve e2
  have ad2 := ad.keep k2
  have hv2 : t.view h2 = t.view h := HTickData.view_congr fun r hr => k2.cell r (o.safe.lt r hr)
  dsimp only
  refine Tri.ite (fun _ => ?_) fun _ => ?_
  · refine Tri.refines_bind (idx_map_refines t.ticks (HTick.view h) r.1) ?_
    rintro x _ ⟨rfl, h0, hget⟩
    have hlt : r.1.toNat < (t.view h).ticks.length := by
      show _ < (t.ticks.map _).length
      rw [List.length_map]; exact (List.getElem?_eq_some_iff.1 hget).1
    rw [setIdx_of _ h0 hlt]
    obtain ⟨n12, n13, n14, n23, n24, n34⟩ := HTickData.tick_ne (HTickData.tick_nodup o.safe.nodup hget)
    have m : ∀ r ∈ x.refs, r ∈ t.refs := fun r hr => HTickData.mem_refs hget hr
    have mn := m x.net (by simp [HTick.refs])
    have mg := m x.gross (by simp [HTick.refs])
    have m0 := m x.out0 (by simp [HTick.refs])
    have m1 := m x.out1 (by simp [HTick.refs])
    refine (tri_changeNet upper (o.can _ mn) ((o.at mn).keep k2) ad2).step fun _ h3 s3 => ?_
    have ad3 := s3.at ad2 (by rintro rfl; exact nd mn)
    have ag3 := s3.at ((o.at mg).keep k2) n12.symm
    refine (tri_add (o.can _ mg) ag3 ad3).step fun _ h4 s4 => ?_
    have ag4 := s4.at_self ag3
    refine Tri.load_bind ag4 ?_
    refine Tri.ret ⟨?_, (e2.stored s3 mn).stored s4 mg⟩
    apply Prod.ext
    · rfl
    · show TickData.mk _ _ = TickData.mk _ _
      congr 1
      rw [HTickData.view_set o.safe hget (h' := h4)]
      · congr 1
        unfold HTick.view
        rw [ag4.val, (s4.at (s3.at ((o.at m0).keep k2) n13.symm) n23.symm).val,
          (s4.at (s3.at ((o.at m1).keep k2) n14.symm) n24.symm).val,
          s4.cell _ (lt_of_lt_of_le (o2.safe.lt _ mn) s3.le) n12, s3.val]
      · intro r hr hr'
        unfold HTick.refs at hr'
        simp only [List.mem_cons, List.not_mem_nil, or_false, not_or] at hr'
        rw [s4.cell r (lt_of_lt_of_le (o2.safe.lt _ hr) s3.le) hr'.2.1, s3.cell r (o2.safe.lt _ hr) hr'.1,
          k2.cell r (o.safe.lt _ hr)]
  · refine (tri_makeTick (kc.keep k2) index cur (s2.at_self az) ad2 (a0.keep k2) (a1.keep k2)).step ?_
    rintro m h3 ⟨m1, m2⟩
    have hv3 : t.view h3 = t.view h :=
      HTickData.view_congr fun r hr => (k2.trans m2.kept).cell r (o.safe.lt r hr)
    have iv := insertTick_view t r.1 m h3
    have hE : Evolve h h3 t.refs (insertTick t r.1 m).refs := e2.trans (m2.evolve (insertTick_refs t r.1 m))
    rw [hv3, ← m1] at iv
    have hval : ∀ u : Tick, (if r.1 = -2 then (Pure.pure (false, { t.view h with ticks := (t.view h).ticks ++ [u] }) : Go (Bool × TickData))
        else if r.1 = -1 then Pure.pure (false, { t.view h with ticks := u :: (t.view h).ticks })
        else Pure.pure (false, { t.view h with ticks := (t.view h).ticks.take r.1.toNat ++ u :: (t.view h).ticks.drop r.1.toNat })) =
        .ok (false, if r.1 = -2 then { t.view h with ticks := (t.view h).ticks ++ [u] }
        else if r.1 = -1 then { t.view h with ticks := u :: (t.view h).ticks }
        else { t.view h with ticks := (t.view h).ticks.take r.1.toNat ++ u :: (t.view h).ticks.drop r.1.toNat }) := by
      intro u
      by_cases q1 : r.1 = -2
      · rw [if_pos q1, if_pos q1]; rfl
      · rw [if_neg q1, if_neg q1]
        by_cases q2 : r.1 = -1
        · rw [if_pos q2, if_pos q2]; rfl
        · rw [if_neg q2, if_neg q2]; rfl
    rw [hval]
    refine Tri.ret ⟨?_, hE⟩
    dsimp only
    rw [iv]

theorem tri_growthBelow (tl cur : Int) {g lo : Nat} {vg vl : U256} (ag : At c h g vg) (al : At c h lo vl) :
    Tri c (Ptr.growthBelow tl cur g lo) h (.ok (TickData.growthBelow tl cur vg vl)) (fun r h' v => Fresh c h r h' v) := by
  unfold Ptr.growthBelow TickData.growthBelow
  by_cases hc : cur ≥ tl
  · rw [if_pos hc, if_pos hc]; exact mk_set al
  · rw [if_neg hc, if_neg hc]; exact mk_sub ag al

theorem tri_growthAbove (tu cur : Int) {g lo : Nat} {vg vl : U256} (ag : At c h g vg) (al : At c h lo vl) :
    Tri c (Ptr.growthAbove tu cur g lo) h (.ok (TickData.growthAbove tu cur vg vl)) (fun r h' v => Fresh c h r h' v) := by
  unfold Ptr.growthAbove TickData.growthAbove
  by_cases hc : cur < tu
  · rw [if_pos hc, if_pos hc]; exact mk_set al
  · rw [if_neg hc, if_neg hc]; exact mk_sub ag al

theorem tri_growthInside {g b a : Nat} {vg vb va : U256} (ag : At c h g vg) (ab : At c h b vb) (aa : At c h a va) :
    Tri c (Ptr.growthInside g b a) h (.ok (U256.sub (U256.sub vg vb) va)) (fun r h' v => Fresh c h r h' v) := by
  unfold Ptr.growthInside
  refine (mk_sub ag ab).step fun r h1 f => ?_
  exact (tri_sub (f.write ag.base) f.at_ (aa.keep f.kept)).ret_left (k := fun _ => r) fun _ h2 v s => f.stored s

/-- two new numbers -/
structure Fresh2 (c : Rights) (h : Heap) (r : Nat × Nat) (h' : Heap) (v : U256 × U256) : Prop where
  kept : Kept h h'
  fst : At c h' r.1 v.1
  snd : At c h' r.2 v.2
  new1 : h.next ≤ r.1
  new2 : h.next ≤ r.2
  ne : r.1 ≠ r.2

theorem tri_getFeeGrowthInside (o : Own c h t.refs) (tl tu cur : Int) {g0 g1 : Nat} {v0 v1 : U256} (a0 : At c h g0 v0)
    (a1 : At c h g1 v1) :
    Tri c (Ptr.getFeeGrowthInside t tl tu cur g0 g1) h ((t.view h).getFeeGrowthInside tl tu cur v0 v1)
      (fun r h' v => Fresh2 c h r h' v) := by
  unfold Ptr.getFeeGrowthInside TickData.getFeeGrowthInside
  refine Tri.refines_bind (getTick_refines' t h tl) ?_
  rintro x _ ⟨rfl, i, hi⟩
  refine Tri.refines_bind (getTick_refines' t h tu) ?_
  rintro y _ ⟨rfl, j, hj⟩
  have x0 := o.at (HTickData.mem_refs hi (r := x.out0) (by simp [HTick.refs]))
  have x1 := o.at (HTickData.mem_refs hi (r := x.out1) (by simp [HTick.refs]))
  have y0 := o.at (HTickData.mem_refs hj (r := y.out0) (by simp [HTick.refs]))
  have y1 := o.at (HTickData.mem_refs hj (r := y.out1) (by simp [HTick.refs]))
  refine (tri_growthBelow tl cur a0 x0).fresh1 fun b0 h1 k1 ab0 l1 => ?_
  refine (tri_growthBelow tl cur (a1.keep k1) (x1.keep k1)).fresh1 fun b1 h2 k2 ab1 l2 => ?_
  have k12 := k1.trans k2
  refine (tri_growthAbove tu cur (a0.keep k12) (y0.keep k12)).fresh1 fun d0 h3 k3 ad0 l3 => ?_
  have k13 := k12.trans k3
  refine (tri_growthAbove tu cur (a1.keep k13) (y1.keep k13)).fresh1 fun d1 h4 k4 ad1 l4 => ?_
  have k14 := k13.trans k4
  refine (tri_growthInside (a0.keep k14) (((ab0.keep k2).keep k3).keep k4) (ad0.keep k4)).fresh1 fun i0 h5 k5 ai0 l5 => ?_
  have k15 := k14.trans k5
  refine (tri_growthInside (a1.keep k15) (((ab1.keep k3).keep k4).keep k5) (ad1.keep k5)).fresh1 fun i1 h6 k6 ai1 l6 => ?_
  refine Tri.ret ⟨k15.trans k6, ai0.keep k6, ai1, le_trans k14.le l5, le_trans k15.le l6, ?_⟩
  have := ai0.lt
  dsimp only
  omega

theorem clearTick_refines (h : Heap) (t : HTickData) (index : Int) :
    Refines (Ptr.clearTick t index) ((t.view h).clearTick index) (fun a b => b = a.view h ∧ Evolve h h t.refs a.refs) := by
  have e : Ptr.clearTick t index = t.clearTick h index := by
    unfold Ptr.clearTick HTickData.clearTick
    rw [(shape_same t h).binarySearch2]
  rw [e]
  exact HTickData.clearTick_refines h t index

theorem clearIf_refines (b : Bool) (h : Heap) (t : HTickData) (index : Int) :
    Refines (Ptr.clearIf b t index) (Pool.clearIf b (t.view h) index) (fun a b => b = a.view h ∧ Evolve h h t.refs a.refs) := by
  unfold Ptr.clearIf Pool.clearIf
  exact Refines.ite (fun _ => clearTick_refines h t index) fun _ => ⟨rfl, Evolve.refl _ _⟩

end ticks
end Uni
