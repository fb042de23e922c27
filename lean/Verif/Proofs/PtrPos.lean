import Verif.Proofs.PtrTicks
import Verif.Proofs.HeapOps
/-! # Mints, burns, collects and flashes on memory agree with the value model -/
namespace Uni
open InPlace Ptr U256
open scoped List

theorem Evolve.of_nodup {h h' : Heap} {W W' : List Nat} (le : h.next ≤ h'.next)
    (frame : ∀ r, r < h.next → r ∉ W → h'.cell r = h.cell r) (nd : W'.Nodup)
    (mem : ∀ r ∈ W', r ∈ W ∨ (h.next ≤ r ∧ r < h'.next)) : Evolve h h' W W' := by
  refine ⟨le, frame, W'.filter (fun r => decide (r ∉ W)), nd.filter _, ?_, ?_⟩
  · intro r hr
    obtain ⟨h1, h2⟩ := List.mem_filter.1 hr
    rcases mem r h1 with h3 | h3
    · exact absurd h3 (of_decide_eq_true h2)
    · exact h3
  · refine nd.subperm fun r hr => ?_
    by_cases hw : r ∈ W
    · exact List.mem_append_right _ hw
    · exact List.mem_append_left _ (List.mem_filter.2 ⟨hr, decide_eq_true hw⟩)

theorem Consts.le {c : Rights} {h : Heap} (k : Consts c h) : constEnd ≤ h.next := by
  have e : TickMath.totalTicks = 1774545 := rfl
  obtain ⟨v, hv⟩ := ticksAt_ok (i := TickMath.totalTicks - 1) (by omega)
  have := (k.table _ v hv).lt
  unfold tableAt at this
  unfold constEnd
  omega

/-- A pool on memory is in order, and its owner may use it: the cells it may write to are in order, are none of the package-level
numbers and may be written, the price may be read. -/
structure PoolOk (c : Rights) (h : Heap) (p : HPool) : Prop where
  sep : Sep h p
  can : ∀ r ∈ p.writes, c.canWrite r
  canPrice : c.canRead p.price
  consts : Consts c h
  high : ∀ r ∈ p.writes, constEnd ≤ r
  base : c.base ≤ h.next

namespace PoolOk
variable {c : Rights} {h h' : Heap} {p p' : HPool}

theorem step (o : PoolOk c h p) (k : StepOk h p h' p') : PoolOk c h' p' := by
  refine ⟨k.sep o.sep, ?_, ?_, o.consts.evolve k.ev o.high, ?_, le_trans o.base k.ev.le⟩
  · intro r hr
    rcases k.ev.mem hr with h1 | h1
    · exact o.can r h1
    · exact .inr (le_trans o.base h1.1)
  · rcases k.price with e | e
    · rw [e]; exact o.canPrice
    · exact .inr (.inr (le_trans o.base e.1))
  · intro r hr
    rcases k.ev.mem hr with h1 | h1
    · exact o.high r h1
    · exact le_trans o.consts.le h1.1

theorem own (o : PoolOk c h p) : Own c h p.writes := ⟨o.sep.safe, o.can, o.base⟩

theorem ticks (o : PoolOk c h p) : Own c h p.ticks.refs :=
  ⟨o.sep.ticks, fun r hr => o.can r (by simp [HPool.writes, hr]), o.base⟩

theorem liquidity (o : PoolOk c h p) : At c h p.liquidity (p.view h).liquidity := o.own.at (by simp [HPool.writes])
theorem growth0 (o : PoolOk c h p) : At c h p.growth0 (p.view h).growth0 := o.own.at (by simp [HPool.writes])
theorem growth1 (o : PoolOk c h p) : At c h p.growth1 (p.view h).growth1 := o.own.at (by simp [HPool.writes])
theorem price (o : PoolOk c h p) : At c h p.price (p.view h).price := ⟨o.sep.priceLt, rfl, o.canPrice, o.base⟩

end PoolOk

theorem Sep.view_kept {h h' : Heap} {p : HPool} (s : Sep h p) (k : Kept h h') : p.view h' = p.view h := by
  refine HPool.view_congr fun r hr => k.cell r ?_
  rcases List.mem_cons.1 hr with rfl | hr
  · exact s.priceLt
  · exact s.safe.lt r hr

theorem Kept.step {h h' : Heap} (k : Kept h h') (p : HPool) : StepOk h p h' p := ⟨k.evolve _, Or.inl rfl⟩

theorem StepOk.kept {h h1 h2 : Heap} {p p' : HPool} (s : Sep h p) (k : StepOk h p h1 p') (l : Kept h1 h2) : StepOk h p h2 p' :=
  k.trans s (l.step p')

theorem StepOk.at {c : Rights} {h h' : Heap} {p p' : HPool} {x : Nat} {v : U256} (k : StepOk h p h' p') (a : At c h x v)
    (hx : x ∉ p.writes) : At c h' x v := k.ev.at a hx

theorem StepOk.not_mem {h h' : Heap} {p p' : HPool} {x : Nat} (k : StepOk h p h' p') (lt : x < h.next) (hx : x ∉ p.writes) :
    x ∉ p'.writes := by
  intro hm
  rcases k.ev.mem hm with h1 | h1
  · exact hx h1
  · omega

theorem liquidity_stored {h h' : Heap} {p : HPool} {v : U256} (s : Sep h p) (st : Stored h p.liquidity h' v) :
    StepOk h p h' p ∧ p.view h' = { p.view h with liquidity := v } := by
  refine ⟨⟨(Evolve.refl _ _).stored st (by simp [HPool.writes]), Or.inl rfl⟩, ?_⟩
  rw [← (liquidity_step s v).2]
  refine HPool.view_congr fun r hr => ?_
  have hl : r < h.next := by
    rcases List.mem_cons.1 hr with rfl | hr
    · exact s.priceLt
    · exact s.safe.lt r hr
  by_cases e : r = p.liquidity
  · rw [e, st.val, write_same]
  · rw [st.cell r hl e, write_other _ _ e]

theorem growth_stored {h h1 h2 : Heap} {p : HPool} {u v : U256} (s : Sep h p) (st : Stored h p.growth0 h1 u)
    (st' : Stored h1 p.growth1 h2 v) :
    StepOk h p h2 p ∧ p.view h2 = { p.view h with growth0 := u, growth1 := v } := by
  refine ⟨⟨((Evolve.refl _ _).stored st (by simp [HPool.writes])).stored st' (by simp [HPool.writes]), Or.inl rfl⟩, ?_⟩
  rw [← (growth_step s u v).2]
  refine HPool.view_congr fun r hr => ?_
  have hl : r < h.next := by
    rcases List.mem_cons.1 hr with rfl | hr
    · exact s.priceLt
    · exact s.safe.lt r hr
  by_cases e : r = p.growth1
  · rw [e, st'.val, write_same]
  · rw [st'.cell r (lt_of_lt_of_le hl st.le) e, write_other _ _ e]
    by_cases e' : r = p.growth0
    · rw [e', st.val, write_same]
    · rw [st.cell r hl e', write_other _ _ e']

theorem owed_stored {h h1 h2 : Heap} {p : HPool} {k : String} {i : HInfo} {u v : U256} (s : Sep h p)
    (hi : hlookup p.positions k = some i) (st : Stored h i.owed0 h1 u) (st' : Stored h1 i.owed1 h2 v) :
    StepOk h p h2 p ∧ p.view h2 =
      { p.view h with positions := Pool.setPos (p.view h).positions k { i.view h with owed0 := u, owed1 := v } } := by
  have m : ∀ r ∈ i.refs, r ∈ p.writes := fun r hr => by simp [HPool.writes, hlookup_refs hi r hr]
  refine ⟨⟨((Evolve.refl _ _).stored st (m _ (by simp [HInfo.refs]))).stored st' (m _ (by simp [HInfo.refs])), Or.inl rfl⟩, ?_⟩
  rw [← (owed_step s hi u v).2]
  refine HPool.view_congr fun r hr => ?_
  have hl : r < h.next := by
    rcases List.mem_cons.1 hr with rfl | hr
    · exact s.priceLt
    · exact s.safe.lt r hr
  by_cases e : r = i.owed1
  · rw [e, st'.val, write_same]
  · rw [st'.cell r (lt_of_lt_of_le hl st.le) e, write_other _ _ e]
    by_cases e' : r = i.owed0
    · rw [e', st.val, write_same]
    · rw [st.cell r hl e', write_other _ _ e']

theorem Tri.when {γ δ : Type} {c : Rights} {h : Heap} {b : Prop} [Decidable b] {m : HM Unit} {f : HM γ} {y y' : Go δ}
    {S : γ → Heap → δ → Prop} (h1 : b → Tri c (m >>= fun _ => f) h y S) (h2 : ¬ b → Tri c f h y' S) :
    Tri c (whenM (decide b) m >>= fun _ => f) h (if b then y else y') S := by
  by_cases hb : b
  · rw [decide_eq_true hb, if_pos hb]; exact h1 hb
  · rw [decide_eq_false hb, if_neg hb]; exact h2 hb

theorem ofWord_zero : ofWord 0 = zero := by decide

section
variable {c : Rights} {h : Heap} {p : HPool}

/-! ### Plain mints and burns -/

theorem tri_modifyPosition (o : PoolOk c h p) (lower upper : Int) {amount : Nat} {v : U256} (a : At c h amount v)
    (na : amount ∉ p.writes) :
    Tri c (Ptr.modifyPosition p lower upper amount) h ((p.view h).modifyPosition lower upper v) (fun q h' b =>
      b = q.view h' ∧ StepOk h p h' q) := by
  unfold Ptr.modifyPosition Pool.modifyPosition
  refine Tri.lift_bind fun _ => ?_
  have nt : amount ∉ p.ticks.refs := fun hm => na (by simp [HPool.writes, hm])
  obtain ⟨_, ⟨_, ng0, ng1⟩, _, _⟩ := o.sep.apart
  refine (tri_updateTick o.consts o.ticks lower p.tick a o.growth0 o.growth1 nt false).bind ?_
  rintro x h1 _ ⟨rfl, e1⟩
  have hw : ∀ r ∈ p.ticks.refs, constEnd ≤ r := fun r hr => o.high r (by simp [HPool.writes, hr])
  have nt1 : amount ∉ x.2.refs := by
    intro hm
    rcases e1.mem hm with h2 | h2
    · exact nt h2
    · have := a.lt; omega
  refine (tri_updateTick (o.consts.evolve e1 hw) (o.ticks.evolve e1) upper p.tick (e1.at a nt) (e1.at o.growth0 ng0)
    (e1.at o.growth1 ng1) nt1 true).bind ?_
  rintro y h2 _ ⟨rfl, e2⟩
  refine Tri.refines_bind (clearIf_refines x.1 h2 y.2 lower) ?_
  rintro t1 _ ⟨rfl, e3⟩
  refine Tri.refines_bind (clearIf_refines y.1 h2 t1 upper) ?_
  rintro t2 _ ⟨rfl, e4⟩
  have e := ((e1.trans e2).trans e3).trans e4
  obtain ⟨k1, k2⟩ := ticks_step o.sep e
  have o2 := o.step k1
  refine Tri.when (fun _ => ?_) fun _ => Tri.ret ⟨k2.symm, k1⟩
  refine (tri_add (o2.can _ (by simp [HPool.writes])) o2.liquidity (e.at a nt)).step fun _ h3 s3 => ?_
  obtain ⟨m1, m2⟩ := liquidity_stored o2.sep s3
  refine Tri.ret ⟨?_, k1.trans o.sep m1⟩
  refine Eq.trans ?_ m2.symm
  rw [k2]

theorem tri_mint (o : PoolOk c h p) (lower upper : Int) {amount : Nat} {v : U256} (a : At c h amount v) (na : amount ∉ p.writes) :
    Tri c (Ptr.mint p lower upper amount) h ((p.view h).mint lower upper v) (fun q h' b => b = q.view h' ∧ StepOk h p h' q) := by
  unfold Ptr.mint Pool.mint
  exact Tri.load_bind a (Tri.load_bind o.consts.zero (Tri.lift_bind fun _ => tri_modifyPosition o lower upper a na))

theorem tri_burn (o : PoolOk c h p) (lower upper : Int) {amount : Nat} {v : U256} (a : At c h amount v) :
    Tri c (Ptr.burn p lower upper amount) h ((p.view h).burn lower upper v) (fun q h' b => b = q.view h' ∧ StepOk h p h' q) := by
  unfold Ptr.burn Pool.burn
  refine (mk_neg a).fresh1 fun m h1 k1 am lm => ?_
  rw [← o.sep.view_kept k1]
  refine (tri_modifyPosition (o.step (k1.step p)) lower upper am fun hm => ?_).mono ?_
  · have := o.sep.safe.lt _ hm; omega
  · rintro q h2 b ⟨rfl, k2⟩
    exact ⟨rfl, (k1.step p).trans o.sep k2⟩

/-! ### Flashes -/

theorem tri_flash (o : PoolOk c h p) {x y : Nat} {vx vy : U256} (ax : At c h x vx) (ay : At c h y vy) :
    Tri c (Ptr.flash p x y) h ((p.view h).flash vx vy) (fun q h' b => b = q.view h' ∧ StepOk h p h' q) := by
  unfold Ptr.flash Pool.flash
  refine Tri.load_bind o.liquidity (Tri.lift_bind fun _ => ?_)
  refine (tri_newGoInt o.base p.fee).fresh1 fun a h1 k1 aa _ => ?_
  refine (tri_new aa.base (ofWord 1000000)).fresh1 fun b h2 k2 ab _ => ?_
  have k12 := k1.trans k2
  refine (tri_mulDivRoundingUp (o.consts.keep k12) (ax.keep k12) (aa.keep k2) ab).fresh fun f0 h3 v0 k3 af0 _ => ?_
  have k13 := k12.trans k3
  refine (tri_newGoInt af0.base p.fee).fresh1 fun d h4 k4 ad _ => ?_
  refine (tri_new ad.base (ofWord 1000000)).fresh1 fun e h5 k5 ae _ => ?_
  have k15 := (k13.trans k4).trans k5
  refine (tri_mulDivRoundingUp (o.consts.keep k15) (ay.keep k15) (ad.keep k5) ae).fresh fun f1 h6 v1 k6 af1 _ => ?_
  have k16 := k15.trans k6
  refine (tri_mulDiv ((af0.keep k4).keep k5 |>.keep k6) (o.consts.keep k16).q128 (o.liquidity.keep k16)).fresh
    fun g0 h7 w0 k7 ag0 l7 => ?_
  have k17 := k16.trans k7
  refine (tri_mulDiv (af1.keep k7) (o.consts.keep k17).q128 (o.liquidity.keep k17)).fresh fun g1 h8 w1 k8 ag1 l8 => ?_
  have k18 := k17.trans k8
  have o8 := o.step (k18.step p)
  have lt := o.sep.lt
  have n01 := o.sep.apart.1.2.2
  have le18 := k18.le
  have le17 := k17.le
  refine (tri_add (o.can _ (by simp [HPool.writes])) o8.growth0 (ag0.keep k8)).step fun _ h9 s9 => ?_
  refine (tri_add (o.can _ (by simp [HPool.writes])) (s9.at o8.growth1 n01.symm) (s9.at ag1 (by have := k17.le; omega))).step
    fun _ h10 s10 => ?_
  obtain ⟨m1, m2⟩ := growth_stored o8.sep s9 s10
  refine Tri.ret ⟨?_, (k18.step p).trans o.sep m1⟩
  rw [m2, o.sep.view_kept k18]

/-! ### Positions -/

theorem tri_newPosition (hb : c.base ≤ h.next) :
    Tri c Ptr.newPosition h (.ok Info.new) (fun i h' b => b = i.view h' ∧ NewRefs h h' i.refs) := by
  unfold Ptr.newPosition
  rw [ofWord_zero]
  refine (tri_new hb zero).fresh1 fun a h1 k1 aa l1 => ?_
  refine (tri_new aa.base zero).fresh1 fun b h2 k2 ab l2 => ?_
  refine (tri_new ab.base zero).fresh1 fun d h3 k3 ad l3 => ?_
  refine (tri_new ad.base zero).fresh1 fun e h4 k4 ae l4 => ?_
  refine (tri_new ae.base zero).fresh1 fun f h5 k5 af l5 => ?_
  have t1 := aa.lt
  have t2 := ab.lt
  have t3 := ad.lt
  have t4 := ae.lt
  have t5 := af.lt
  have e1 := k1.le
  have e2 := k2.le
  have e3 := k3.le
  have e4 := k4.le
  have e5 := k5.le
  refine Tri.ret ⟨?_, (((k1.trans k2).trans k3).trans k4).trans k5, ?_, ?_⟩
  · unfold HInfo.view Info.new
    dsimp only
    rw [((((aa.keep k2).keep k3).keep k4).keep k5).val, (((ab.keep k3).keep k4).keep k5).val, ((ad.keep k4).keep k5).val,
      (ae.keep k5).val, af.val]
  · unfold HInfo.refs
    simp only [List.nodup_cons, List.mem_cons, List.not_mem_nil, or_false, not_or, List.nodup_nil, not_false_eq_true,
      and_true]
    refine ⟨⟨?_, ?_, ?_, ?_⟩, ⟨?_, ?_, ?_⟩, ⟨?_, ?_⟩, ?_⟩ <;> omega
  · intro r hr
    unfold HInfo.refs at hr
    simp only [List.mem_cons, List.not_mem_nil, or_false] at hr
    omega

theorem tri_posOrNew (hb : c.base ≤ h.next) (l : List (String × HInfo)) (k : String) :
    Tri c (Ptr.posOrNew (hlookup l k)) h (.ok (Pool.posOrNew ((hlookup l k).map (HInfo.view h)))) (fun i h' b =>
      b = i.view h' ∧ Kept h h' ∧ Evolve h h' (refsAt l k) i.refs) := by
  unfold refsAt Ptr.posOrNew Pool.posOrNew
  cases hlookup l k with
  | none =>
    refine (tri_newPosition hb).mono ?_
    rintro i h' b ⟨rfl, n⟩
    exact ⟨rfl, n.kept, n.evolve (by rw [List.append_nil])⟩
  | some i => exact Tri.ret ⟨rfl, Kept.refl _, Evolve.refl _ _⟩

/-- what an update does to the cells of a position -/
structure InfoOk (h : Heap) (i : HInfo) (in0 in1 : Nat) (a : HInfo) (h' : Heap) : Prop where
  le : h.next ≤ h'.next
  eq : a = ⟨a.liquidity, in0, in1, i.owed0, i.owed1⟩
  new : h.next ≤ a.liquidity ∧ a.liquidity < h'.next
  cell : ∀ r, r < h.next → r ≠ i.owed0 → r ≠ i.owed1 → h'.cell r = h.cell r

theorem tri_updateInfo (kc : Consts c h) {i : HInfo} (o : Own c h i.refs) {delta in0 in1 : Nat} {vd v0 v1 : U256}
    (ad : At c h delta vd) (a0 : At c h in0 v0) (a1 : At c h in1 v1) (n0 : in0 ∉ i.refs) (n1 : in1 ∉ i.refs) :
    Tri c (Ptr.updateInfo i delta in0 in1) h ((i.view h).update vd v0 v1) (fun a h' b =>
      b = a.view h' ∧ InfoOk h i in0 in1 a h') := by
  unfold Ptr.updateInfo Info.update
  have m0 : i.liquidity ∈ i.refs := by simp [HInfo.refs]
  have m1 : i.inside0 ∈ i.refs := by simp [HInfo.refs]
  have m2 : i.inside1 ∈ i.refs := by simp [HInfo.refs]
  have m3 : i.owed0 ∈ i.refs := by simp [HInfo.refs]
  have m4 : i.owed1 ∈ i.refs := by simp [HInfo.refs]
  obtain ⟨_, _, n34⟩ := info_ne o.safe.nodup
  refine (mk_add (o.at m0) ad).fresh1 fun n h1 k1 an ln => ?_
  refine (mk_sub (a0.keep k1) ((o.at m1).keep k1)).fresh1 fun t0 h2 k2 at0 _ => ?_
  have k12 := k1.trans k2
  refine (mk_sub (a1.keep k12) ((o.at m2).keep k12)).fresh1 fun t1 h3 k3 at1 _ => ?_
  have k13 := k12.trans k3
  refine (tri_mulDiv (at0.keep k3) ((o.at m0).keep k13) (kc.keep k13).q128).fresh fun w0 h4 vw0 k4 aw0 lw0 => ?_
  have k14 := k13.trans k4
  refine (tri_mulDiv (at1.keep k4) ((o.at m0).keep k14) (kc.keep k14).q128).fresh fun w1 h5 vw1 k5 aw1 lw1 => ?_
  have k15 := k14.trans k5
  have lt3 := o.safe.lt _ m3
  have lt4 := o.safe.lt _ m4
  have le13 := k13.le
  have le14 := k14.le
  have tn := an.lt
  refine (tri_add (o.can _ m3) ((o.at m3).keep k15) (aw0.keep k5)).step fun _ h6 s6 => ?_
  refine (tri_add (o.can _ m4) (s6.at ((o.at m4).keep k15) n34.symm) (s6.at aw1 (by omega))).step fun _ h7 s7 => ?_
  have ne0 : in0 ≠ i.owed0 := by rintro rfl; exact n0 m3
  have ne0' : in0 ≠ i.owed1 := by rintro rfl; exact n0 m4
  have ne1 : in1 ≠ i.owed0 := by rintro rfl; exact n1 m3
  have ne1' : in1 ≠ i.owed1 := by rintro rfl; exact n1 m4
  have an5 := (((an.keep k2).keep k3).keep k4).keep k5
  have an7 := s7.at (s6.at an5 (by omega)) (by omega)
  have z0 := s7.at (s6.at (a0.keep k15) ne0) ne0'
  have z1 := s7.at (s6.at (a1.keep k15) ne1) ne1'
  have le57 := le_trans s6.le s7.le
  refine Tri.ret ⟨?_, le_trans k15.le le57, rfl, ⟨ln, an7.lt⟩, ?_⟩
  · unfold HInfo.view
    dsimp only
    rw [an7.val, z0.val, z1.val, s7.val, s7.cell _ (lt_of_lt_of_le (lt_of_lt_of_le lt3 k15.le) s6.le) n34, s6.val]
  · intro r hr q0 q1
    have hr5 := lt_of_lt_of_le hr k15.le
    rw [s7.cell r (lt_of_lt_of_le hr5 s6.le) q1, s6.cell r hr5 q0, k15.cell r hr]

theorem tri_updateBounds (o : PoolOk c h p) (lower upper : Int) {amount : Nat} {v : U256} (a : At c h amount v)
    (na : amount ∉ p.writes) :
    Tri c (Ptr.updateBounds p lower upper amount) h ((p.view h).updateBounds lower upper v) (fun x h' b =>
      b = (x.1, x.2.1, x.2.2.view h') ∧ Evolve h h' p.ticks.refs x.2.2.refs) := by
  unfold Ptr.updateBounds Pool.updateBounds
  refine Tri.load_bind a (Tri.ite (fun _ => Tri.ret ⟨rfl, Evolve.refl _ _⟩) fun _ => ?_)
  have nt : amount ∉ p.ticks.refs := fun hm => na (by simp [HPool.writes, hm])
  obtain ⟨_, ⟨_, ng0, ng1⟩, _, _⟩ := o.sep.apart
  refine (tri_updateTick o.consts o.ticks lower p.tick a o.growth0 o.growth1 nt false).bind ?_
  rintro x h1 _ ⟨rfl, e1⟩
  have hw : ∀ r ∈ p.ticks.refs, constEnd ≤ r := fun r hr => o.high r (by simp [HPool.writes, hr])
  have nt1 : amount ∉ x.2.refs := by
    intro hm
    rcases e1.mem hm with h2 | h2
    · exact nt h2
    · have := a.lt; omega
  refine (tri_updateTick (o.consts.evolve e1 hw) (o.ticks.evolve e1) upper p.tick (e1.at a nt) (e1.at o.growth0 ng0)
    (e1.at o.growth1 ng1) nt1 true).bind ?_
  rintro y h2 _ ⟨rfl, e2⟩
  exact Tri.ret ⟨rfl, e1.trans e2⟩

theorem tri_updatePosition (o : PoolOk c h p) (lower upper : Int) {amount : Nat} {v : U256} (a : At c h amount v)
    (na : amount ∉ p.writes) :
    Tri c (Ptr.updatePosition p lower upper amount) h ((p.view h).updatePosition lower upper v) (fun x h' b =>
      b = (x.1.view h', x.2.view h') ∧ StepOk h p h' x.2 ∧
      hlookup x.2.positions (Pool.posKey lower upper) = some x.1 ∧ x.2.tick = p.tick ∧ x.2.liquidity = p.liquidity) := by
  unfold Ptr.updatePosition Pool.updatePosition
  refine (tri_updateBounds o lower upper a na).bind ?_
  rintro ⟨c1, c2, t⟩ h1 _ ⟨rfl, eb⟩
  dsimp only at eb ⊢
  obtain ⟨k1, k2⟩ := ticks_step o.sep eb
  have o1 := o.step k1
  obtain ⟨_, ⟨_, ng0, ng1⟩, _, _⟩ := o.sep.apart
  refine (tri_getFeeGrowthInside o1.ticks lower upper p.tick (eb.at o.growth0 ng0) (eb.at o.growth1 ng1)).bind ?_
  rintro ⟨i0, i1⟩ h2 ⟨w0, w1⟩ ⟨k12, ai0, ai1, li0, li1, ne01⟩
  dsimp only at ai0 ai1 li0 li1 ne01 ⊢
  have hpos : (p.view h).positions (Pool.posKey lower upper) =
      (hlookup p.positions (Pool.posKey lower upper)).map (HInfo.view h2) := by
    have e1 := congrFun (congrArg Pool.positions k2) (Pool.posKey lower upper)
    have e2 := congrFun (congrArg Pool.positions (o1.sep.view_kept k12)) (Pool.posKey lower upper)
    exact e1.symm.trans e2.symm
  rw [hpos]
  refine (tri_posOrNew ai0.base p.positions (Pool.posKey lower upper)).step ?_
  rintro q h3 ⟨hq, k23, eq⟩
  rw [hq]
  have k13 := k12.trans k23
  have hR : Own c h1 (refsAt p.positions (Pool.posKey lower upper)) :=
    ⟨refsAt_safe o1.sep.pos _, fun r hr => o1.can r (by simp [HPool.writes, refsAt_sub r hr]), o1.base⟩
  have oq : Own c h3 q.refs := (hR.evolve (k12.evolve _)).evolve eq
  have nq : ∀ r, h1.next ≤ r → r < h2.next → r ∉ q.refs := by
    intro r hr hr' hm
    rcases eq.mem hm with h4 | h4
    · have := hR.safe.lt r h4; omega
    · omega
  have a1 := eb.at a fun hm => na (by simp [HPool.writes, hm])
  have t0 := ai0.lt
  have t1 := ai1.lt
  refine (tri_updateInfo (o1.consts.keep k13) oq (a1.keep k13) (ai0.keep k23) (ai1.keep k23) (nq _ li0 t0) (nq _ li1 t1)).bind ?_
  rintro pos h4 _ ⟨rfl, u⟩
  have e13 := k13.le
  have e12 := k12.le
  have e23 := k23.le
  have u1 := u.new
  have u2 := u.le
  have ql : ∀ r ∈ q.refs, r < h3.next := oq.safe.lt
  have mo0 : q.owed0 ∈ q.refs := by simp [HInfo.refs]
  have mo1 : q.owed1 ∈ q.refs := by simp [HInfo.refs]
  have ev : Evolve h1 h4 (refsAt p.positions (Pool.posKey lower upper)) pos.refs := by
    have hrefs : pos.refs = [pos.liquidity, i0, i1, q.owed0, q.owed1] := by rw [u.eq]; rfl
    refine Evolve.of_nodup (le_trans e13 u2) ?_ ?_ ?_
    · intro r hr hm
      have nn : ∀ x ∈ q.refs, r ≠ x := by
        rintro x hx rfl
        rcases eq.mem hx with h5 | h5
        · exact hm h5
        · omega
      rw [u.cell r (by omega) (nn _ mo0) (nn _ mo1), k13.cell r hr]
    · rw [hrefs]
      have n34 := (info_ne oq.safe.nodup).2.2
      have l0 := ql _ mo0
      have l1 := ql _ mo1
      have p0 : ∀ x ∈ q.refs, i0 ≠ x := by rintro x hx rfl; exact nq _ li0 t0 hx
      have p1 : ∀ x ∈ q.refs, i1 ≠ x := by rintro x hx rfl; exact nq _ li1 t1 hx
      have p00 := p0 _ mo0
      have p01 := p0 _ mo1
      have p10 := p1 _ mo0
      have p11 := p1 _ mo1
      simp only [List.nodup_cons, List.mem_cons, List.not_mem_nil, or_false, not_or, List.nodup_nil, not_false_eq_true,
        and_true]
      refine ⟨⟨?_, ?_, ?_, ?_⟩, ⟨ne01, p00, p01⟩, ⟨p10, p11⟩, n34⟩ <;> omega
    · intro r hr
      rw [hrefs] at hr
      have aux : ∀ x ∈ q.refs, x ∈ refsAt p.positions (Pool.posKey lower upper) ∨ (h1.next ≤ x ∧ x < h4.next) := by
        intro x hx
        rcases eq.mem hx with h5 | h5
        · exact .inl h5
        · exact .inr (by omega)
      simp only [List.mem_cons, List.not_mem_nil, or_false] at hr
      rcases hr with rfl | rfl | rfl | rfl | rfl
      · exact .inr (by omega)
      · exact .inr (by omega)
      · exact .inr (by omega)
      · exact aux _ mo0
      · exact aux _ mo1
  obtain ⟨m1, m2⟩ := positions_step (p := { p with ticks := t }) o1.sep ev
  have o2 := o1.step m1
  have hticks : t.view h1 = t.view h4 := (congrArg Pool.ticks m2).symm
  rw [hticks]
  have na1 : amount ∉ ({ p with ticks := t } : HPool).writes := k1.not_mem a.lt na
  have a4 := m1.at a1 na1
  refine Tri.load_bind a4 ?_
  refine Tri.refines_bind (clearIf_refines _ h4 t lower) ?_
  rintro t1 _ ⟨rfl, e3⟩
  refine Tri.refines_bind (clearIf_refines _ h4 t1 upper) ?_
  rintro t2 _ ⟨rfl, e4⟩
  obtain ⟨n1, n2⟩ := ticks_step (p := { p with ticks := t, positions := hset p.positions (Pool.posKey lower upper) pos }) o2.sep
    (e3.trans e4)
  refine Tri.ret ⟨?_, (k1.trans o.sep m1).trans o.sep n1, ?_, rfl, rfl⟩
  · apply Prod.ext
    · rfl
    · refine Eq.trans ?_ n2.symm
      rw [m2, k2]
  · show hlookup (hset p.positions (Pool.posKey lower upper) pos) (Pool.posKey lower upper) = some pos
    rw [hlookup_hset, if_pos rfl]

theorem tri_amountsFor (o : PoolOk c h p) (lower upper : Int) {amount : Nat} {v : U256} (a : At c h amount v) :
    Tri c (Ptr.amountsFor p lower upper amount) h ((p.view h).amountsFor lower upper v) (fun r h' v => Fresh2 c h r h' v) := by
  unfold Ptr.amountsFor Pool.amountsFor
  rw [ofWord_zero]
  have kc := o.consts
  refine Tri.ite (fun _ => ?_) fun _ => Tri.ite (fun _ => ?_) fun _ => ?_
  · refine (tri_getSqrtRatioAtTick kc lower).fresh fun x h1 vx k1 ax _ => ?_
    refine (tri_getSqrtRatioAtTick (kc.keep k1) upper).fresh fun y h2 vy k2 ay _ => ?_
    have k12 := k1.trans k2
    refine (tri_getAmount0DeltaRounded (kc.keep k12) (ax.keep k2) ay (a.keep k12)).fresh fun r h3 vr k3 ar lr => ?_
    refine (tri_new ar.base zero).fresh1 fun s h4 k4 as_ ls => ?_
    have := ar.lt
    exact Tri.ret ⟨(k12.trans k3).trans k4, ar.keep k4, as_, le_trans k12.le lr, le_trans (k12.trans k3).le ls, by dsimp only; omega⟩
  · refine (tri_getSqrtRatioAtTick kc upper).fresh fun x h1 vx k1 ax _ => ?_
    refine (tri_getAmount0DeltaRounded (kc.keep k1) (o.price.keep k1) ax (a.keep k1)).fresh fun r h2 vr k2 ar lr => ?_
    have k12 := k1.trans k2
    refine (tri_getSqrtRatioAtTick (kc.keep k12) lower).fresh fun y h3 vy k3 ay _ => ?_
    have k13 := k12.trans k3
    refine (tri_getAmount1DeltaRounded (kc.keep k13) (o.price.keep k13) ay (a.keep k13)).fresh fun s h4 vs k4 as_ ls => ?_
    have := ar.lt
    have := k3.le
    exact Tri.ret ⟨k13.trans k4, (ar.keep k3).keep k4, as_, le_trans k1.le lr, le_trans k13.le ls, by dsimp only; omega⟩
  · refine (tri_new o.base zero).fresh1 fun s h1 k1 as_ ls => ?_
    refine (tri_getSqrtRatioAtTick (kc.keep k1) lower).fresh fun x h2 vx k2 ax _ => ?_
    have k12 := k1.trans k2
    refine (tri_getSqrtRatioAtTick (kc.keep k12) upper).fresh fun y h3 vy k3 ay _ => ?_
    have k13 := k12.trans k3
    refine (tri_getAmount1DeltaRounded (kc.keep k13) (ax.keep k3) ay (a.keep k13)).fresh fun r h4 vr k4 ar lr => ?_
    have := as_.lt
    have := k2.le
    have := k3.le
    exact Tri.ret ⟨k13.trans k4, ((as_.keep k2).keep k3).keep k4, ar, ls, le_trans k13.le lr, by dsimp only; omega⟩

/-- A returned number: it has its value, it is new, and the pool does not hold it. -/
structure Res (c : Rights) (h : Heap) (q : HPool) (h' : Heap) (r : Nat) (v : U256) : Prop where
  at_ : At c h' r v
  new : h.next ≤ r
  writes : r ∉ q.writes
  price : r ≠ q.price

/-- a number that is newer than a pool -/
theorem Res.of {h h1 h2 : Heap} {q : HPool} {r : Nat} {v : U256} (s : Sep h1 q) (le : h.next ≤ h1.next) (a : At c h2 r v)
    (l : h1.next ≤ r) : Res c h q h2 r v :=
  ⟨a, le_trans le l, fun hm => by have := s.safe.lt r hm; omega, fun e => by have := s.priceLt; omega⟩

/-- The outcome of a call that returns two numbers and changes a pool. -/
structure OpOk (c : Rights) (h : Heap) (p : HPool) (a : Nat × Nat × HPool) (h' : Heap) (b : U256 × U256 × Pool) : Prop where
  step : StepOk h p h' a.2.2
  pool : b.2.2 = a.2.2.view h'
  fst : Res c h a.2.2 h' a.1 b.1
  snd : Res c h a.2.2 h' a.2.1 b.2.1
  ne : a.1 ≠ a.2.1

theorem tri_modifyStrategy (o : PoolOk c h p) (lower upper : Int) {amount : Nat} {v : U256} (a : At c h amount v)
    (na : amount ∉ p.writes) :
    Tri c (Ptr.modifyPositionStrategy p lower upper amount) h ((p.view h).modifyPositionStrategy lower upper v) (fun x h' b =>
      b.1 = x.1.view h' ∧ hlookup x.2.2.2.positions (Pool.posKey lower upper) = some x.1 ∧ OpOk c h p x.2 h' b.2) := by
  unfold Ptr.modifyPositionStrategy Pool.modifyPositionStrategy
  refine Tri.lift_bind fun _ => ?_
  refine (tri_updatePosition o lower upper a na).bind ?_
  rintro ⟨i, p1⟩ h1 _ ⟨rfl, k1, k2, k3, k4⟩
  dsimp only at k1 k2 k3 k4 ⊢
  have o1 := o.step k1
  have a1 := k1.at a na
  have hiv : ∀ {g g' : Heap}, p1.view g = p1.view g' → i.view g = i.view g' := by
    intro g g' e
    have := congrFun (congrArg Pool.positions e) (Pool.posKey lower upper)
    have f : ∀ hh, (p1.view hh).positions (Pool.posKey lower upper) = some (i.view hh) := by
      intro hh
      show (hlookup p1.positions _).map _ = _
      rw [k2]; rfl
    rw [f, f] at this
    exact Option.some.inj this
  refine Tri.load_bind a1 (Tri.ite (fun _ => ?_) fun _ => ?_)
  · refine (tri_clone o1.consts.zero).fresh1 fun x h2 k12 ax lx => ?_
    refine (tri_clone (o1.consts.keep k12).zero).fresh1 fun y h3 k23 ay ly => ?_
    have k13 := k12.trans k23
    have hv := o1.sep.view_kept k13
    refine Tri.ret ⟨(hiv hv).symm, k2, k1.kept o.sep k13, hv.symm, Res.of o1.sep k1.ev.le (ax.keep k23) lx,
      Res.of o1.sep k1.ev.le ay (le_trans k12.le ly), ?_⟩
    have := ax.lt
    dsimp only; omega
  · refine (tri_amountsFor o1 lower upper a1).bind ?_
    rintro ⟨x, y⟩ h2 ⟨vx, vy⟩ ⟨k12, ax, ay, lx, ly, nxy⟩
    dsimp only at ax ay lx ly nxy ⊢
    have hv := o1.sep.view_kept k12
    have o2 := o1.step (k12.step p1)
    refine Tri.when (b := lower ≤ p.tick ∧ p.tick < upper) (fun _ => ?_) fun _ => ?_
    · refine (tri_add (o2.can _ (by simp [HPool.writes])) o2.liquidity (a1.keep k12)).step fun _ h3 s3 => ?_
      obtain ⟨m1, m2⟩ := liquidity_stored o2.sep s3
      have ll := o1.sep.lt.1
      refine Tri.ret ⟨?_, k2, (k1.kept o.sep k12).trans o.sep m1, ?_, Res.of o1.sep k1.ev.le (s3.at ax (by dsimp only; omega)) lx,
        Res.of o1.sep k1.ev.le (s3.at ay (by dsimp only; omega)) ly, nxy⟩
      · dsimp only
        rw [← hiv hv]
        have f : ∀ hh, (p1.view hh).positions (Pool.posKey lower upper) = some (i.view hh) := by
          intro hh
          show (hlookup p1.positions _).map _ = _
          rw [k2]; rfl
        have := congrFun (congrArg Pool.positions m2) (Pool.posKey lower upper)
        rw [f] at this
        exact (Option.some.inj (this.trans (f h2))).symm
      · dsimp only
        rw [m2, hv]
    · exact Tri.ret ⟨(hiv hv).symm, k2, k1.kept o.sep k12, hv.symm, Res.of o1.sep k1.ev.le ax lx, Res.of o1.sep k1.ev.le ay ly, nxy⟩

theorem tri_mintStrategy (o : PoolOk c h p) (lower upper : Int) {amount : Nat} {v : U256} (a : At c h amount v)
    (na : amount ∉ p.writes) :
    Tri c (Ptr.mintStrategy p lower upper amount) h ((p.view h).mintStrategy lower upper v) (fun x h' b => OpOk c h p x h' b) := by
  unfold Ptr.mintStrategy Pool.mintStrategy
  refine Tri.load_bind a (Tri.load_bind o.consts.zero (Tri.lift_bind fun _ => ?_))
  refine (tri_modifyStrategy o lower upper a na).bind ?_
  rintro x h1 b ⟨_, _, k⟩
  exact Tri.ret k

theorem tri_burnStrategy (o : PoolOk c h p) (lower upper : Int) {amount : Nat} {v : U256} (a : At c h amount v) :
    Tri c (Ptr.burnStrategy p lower upper amount) h ((p.view h).burnStrategy lower upper v) (fun x h' b => OpOk c h p x h' b) := by
  unfold Ptr.burnStrategy Pool.burnStrategy
  refine (mk_neg a).fresh1 fun m h1 k1 am lm => ?_
  rw [← o.sep.view_kept k1]
  have o1 := o.step (k1.step p)
  refine (tri_modifyStrategy o1 lower upper am fun hm => by have := o.sep.safe.lt _ hm; omega).bind ?_
  rintro ⟨i, x, y, q⟩ h2 ⟨vi, vx, vy, w⟩ ⟨hi, hl, ⟨k2, hp, rx, ry, nxy⟩⟩
  dsimp only at hi hl k2 hp rx ry nxy ⊢
  subst hi hp
  have o2 := o1.step k2
  have lek : h.next ≤ h2.next := le_trans k1.le k2.ev.le
  refine (mk_neg rx.at_).fresh1 fun x' h3 k3 ax' lx' => ?_
  refine (mk_neg (ry.at_.keep k3)).fresh1 fun y' h4 k4 ay' ly' => ?_
  have k34 := k3.trans k4
  have o4 := o2.step (k34.step q)
  have mi : ∀ r ∈ i.refs, r ∈ q.writes := fun r hr => by simp [HPool.writes, hlookup_refs hl r hr]
  have m0 := mi i.owed0 (by simp [HInfo.refs])
  have m1 := mi i.owed1 (by simp [HInfo.refs])
  have n01 := (info_ne (hlookup_nodup o2.sep.pos.nodup hl)).2.2
  have l0 := o2.sep.safe.lt _ m0
  have l1 := o2.sep.safe.lt _ m1
  have e3 := k3.le
  refine (tri_add (o2.can _ m0) (o4.own.at m0) (ax'.keep k4)).step fun _ h5 s5 => ?_
  refine (tri_add (o2.can _ m1) (s5.at (o4.own.at m1) n01.symm) (s5.at ay' (by omega))).step fun _ h6 s6 => ?_
  obtain ⟨j1, j2⟩ := owed_stored o4.sep hl s5 s6
  have hc0 : h4.cell i.owed0 = h2.cell i.owed0 := k34.cell _ l0
  have hc1 : h4.cell i.owed1 = h2.cell i.owed1 := k34.cell _ l1
  have hiv : i.view h4 = i.view h2 := HInfo.view_congr fun r hr => k34.cell r (o2.sep.safe.lt r (mi r hr))
  have hk := (k1.step p).trans o.sep (k2.trans o1.sep ((k34.step q).trans o2.sep j1))
  have tx := ax'.lt
  refine Tri.ret ⟨hk, ?_, Res.of o2.sep lek (s6.at (s5.at (ax'.keep k4) (by omega)) (by omega)) lx',
    Res.of o2.sep lek (s6.at (s5.at ay' (by dsimp only; omega)) (by dsimp only; omega)) (le_trans e3 ly'), by dsimp only; omega⟩
  dsimp only
  rw [j2, o2.sep.view_kept k34, hiv, hc0, hc1]
  rfl

theorem tri_collectStrategy (o : PoolOk c h p) (lower upper : Int) :
    Tri c (Ptr.collectStrategy p lower upper) h ((p.view h).collectStrategy lower upper) (fun x h' b => OpOk c h p x h' b) := by
  unfold Ptr.collectStrategy Pool.collectStrategy
  show Tri c _ h (match (hlookup p.positions (Pool.posKey lower upper)).map (HInfo.view h) with
    | none => goPanic
    | some pos => _) _
  cases hi : hlookup p.positions (Pool.posKey lower upper) with
  | none => exact ⟨trivial, rfl⟩
  | some i =>
    have mi : ∀ r ∈ i.refs, r ∈ p.writes := fun r hr => by simp [HPool.writes, hlookup_refs hi r hr]
    have m0 := mi i.owed0 (by simp [HInfo.refs])
    have m1 := mi i.owed1 (by simp [HInfo.refs])
    have l0 := o.sep.safe.lt _ m0
    have l1 := o.sep.safe.lt _ m1
    dsimp only
    refine (tri_clone (o.own.at m0)).fresh1 fun x h1 k1 ax lx => ?_
    refine (tri_clone ((o.own.at m1).keep k1)).fresh1 fun y h2 k2 ay ly => ?_
    have k12 := k1.trans k2
    have o2 := o.step (k12.step p)
    have e1 := k1.le
    refine (tri_set (o.can _ m0) o2.consts.zero).step fun _ h3 s3 => ?_
    refine (tri_set (o.can _ m1) (o2.consts.stored s3 (o.high _ m0)).zero).step fun _ h4 s4 => ?_
    obtain ⟨j1, j2⟩ := owed_stored o2.sep hi s3 s4
    have tx := ax.lt
    refine Tri.ret ⟨(k12.step p).trans o.sep j1, ?_,
      Res.of o.sep (le_refl _) (s4.at (s3.at (ax.keep k2) (by omega)) (by omega)) lx,
      Res.of o.sep (le_refl _) (s4.at (s3.at ay (by dsimp only; omega)) (by dsimp only; omega)) (le_trans e1 ly), by dsimp only; omega⟩
    have hiv : i.view h2 = i.view h := HInfo.view_congr fun r hr => k12.cell r (o.sep.safe.lt r (mi r hr))
    dsimp only
    rw [j2, o.sep.view_kept k12, hiv]

end
end Uni
