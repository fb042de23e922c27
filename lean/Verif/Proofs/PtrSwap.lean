import Verif.Proofs.PtrPos
/-! # Swaps on memory agree with swaps of the value model -/
namespace Uni
open InPlace Ptr U256
open scoped List

section
variable {c : Rights} {h : Heap} {p : HPool}

/-- The state of the loop of a swap that started on the heap `h0`: the numbers of the state are new, those that are changed in
place are not shared, and the state on values is what they show. -/
structure SRel (c : Rights) (h0 : Heap) (p : HPool) (lim : Nat) (vlim : U256) (h : Heap) (s : Ptr.State) (v : SwapState) : Prop where
  ev : Evolve h0 h p.ticks.refs p.ticks.refs
  rem : At c h s.remaining v.remaining
  cal : At c h s.calculated v.calculated
  pri : At c h s.price v.price
  gro : At c h s.growth v.growth
  liq : At c h s.liquidity v.liquidity
  limit : At c h lim vlim
  tick : s.tick = v.tick
  ticks : v.ticks = p.ticks.view h
  newR : h0.next ≤ s.remaining
  newC : h0.next ≤ s.calculated
  newP : h0.next ≤ s.price
  newG : h0.next ≤ s.growth
  newL : h0.next ≤ s.liquidity
  newM : h0.next ≤ lim
  rc : s.remaining ≠ s.calculated
  rg : s.remaining ≠ s.growth
  rl : s.remaining ≠ s.liquidity
  rp : s.remaining ≠ s.price
  rm : s.remaining ≠ lim
  cg : s.calculated ≠ s.growth
  cl : s.calculated ≠ s.liquidity
  cp : s.calculated ≠ s.price
  cm : s.calculated ≠ lim
  gl : s.growth ≠ s.liquidity
  gp : s.growth ≠ s.price
  gm : s.growth ≠ lim
  lp : s.liquidity ≠ s.price
  lm : s.liquidity ≠ lim

namespace SRel
variable {h0 h1 : Heap} {lim : Nat} {vlim : U256} {s : Ptr.State} {v : SwapState}

theorem keep (o : PoolOk c h0 p) (r : SRel c h0 p lim vlim h s v) (k : Kept h h1) : SRel c h0 p lim vlim h1 s v :=
  { r with
    ev := r.ev.kept k
    rem := r.rem.keep k
    cal := r.cal.keep k
    pri := r.pri.keep k
    gro := r.gro.keep k
    liq := r.liq.keep k
    limit := r.limit.keep k
    ticks := r.ticks.trans (HTickData.view_congr fun x hx => k.cell x (lt_of_lt_of_le (o.sep.ticks.lt x hx) r.ev.le)).symm }

theorem view_new (o : PoolOk c h0 p) (r : SRel c h0 p lim vlim h s v) {z : Nat} {w : U256} (st : Stored h z h1 w)
    (hz : h0.next ≤ z) : p.ticks.view h1 = p.ticks.view h :=
  HTickData.view_congr fun x hx => st.cell x (lt_of_lt_of_le (o.sep.ticks.lt x hx) r.ev.le)
    (by have := o.sep.ticks.lt x hx; omega)

theorem setRem (o : PoolOk c h0 p) (r : SRel c h0 p lim vlim h s v) {w : U256} (st : Stored h s.remaining h1 w) :
    SRel c h0 p lim vlim h1 s { v with remaining := w } :=
  { r with
    ev := r.ev.storedNew st r.newR
    rem := st.at_self r.rem
    cal := st.at r.cal r.rc.symm
    pri := st.at r.pri r.rp.symm
    gro := st.at r.gro r.rg.symm
    liq := st.at r.liq r.rl.symm
    limit := st.at r.limit r.rm.symm
    ticks := r.ticks.trans (r.view_new o st r.newR).symm }

theorem setCal (o : PoolOk c h0 p) (r : SRel c h0 p lim vlim h s v) {w : U256} (st : Stored h s.calculated h1 w) :
    SRel c h0 p lim vlim h1 s { v with calculated := w } :=
  { r with
    ev := r.ev.storedNew st r.newC
    rem := st.at r.rem r.rc
    cal := st.at_self r.cal
    pri := st.at r.pri r.cp.symm
    gro := st.at r.gro r.cg.symm
    liq := st.at r.liq r.cl.symm
    limit := st.at r.limit r.cm.symm
    ticks := r.ticks.trans (r.view_new o st r.newC).symm }

theorem setGro (o : PoolOk c h0 p) (r : SRel c h0 p lim vlim h s v) {w : U256} (st : Stored h s.growth h1 w) :
    SRel c h0 p lim vlim h1 s { v with growth := w } :=
  { r with
    ev := r.ev.storedNew st r.newG
    rem := st.at r.rem r.rg
    cal := st.at r.cal r.cg
    pri := st.at r.pri r.gp.symm
    gro := st.at_self r.gro
    liq := st.at r.liq r.gl.symm
    limit := st.at r.limit r.gm.symm
    ticks := r.ticks.trans (r.view_new o st r.newG).symm }

theorem setLiq (o : PoolOk c h0 p) (r : SRel c h0 p lim vlim h s v) {w : U256} (st : Stored h s.liquidity h1 w) :
    SRel c h0 p lim vlim h1 s { v with liquidity := w } :=
  { r with
    ev := r.ev.storedNew st r.newL
    rem := st.at r.rem r.rl
    cal := st.at r.cal r.cl
    pri := st.at r.pri r.lp.symm
    gro := st.at r.gro r.gl
    liq := st.at_self r.liq
    limit := st.at r.limit r.lm.symm
    ticks := r.ticks.trans (r.view_new o st r.newL).symm }

/-- the ticks have changed -/
theorem setTicks (o : PoolOk c h0 p) (r : SRel c h0 p lim vlim h s v) (e : Evolve h h1 p.ticks.refs p.ticks.refs) :
    SRel c h0 p lim vlim h1 s { v with ticks := p.ticks.view h1 } := by
  have n : ∀ x, h0.next ≤ x → x ∉ p.ticks.refs := fun x hx hm => by have := o.sep.ticks.lt x hm; omega
  exact { r with
    ev := r.ev.trans e
    rem := e.at r.rem (n _ r.newR)
    cal := e.at r.cal (n _ r.newC)
    pri := e.at r.pri (n _ r.newP)
    gro := e.at r.gro (n _ r.newG)
    liq := e.at r.liq (n _ r.newL)
    limit := e.at r.limit (n _ r.newM)
    ticks := rfl }

theorem setTick (r : SRel c h0 p lim vlim h s v) (t : Int) :
    SRel c h0 p lim vlim h { s with tick := t } { v with tick := t } := { r with tick := rfl }

/-- the price pointer is replaced by that of `h1`, which is the same or newer than `h` -/
theorem setPri (o : PoolOk c h0 p) (r : SRel c h0 p lim vlim h s v) (k : Kept h h1) {x : Nat} {w : U256} (a : At c h1 x w)
    (hx : x = s.price ∨ h.next ≤ x) : SRel c h0 p lim vlim h1 { s with price := x } { v with price := w } := by
  have r1 := r.keep o k
  have l1 := r.rem.lt
  have l2 := r.cal.lt
  have l3 := r.gro.lt
  have l4 := r.liq.lt
  have e0 := r.ev.le
  rcases hx with rfl | hx
  · exact { r1 with pri := a }
  · exact { r1 with
      pri := a
      newP := le_trans e0 hx
      rp := by dsimp only; omega
      cp := by dsimp only; omega
      gp := by dsimp only; omega
      lp := by dsimp only; omega }

/-- two new numbers for the amounts -/
theorem setAmounts (o : PoolOk c h0 p) (r : SRel c h0 p lim vlim h s v) (k : Kept h h1) {x y : Nat} {wx wy : U256}
    (ax : At c h1 x wx) (ay : At c h1 y wy) (lx : h.next ≤ x) (ly : h.next ≤ y) (ne : x ≠ y) :
    SRel c h0 p lim vlim h1 { s with remaining := x, calculated := y } { v with remaining := wx, calculated := wy } := by
  have r1 := r.keep o k
  have l2 := r.pri.lt
  have l3 := r.gro.lt
  have l4 := r.liq.lt
  have l5 := r.limit.lt
  have e0 := r.ev.le
  exact { r1 with
    rem := ax
    cal := ay
    newR := le_trans e0 lx
    newC := le_trans e0 ly
    rc := ne
    rg := by dsimp only; omega
    rl := by dsimp only; omega
    rp := by dsimp only; omega
    rm := by dsimp only; omega
    cg := by dsimp only; omega
    cl := by dsimp only; omega
    cp := by dsimp only; omega
    cm := by dsimp only; omega }

theorem write (o : PoolOk c h0 p) {x : Nat} (hx : h0.next ≤ x) : c.canWrite x := .inr (le_trans o.base hx)

theorem consts (o : PoolOk c h0 p) (r : SRel c h0 p lim vlim h s v) : Consts c h :=
  o.consts.evolve r.ev fun x hx => o.high x (by simp [HPool.writes, hx])

end SRel

variable {h0 : Heap} {lim : Nat} {vlim : U256}

theorem Tri.to_ret {α β : Type} {m : HM Unit} {v : α} {w : β} {R : Unit → Heap → α → Prop} {S : Unit → Heap → β → Prop}
    (t : Tri c m h (.ok v) R) (hs : ∀ h', R () h' v → S () h' w) : Tri c m h (pure w) S := by
  refine ⟨t.1, ?_⟩
  have := t.2
  revert this
  cases m h with
  | error e => exact fun x => x
  | ok a => exact fun x => hs a.2 x

theorem tri_pickTarget (zf : Bool) {n l : Nat} {vn vl : U256} (an : At c h n vn) (al : At c h l vl) :
    Tri c (Ptr.pickTarget zf n l) h (.ok (Pool.pickTarget zf vn vl)) (fun r h' v => At c h' r v ∧ h' = h) := by
  unfold Ptr.pickTarget Pool.pickTarget
  refine Tri.load_bind an (Tri.load_bind al ?_)
  cases zf
  · simp only [Bool.false_eq_true, if_false]
    by_cases q : cmp vn vl > 0
    · rw [if_pos q, if_pos q]; exact Tri.ret ⟨al, rfl⟩
    · rw [if_neg q, if_neg q]; exact Tri.ret ⟨an, rfl⟩
  · simp only [if_true]
    by_cases q : cmp vn vl < 0
    · rw [if_pos q, if_pos q]; exact Tri.ret ⟨al, rfl⟩
    · rw [if_neg q, if_neg q]; exact Tri.ret ⟨an, rfl⟩

theorem tri_account (o : PoolOk c h0 p) {s : Ptr.State} {v : SwapState} (r : SRel c h0 p lim vlim h s v) (ei : Bool)
    {st : Ptr.Step} {w : SwapMath.Step} (ai : At c h st.amountIn w.amountIn) (ao : At c h st.amountOut w.amountOut)
    (af : At c h st.fee w.fee) (no : st.amountOut ≠ s.remaining) (nf : st.fee ≠ s.remaining ∧ st.fee ≠ s.calculated) :
    Tri c (Ptr.account ei s st) h (.ok { v with
      remaining := if ei then U256.sub v.remaining (U256.add w.amountIn w.fee) else U256.add v.remaining w.amountOut
      calculated := if ei then U256.sub v.calculated w.amountOut else U256.add v.calculated (U256.add w.amountIn w.fee) })
      (fun s' h' v' => SRel c h0 p lim vlim h' s' v' ∧ At c h' st.fee w.fee ∧ s'.liquidity = s.liquidity ∧
        s'.growth = s.growth ∧ s'.price = s.price ∧ s'.tick = s.tick ∧ h.next ≤ h'.next ∧
        (∀ x, x < h.next → x ≠ s.remaining → x ≠ s.calculated → h'.cell x = h.cell x)) := by
  unfold Ptr.account
  cases ei
  · simp only [Bool.false_eq_true, if_false]
    refine (mk_add r.rem ao).fresh1 fun x h1 k1 ax lx => ?_
    refine (mk_add (ai.keep k1) (af.keep k1)).fresh1 fun y h2 k2 ay _ => ?_
    have k12 := k1.trans k2
    refine (mk_add (r.cal.keep k12) ay).fresh1 fun z h3 k3 az lz => ?_
    have k13 := k12.trans k3
    have := ax.lt
    have := k2.le
    exact Tri.ret ⟨r.setAmounts o k13 ((ax.keep k2).keep k3) az lx (le_trans k12.le lz) (by omega), af.keep k13, rfl, rfl, rfl, rfl,
      k13.le, fun x hx _ _ => k13.cell x hx⟩
  · simp only [if_true]
    refine (mk_add ai af).fresh1 fun y h1 k1 ay _ => ?_
    have r1 := r.keep o k1
    refine (tri_sub (SRel.write o r.newR) r1.rem ay).step fun _ h2 s2 => ?_
    have r2 := r1.setRem o s2
    refine (tri_sub (SRel.write o r.newC) r2.cal (s2.at (ao.keep k1) no)).step fun _ h3 s3 => ?_
    have r3 := r2.setCal o s3
    exact Tri.ret ⟨r3, s3.at (s2.at (af.keep k1) nf.1) nf.2, rfl, rfl, rfl, rfl, le_trans k1.le (le_trans s2.le s3.le),
      fun x hx q1 q2 => by
        rw [s3.cell x (lt_of_lt_of_le (lt_of_lt_of_le hx k1.le) s2.le) q2, s2.cell x (lt_of_lt_of_le hx k1.le) q1, k1.cell x hx]⟩

theorem tri_accrue (o : PoolOk c h0 p) {s : Ptr.State} {v : SwapState} (r : SRel c h0 p lim vlim h s v) {fee : Nat} {vf : U256}
    (af : At c h fee vf) :
    Tri c (Ptr.accrue fee s.liquidity s.growth) h (Pool.accrue vf v.liquidity v.growth) (fun _ h' g =>
      SRel c h0 p lim vlim h' s { v with growth := g } ∧ h.next ≤ h'.next ∧
        (∀ x, x < h.next → x ≠ s.growth → h'.cell x = h.cell x)) := by
  unfold Ptr.accrue Pool.accrue
  refine Tri.load_bind r.liq (Tri.ite (fun _ => ?_) fun _ => ?_)
  · refine (tri_mulDiv af (r.consts o).q128 r.liq).fresh fun f h1 w k1 aw lw => ?_
    have r1 := r.keep o k1
    refine (tri_add (SRel.write o r.newG) r1.gro aw).mono ?_
    intro _ h2 b s2
    exact ⟨r1.setGro o s2, le_trans k1.le s2.le, fun x hx q => by rw [s2.cell x (lt_of_lt_of_le hx k1.le) q, k1.cell x hx]⟩
  · exact Tri.ret ⟨r, le_refl _, fun _ _ _ => rfl⟩

theorem tri_crossTick (o : PoolOk c h0 p) {s : Ptr.State} {v : SwapState} (r : SRel c h0 p lim vlim h s v) (zf ini : Bool) (t : Int) :
    Tri c (Ptr.crossTick p zf ini t s.growth s.liquidity) h ((p.view h0).crossTick zf ini t v.growth v.liquidity v.ticks)
      (fun _ h' b => SRel c h0 p lim vlim h' s { v with liquidity := b.1, ticks := b.2 }) := by
  unfold Ptr.crossTick Pool.crossTick
  refine Tri.ite (fun _ => ?_) fun _ => Tri.ret r
  obtain ⟨_, ⟨_, ng0, ng1⟩, _, _⟩ := o.sep.apart
  have a0 := r.ev.at o.growth0 ng0
  have a1 := r.ev.at o.growth1 ng1
  have ngs : s.growth ∉ p.ticks.refs := fun hm => by have := o.sep.ticks.lt _ hm; have := r.newG; omega
  rw [r.ticks]
  refine Tri.bind (tri_cross (o.ticks.evolve r.ev) t (g0 := if zf then s.growth else p.growth0)
    (g1 := if zf then p.growth1 else s.growth) (v0 := if zf then v.growth else (p.view h0).growth0)
    (v1 := if zf then (p.view h0).growth1 else v.growth) ?_ ?_ ?_) ?_
  · cases zf
    · exact a0
    · exact r.gro
  · cases zf
    · exact r.gro
    · exact a1
  · cases zf
    · exact ngs
    · exact ng1
  · rintro net h1 b ⟨hb, an, _, e⟩
    have r1 := r.setTicks o e
    rw [← hb] at r1
    unfold Ptr.changeLiquidity
    cases zf
    · simp only [Bool.false_eq_true, if_false]
      refine (tri_add (SRel.write o r.newL) r1.liq an).to_ret ?_
      intro h2 s2
      exact r1.setLiq o s2
    · simp only [if_true]
      refine (tri_sub (SRel.write o r.newL) r1.liq an).to_ret ?_
      intro h2 s2
      exact r1.setLiq o s2

theorem tri_finishStep (o : PoolOk c h0 p) {s : Ptr.State} {v v0 : SwapState} (r : SRel c h0 p lim vlim h s v) (zf ini : Bool) (t : Int)
    {pn sp : Nat} {vn : U256} (an : At c h pn vn) (as : At c h sp v0.price) :
    Tri c (Ptr.finishStep p zf ini t pn sp s) h ((p.view h0).finishStep zf ini t vn v0 v)
      (fun s' h' v' => SRel c h0 p lim vlim h' s' v') := by
  unfold Ptr.finishStep Pool.finishStep
  refine Tri.load_bind r.pri (Tri.load_bind an (Tri.load_bind as ?_))
  refine Tri.ite (fun _ => ?_) fun _ => Tri.ite (fun _ => ?_) fun _ => Tri.ret r
  · refine (tri_crossTick o r zf ini t).bind ?_
    intro _ h1 b r1
    exact Tri.ret (r1.setTick _)
  · refine (tri_getTickAtSqrtRatio (r.consts o) r.pri).bind ?_
    rintro a h1 _ ⟨rfl, rfl⟩
    exact Tri.ret (r.setTick _)

theorem tri_swapStep (o : PoolOk c h0 p) {s : Ptr.State} {v : SwapState} (r : SRel c h0 p lim vlim h s v) (zf ei : Bool) :
    Tri c (Ptr.swapStep p zf ei lim s) h ((p.view h0).swapStep zf ei vlim v) (fun s' h' v' => SRel c h0 p lim vlim h' s' v') := by
  unfold Ptr.swapStep Pool.swapStep
  refine Tri.lift_eq (by rw [r.ticks, r.tick]; exact (shape_same p.ticks h).nextInitialized _ _) fun n => ?_
  refine (tri_getSqrtRatioAtTick (r.consts o) (Pool.clampTick n.1)).fresh fun pn h1 vn k1 an ln => ?_
  have r1 := r.keep o k1
  refine (tri_pickTarget zf an r1.limit).step ?_
  rintro tg _ ⟨at_, rfl⟩
  refine (tri_computeSwapStep (r1.consts o) r1.pri at_ r1.liq r1.rem p.fee).bind ?_
  rintro st h2 w ⟨k2, hn, hnew, hi, ho, hf, _, no, nf⟩
  have r2 := r1.setPri o k2 hn hnew
  have q1 := r1.rem.lt
  have q2 := r1.cal.lt
  have q3 := r1.gro.lt
  have q4 := r.rem.lt
  have q5 := r.cal.lt
  have q6 := r.gro.lt
  have r2p := (r1.keep o k2).pri
  refine (tri_account o r2 ei hi ho hf (by dsimp only; omega) ⟨by dsimp only; omega, by dsimp only; omega⟩).step ?_
  rintro s1 h3 ⟨r3, hf3, el, eg, ep, et, le3, fr3⟩
  refine (tri_accrue o r3 hf3).bind ?_
  intro _ h4 g ⟨r4, le4, fr4⟩
  have keep : ∀ x u, At c h2 x u → x ≠ s.remaining → x ≠ s.calculated → x ≠ s.growth → At c h4 x u := by
    intro x u a n1 n2 n3
    have l := a.lt
    refine ⟨by omega, ?_, a.can, by have := a.base; omega⟩
    rw [fr4 x (by omega) (by rw [eg]; exact n3), fr3 x l n1 n2, a.val]
  exact tri_finishStep o r4 zf n.2 (Pool.clampTick n.1) (keep _ _ (an.keep k2) (by omega) (by omega) (by omega))
    (keep _ _ r2p r.rp.symm r.cp.symm r.gp.symm)

theorem tri_swapLoop (o : PoolOk c h0 p) (zf ei : Bool) (fuel : Nat) : ∀ {h : Heap} {s : Ptr.State} {v : SwapState},
    SRel c h0 p lim vlim h s v → Tri c (Ptr.swapLoop p zf ei lim fuel s) h ((p.view h0).swapLoop zf ei vlim fuel v)
      (fun s' h' v' => SRel c h0 p lim vlim h' s' v') := by
  induction fuel with
  | zero => intro h s v _; exact ⟨trivial, rfl⟩
  | succ n ih =>
    intro h s v r
    unfold Ptr.swapLoop Pool.swapLoop Pool.running
    refine Tri.load_bind r.rem (Tri.load_bind r.pri (Tri.load_bind r.limit ?_))
    refine Tri.ite (fun _ => ?_) fun _ => Tri.ret r
    exact (tri_swapStep o r zf ei).bind fun s' h' v' r' => ih r'

theorem tri_effLimit (kc : Consts c h) (zf : Bool) {l : Nat} {vl : U256} (a : At c h l vl) :
    Tri c (Ptr.effLimit zf l) h (.ok (Pool.effLimit zf vl)) (fun r h' v => Fresh c h r h' v) := by
  unfold Ptr.effLimit Pool.effLimit
  refine (tri_clone a).fresh1 fun m h1 k1 am lm => ?_
  refine Tri.load_bind am ?_
  have kc1 := kc.keep k1
  have wm : c.canWrite m := .inr (le_trans a.base lm)
  unfold whenM
  by_cases z : vl.isZero = true
  · rw [if_pos z, if_pos z]
    cases zf
    · simp only [Bool.false_eq_true, if_false]
      refine (tri_sub wm kc1.maxSqrtRatio kc1.one).step fun _ h2 s2 => Tri.ret ?_
      exact ⟨s2.kept k1 lm, s2.at_self am, lm⟩
    · simp only [if_true]
      refine (tri_add wm kc1.minSqrtRatio kc1.one).step fun _ h2 s2 => Tri.ret ?_
      exact ⟨s2.kept k1 lm, s2.at_self am, lm⟩
  · rw [if_neg z, if_neg z]
    exact Tri.ret ⟨k1, am, lm⟩

theorem tri_checkLimit (o : PoolOk c h p) (zf : Bool) {l : Nat} {vl : U256} (a : At c h l vl) :
    Tri c (Ptr.checkLimit p zf l) h (invariant ((p.view h).limitOk zf vl)) (fun _ h' _ => h' = h) := by
  unfold Ptr.checkLimit Pool.limitOk
  refine Tri.load_bind a (Tri.load_bind o.price (Tri.load_bind o.consts.minSqrtRatio (Tri.load_bind o.consts.maxSqrtRatio ?_)))
  exact Tri.lift.mono fun _ _ _ hh => hh.2

/-- the start of the loop -/
theorem tri_initState (o : PoolOk c h0 p) (k : Kept h0 h) (zf : Bool) {amount : Nat} {va : U256} (a : At c h amount va)
    (al : At c h lim vlim) (ll : h0.next ≤ lim) :
    Tri c (Ptr.initState p zf amount) h (.ok ((p.view h0).initState zf va)) (fun s h' v => SRel c h0 p lim vlim h' s v) := by
  unfold Ptr.initState Pool.initState
  refine (tri_clone a).fresh1 fun r1 h1 k1 a1 l1 => ?_
  refine (tri_new a1.base (ofWord 0)).fresh1 fun r2 h2 k2 a2 l2 => ?_
  have k02 := (k.trans k1).trans k2
  refine (tri_clone (o.price.keep k02)).fresh1 fun r3 h3 k3 a3 l3 => ?_
  have k03 := k02.trans k3
  have ag : At c h3 (if zf then p.growth0 else p.growth1) (if zf then (p.view h0).growth0 else (p.view h0).growth1) := by
    cases zf
    · exact o.growth1.keep k03
    · exact o.growth0.keep k03
  refine (tri_clone ag).fresh1 fun r4 h4 k4 a4 l4 => ?_
  have k04 := k03.trans k4
  refine (tri_clone (o.liquidity.keep k04)).fresh1 fun r5 h5 k5 a5 l5 => ?_
  have k05 := k04.trans k5
  have t0 := k.le
  have t1 := k1.le
  have t2 := k2.le
  have t3 := k3.le
  have t4 := k4.le
  have m := al.lt
  have b1 := a1.lt
  have b2 := a2.lt
  have b3 := a3.lt
  have b4 := a4.lt
  rw [ofWord_zero] at a2
  refine Tri.ret ⟨k05.evolve _, ((a1.keep k2).keep k3 |>.keep k4).keep k5, (a2.keep k3 |>.keep k4).keep k5, (a3.keep k4).keep k5,
    a4.keep k5, a5, (((al.keep k1).keep k2).keep k3 |>.keep k4).keep k5, rfl, ?_, ?_, ?_, ?_, ?_, ?_, ll, ?_, ?_, ?_, ?_, ?_, ?_, ?_, ?_,
    ?_, ?_, ?_, ?_, ?_, ?_⟩
  · exact (HTickData.view_congr fun x hx => k05.cell x (o.sep.ticks.lt x hx)).symm
  all_goals (dsimp only; omega)

/-- the pool takes over the numbers of the state -/
theorem SRel.after (o : PoolOk c h0 p) {s : Ptr.State} {v : SwapState} (r : SRel c h0 p lim vlim h s v) (zf : Bool) :
    StepOk h0 p h (Ptr.afterSwap p zf s) ∧ (p.view h0).afterSwap zf v = (Ptr.afterSwap p zf s).view h := by
  obtain ⟨_, ⟨_, ng0, ng1⟩, _, tp⟩ := o.sep.apart
  have lt := o.sep.safe.lt
  have hg0 : p.growth0 ∈ p.writes := by simp [HPool.writes]
  have hg1 : p.growth1 ∈ p.writes := by simp [HPool.writes]
  have hw : (Ptr.afterSwap p zf s).writes =
      [s.liquidity, if zf then s.growth else p.growth0, if zf then p.growth1 else s.growth] ++ p.ticks.refs ++ posRefs p.positions := rfl
  constructor
  · refine ⟨⟨r.ev.le, fun x hx hm => r.ev.frame x hx fun h1 => hm (by simp [HPool.writes, h1]), [s.liquidity, s.growth], ?_, ?_, ?_⟩,
      Or.inr ⟨r.newP, r.pri.lt, ?_⟩⟩
    · simp only [List.nodup_cons, List.mem_cons, List.not_mem_nil, or_false]
      exact ⟨r.gl.symm, by simp, List.nodup_nil⟩
    · intro x hx
      simp only [List.mem_cons, List.not_mem_nil, or_false] at hx
      rcases hx with rfl | rfl
      · exact ⟨r.newL, r.liq.lt⟩
      · exact ⟨r.newG, r.gro.lt⟩
    · rw [hw]
      show _ <+~ [s.liquidity, s.growth] ++ ([p.liquidity, p.growth0, p.growth1] ++ p.ticks.refs ++ posRefs p.positions)
      rw [List.append_assoc, List.append_assoc, ← List.append_assoc [s.liquidity, s.growth]]
      refine (List.subperm_append_right _).2 ?_
      cases zf
      · simp only [Bool.false_eq_true, if_false]
        have : [s.liquidity, p.growth0, s.growth] ~ [s.liquidity, s.growth, p.growth0] :=
          List.Perm.cons _ (List.Perm.swap _ _ _)
        refine this.subperm.trans ?_
        apply List.Sublist.subperm
        refine List.Sublist.cons₂ _ (List.Sublist.cons₂ _ (List.Sublist.cons _ (List.Sublist.cons₂ _ (List.Sublist.cons _ ?_))))
        exact List.Sublist.refl _
      · simp only [if_true]
        apply List.Sublist.subperm
        refine List.Sublist.cons₂ _ (List.Sublist.cons₂ _ (List.Sublist.cons _ (List.Sublist.cons _ (List.Sublist.cons₂ _ ?_))))
        exact List.Sublist.refl _
    · rw [hw]
      intro hm
      have np := r.newP
      have q : ∀ x ∈ p.writes, s.price ≠ x := fun x hx e => by have := lt x hx; omega
      have hm : s.price ∈ [s.liquidity, if zf then s.growth else p.growth0, if zf then p.growth1 else s.growth] ++ p.ticks.refs ++
        posRefs p.positions := hm
      rcases List.mem_append.1 hm with hm | hm
      · rcases List.mem_append.1 hm with hm | hm
        · simp only [List.mem_cons, List.not_mem_nil, or_false] at hm
          cases zf
          · simp only [Bool.false_eq_true, if_false] at hm
            rcases hm with hm | hm | hm
            · exact r.lp hm.symm
            · exact q _ hg0 hm
            · exact r.gp hm.symm
          · simp only [if_true] at hm
            rcases hm with hm | hm | hm
            · exact r.lp hm.symm
            · exact r.gp hm.symm
            · exact q _ hg1 hm
        · exact q _ (by simp [HPool.writes, hm]) rfl
      · exact q _ (by simp [HPool.writes, hm]) rfl
  · have hpos : (fun k => (hlookup p.positions k).map (HInfo.view h)) = fun k => (hlookup p.positions k).map (HInfo.view h0) :=
      positions_congr fun x hx => r.ev.frame x (o.sep.pos.lt x hx) fun hm => tp x hm hx
    unfold Pool.afterSwap HPool.view Ptr.afterSwap
    dsimp only
    rw [hpos, r.liq.val, r.pri.val, r.ticks, r.tick]
    cases zf
    · simp only [Bool.false_eq_true, if_false]
      rw [r.gro.val, r.ev.frame _ (lt _ hg0) ng0]
    · simp only [if_true]
      rw [r.gro.val, r.ev.frame _ (lt _ hg1) ng1]

theorem tri_swapResult {x : Nat} {vx : U256} {s : Ptr.State} {v : SwapState} (hx : At c h x vx) (hr : At c h s.remaining v.remaining)
    (hk : At c h s.calculated v.calculated) (zf ei : Bool) :
    Tri c (Ptr.swapResult zf ei x s) h (.ok (Pool.swapResult zf ei vx v)) (fun r h' w => Fresh2 c h r h' w) := by
  unfold Ptr.swapResult Pool.swapResult
  refine (tri_new hx.base zero).fresh1 fun a h1 k1 aa la => ?_
  refine (tri_new aa.base zero).fresh1 fun b h2 k2 ab lb => ?_
  have k12 := k1.trans k2
  have wa : c.canWrite a := .inr (le_trans hx.base la)
  have wb : c.canWrite b := .inr (le_trans aa.base lb)
  have ta := aa.lt
  have tx := hx.lt
  have tr := hr.lt
  have tk := hk.lt
  have e1 := k1.le
  by_cases q : zf = ei
  · rw [if_pos q, if_pos q]
    refine (tri_sub wa (hx.keep k12) (hr.keep k12)).step fun _ h3 s3 => ?_
    refine (tri_set wb (s3.at (hk.keep k12) (by omega))).step fun _ h4 s4 => ?_
    exact Tri.ret ⟨s4.kept (s3.kept k12 la) (le_trans e1 lb), s4.at (s3.at_self (aa.keep k2)) (by dsimp only; omega),
      s4.at_self (s3.at ab (by omega)), la, le_trans e1 lb, by dsimp only; omega⟩
  · rw [if_neg q, if_neg q]
    refine (tri_set wa (hk.keep k12)).step fun _ h3 s3 => ?_
    refine (tri_sub wb (s3.at (hx.keep k12) (by omega)) (s3.at (hr.keep k12) (by omega))).step fun _ h4 s4 => ?_
    exact Tri.ret ⟨s4.kept (s3.kept k12 la) (le_trans e1 lb), s4.at (s3.at_self (aa.keep k2)) (by dsimp only; omega),
      s4.at_self (s3.at ab (by omega)), la, le_trans e1 lb, by dsimp only; omega⟩

/-- A swap on memory is the swap of the value model. -/
theorem tri_swap (o : PoolOk c h p) (fuel : Nat) (zf : Bool) {amount l : Nat} {va vl : U256} (a : At c h amount va) (al : At c h l vl)
    (na : amount ∉ p.writes) :
    Tri c (Ptr.swap fuel p zf amount l) h ((p.view h).swap fuel zf va vl) (fun x h' b => OpOk c h p x h' b) := by
  unfold Ptr.swap Pool.swap
  dsimp only
  refine Tri.load_bind a (Tri.lift_bind fun _ => ?_)
  refine (tri_effLimit o.consts zf al).fresh1 fun m h1 k1 am lm => ?_
  have o1 := o.step (k1.step p)
  rw [← o.sep.view_kept k1]
  refine (tri_checkLimit o1 zf am).bind ?_
  rintro _ _ _ rfl
  rw [o.sep.view_kept k1]
  refine (tri_initState o k1 zf (a.keep k1) am lm).step fun s0 h2 r0 => ?_
  refine (tri_swapLoop o zf _ fuel r0).bind fun s h3 v r => ?_
  have nt : amount ∉ p.ticks.refs := fun hm => na (by simp [HPool.writes, hm])
  refine (tri_swapResult (r.ev.at a nt) r.rem r.cal zf _).step fun x h4 f => ?_
  obtain ⟨j1, j2⟩ := r.after o zf
  have o3 := o.step j1
  refine Tri.ret ⟨j1.kept o.sep f.kept, ?_, Res.of o3.sep r.ev.le f.fst f.new1, Res.of o3.sep r.ev.le f.snd f.new2, f.ne⟩
  dsimp only
  rw [o3.sep.view_kept f.kept, j2]

theorem tri_exactInputSwap (o : PoolOk c h p) (fuel : Nat) (token : String) {amount l : Nat} {va vl : U256} (a : At c h amount va)
    (al : At c h l vl) (na : amount ∉ p.writes) :
    Tri c (Ptr.exactInputSwap fuel p amount token l) h ((p.view h).exactInputSwap fuel va token vl) (fun x h' b => OpOk c h p x h' b) :=
  tri_swap o fuel _ a al na

theorem tri_exactOutputSwap (o : PoolOk c h p) (fuel : Nat) (token : String) {amount l : Nat} {va vl : U256} (a : At c h amount va)
    (al : At c h l vl) (na : amount ∉ p.writes) :
    Tri c (Ptr.exactOutputSwap fuel p amount token l) h ((p.view h).exactOutputSwap fuel va token vl) (fun x h' b => OpOk c h p x h' b) :=
  tri_swap o fuel _ a al na

end
end Uni
