import Verif.Proofs.PtrStrat
/-! # Strategies on memory: the new positions -/
namespace Uni
open InPlace Ptr U256

section
variable {c : Rights} {h : Heap} {s : HStrat}

/-- continue with the strategy a step returns -/
theorem Tri.then_ {m : HM HStrat} {y : Go Strat} (t : Tri c m h y (fun s' h' v => StratRel c h s s' h' v)) {f : HStrat → HM HStrat}
    {g : Strat → Go Strat} (hf : ∀ s' h', StratRel c h s s' h' (s'.view h') → StratOk c h' s' →
      Tri c (f s') h' (g (s'.view h')) (fun s'' h'' v => StratRel c h' s' s'' h'' v)) :
    Tri c (m >>= f) h (y >>= g) (fun s' h' v => StratRel c h s s' h' v) :=
  t.bind fun s' h' v r => by
    have e := r.view
    rw [e] at r ⊢
    exact (hf s' h' r r.ok).mono fun s'' h'' v' r' => r.trans r'

theorem tri_swapMint (ok : StratOk c h s) (fuel : Nat) (lower upper : Int) :
    Tri c (Ptr.swapMint s fuel lower upper) h ((s.view h).swapMint fuel lower upper) (fun s' h' v => StratRel c h s s' h' v) := by
  unfold Ptr.swapMint Strat.swapMint
  refine (tri_getSqrtRatioAtTick ok.consts lower).fresh fun a h1 va k1 aa la => ?_
  refine (tri_getSqrtRatioAtTick (ok.consts.keep k1) upper).fresh fun b h2 vb k2 ab lb => ?_
  have k := k1.trans k2
  have na : a ∉ s.writes := ok.fresh la
  have nb : b ∉ s.writes := ok.fresh (le_trans k1.le lb)
  refine Tri.later ok k fun o1 e1 => ?_
  rw [← e1]
  refine (tri_swapExcess o1 fuel (aa.keep k2) ab).then_ fun s2 h3 r2 o2 => ?_
  refine (tri_getLiquidityForAmount o2.consts o2.price (r2.step.at_ (aa.keep k2) na) (r2.step.at_ ab nb) o2.at0 o2.at1).fresh
    fun x h4 vx k4 ax lx => ?_
  refine Tri.later o2 k4 fun o3 e3 => ?_
  rw [← e3]
  exact tri_mintAmount o3 lower upper ax (o2.fresh lx)

theorem tri_twoAbove (ok : StratOk c h s) (unit b : Int) :
    Tri c (Ptr.twoAbove s unit b) h ((s.view h).twoAbove unit b) (fun s' h' v => StratRel c h s s' h' v) := by
  unfold Ptr.twoAbove Strat.twoAbove
  exact Tri.load_bind ok.at0 (Tri.ite (fun _ => Tri.ret (StratRel.refl ok)) fun _ => tri_mintPosition ok _ _)

theorem tri_twoBelow (ok : StratOk c h s) (unit b : Int) :
    Tri c (Ptr.twoBelow s unit b) h ((s.view h).twoBelow unit b) (fun s' h' v => StratRel c h s s' h' v) := by
  unfold Ptr.twoBelow Strat.twoBelow
  exact Tri.load_bind ok.at1 (Tri.ite (fun _ => Tri.ret (StratRel.refl ok)) fun _ => tri_mintPosition ok _ _)

theorem tri_setTwo (ok : StratOk c h s) (a b : Int) :
    Tri c (Ptr.setTwo s a b) h ((s.view h).setTwo a b) (fun s' h' v => StratRel c h s s' h' v) := by
  unfold Ptr.setTwo Strat.setTwo
  exact (tri_mintPosition ok _ _).then_ fun s1 h1 _ o1 => (tri_twoAbove o1 _ b).then_ fun s2 h2 _ o2 => tri_twoBelow o2 _ b

theorem tri_fillSide (ok : StratOk c h s) (lower upper : Int) :
    Tri c (Ptr.fillSide s lower upper) h ((s.view h).fillSide lower upper) (fun s' h' v => StratRel c h s s' h' v) := by
  unfold Ptr.fillSide Strat.fillSide
  refine Tri.load_bind ok.at0 (Tri.ite (fun _ => ?_) fun _ => ?_)
  · exact Tri.ite (fun _ => tri_mintPosition ok _ _) fun _ => Tri.ret (StratRel.refl ok)
  · refine Tri.load_bind ok.at1 (Tri.ite (fun _ => ?_) fun _ => Tri.ret (StratRel.refl ok))
    exact Tri.ite (fun _ => tri_mintPosition ok _ _) fun _ => Tri.ret (StratRel.refl ok)

theorem tri_setFill (ok : StratOk c h s) (width : Int) :
    Tri c (Ptr.setFill s width) h ((s.view h).setFill width) (fun s' h' v => StratRel c h s s' h' v) := by
  unfold Ptr.setFill Strat.setFill
  exact (tri_mintPosition ok _ _).then_ fun s1 h1 _ o1 => tri_fillSide o1 _ _

/-- the remembered order has changed -/
theorem StratOk.order (ok : StratOk c h s) (limit : Int) (direction : Bool) :
    StratRel c h s { s with limitTick := limit, direction := direction } h { s.view h with limitTick := limit, direction := direction } := by
  obtain ⟨o, st⟩ := ok.fields (s' := { s with limitTick := limit, direction := direction }) rfl rfl rfl rfl rfl fun x hx => .inl hx
  exact ⟨rfl, o, st⟩

theorem tri_limitAbove (ok : StratOk c h s) (unit : Int) :
    Tri c (Ptr.limitAbove s unit) h ((s.view h).limitAbove unit) (fun s' h' v => StratRel c h s s' h' v) := by
  unfold Ptr.limitAbove Strat.limitAbove
  refine Tri.load_bind ok.at0 (Tri.ite (fun _ => Tri.ret (StratRel.refl ok)) fun _ => ?_)
  exact (tri_mintHalf ok _ _).then_ fun s1 h1 _ o1 => Tri.ret (o1.order _ _)

theorem tri_limitBelow (ok : StratOk c h s) (unit : Int) :
    Tri c (Ptr.limitBelow s unit) h ((s.view h).limitBelow unit) (fun s' h' v => StratRel c h s s' h' v) := by
  unfold Ptr.limitBelow Strat.limitBelow
  refine Tri.load_bind ok.at1 (Tri.ite (fun _ => Tri.ret (StratRel.refl ok)) fun _ => ?_)
  exact (tri_mintHalf ok _ _).then_ fun s1 h1 _ o1 => Tri.ret (o1.order _ _)

theorem tri_setLimit (ok : StratOk c h s) (width : Int) :
    Tri c (Ptr.setLimit s width) h ((s.view h).setLimit width) (fun s' h' v => StratRel c h s s' h' v) := by
  unfold Ptr.setLimit Strat.setLimit
  exact (tri_mintPosition ok _ _).then_ fun s1 h1 _ o1 => (tri_limitAbove o1 _).then_ fun s2 h2 _ o2 => tri_limitBelow o2 _

/-! ### Ticks -/

theorem tri_averageTicks (ok : StratOk c h s) (width : Int) :
    Tri c (Ptr.averageTicks s width) h ((s.view h).averageTicks width) (fun a h' v => a = v ∧ Kept h h') := by
  unfold Ptr.averageTicks Strat.averageTicks
  refine (tri_average ok.base ok.history).fresh fun x h1 v k1 ax _ => ?_
  refine (mk_sqrt ax).fresh fun y h2 vy k2 ay _ => ?_
  refine (tri_getTickAtSqrtRatio (ok.consts.keep (k1.trans k2)) ay).bind ?_
  rintro t h3 vt ⟨rfl, rfl⟩
  exact Tri.ret ⟨rfl, k1.trans k2⟩

theorem tri_bandWidth (ok : StratOk c h s) {m : Int} (hm : multiplierOf s.kind = some m) :
    Tri c (Ptr.bandWidth s) h ((s.view h).bandWidth m) (fun r h' v => Fresh c h r h' v) := by
  unfold Ptr.bandWidth Strat.bandWidth
  refine (tri_volatility ok.base ok.history).fresh fun x h1 v k1 ax _ => ?_
  have am : At c h s.multiplier (ofWord (BitVec.ofInt 64 m)) := by
    have := ok.heldAt (x := s.multiplier) List.mem_cons_self
    rw [ok.mult m hm] at this
    exact this
  refine (mk_mul ax (am.keep k1)).fresh1 fun y h2 k2 ay _ => ?_
  refine (mk_rsh ay 10).fresh1 fun z h3 k3 az _ => ?_
  exact (mk_sqrt az).tail ((k1.trans k2).trans k3)

theorem tri_subOverflow {z x y : Nat} {a b : U256} (hz : c.canWrite z) (ax : At c h x a) (ay : At c h y b) :
    Tri c (InPlace.subOverflow z x y) h (.ok (U256.subOverflow a b)) (fun r h' v => r = v.2 ∧ Stored h z h' v.1) := by
  refine ⟨fits_subOverflow hz ax.can ay.can h ax.base, ?_⟩
  rw [subOverflow_eq z x y h, ax.val, ay.val]
  exact ⟨rfl, le_refl _, if_pos rfl, fun r _ hr => if_neg hr⟩

theorem tri_addOverflow {z x y : Nat} {a b : U256} (hz : c.canWrite z) (ax : At c h x a) (ay : At c h y b) :
    Tri c (InPlace.addOverflow z x y) h (.ok (U256.addOverflow a b)) (fun r h' v => r = v.2 ∧ Stored h z h' v.1) := by
  refine ⟨fits_addOverflow hz ax.can ay.can h ax.base, ?_⟩
  rw [addOverflow_eq z x y h, ax.val, ay.val]
  exact ⟨rfl, le_refl _, if_pos rfl, fun r _ hr => if_neg hr⟩

theorem tri_bandLower (kc : Consts c h) {a : Nat} {r : U256 × Bool} (aa : At c h a r.1) :
    Tri c (Ptr.bandLower a r.2) h (Strat.bandLower r) (fun t h' w => t = w ∧ h' = h) := by
  unfold Ptr.bandLower Strat.bandLower
  refine Tri.load_bind aa (Tri.load_bind kc.minSqrtRatio (Tri.ite (fun _ => Tri.ret ⟨rfl, rfl⟩) fun _ => ?_))
  exact tri_getTickAtSqrtRatio kc aa

theorem tri_bandUpper (kc : Consts c h) {a : Nat} {r : U256 × Bool} (aa : At c h a r.1) :
    Tri c (Ptr.bandUpper a r.2) h (Strat.bandUpper r) (fun t h' w => t = w ∧ h' = h) := by
  unfold Ptr.bandUpper Strat.bandUpper
  refine Tri.load_bind aa (Tri.load_bind kc.maxSqrtRatio (Tri.ite (fun _ => Tri.ret ⟨rfl, rfl⟩) fun _ => ?_))
  exact tri_getTickAtSqrtRatio kc aa

theorem tri_band (kc : Consts c h) {x y : Nat} {vx vy : U256} (ax : At c h x vx) (ay : At c h y vy) :
    Tri c (Ptr.band x y) h (Strat.band vx vy) (fun t h' w => t = w ∧ Kept h h') := by
  unfold Ptr.band Strat.band
  have hb := ax.base
  have hc := kc.le
  have lx := ax.lt
  have ly := ay.lt
  refine (tri_new hb zero).fresh1 fun a h1 k1 aa la => ?_
  have e1 := k1.le
  refine (tri_subOverflow (.inr (by omega)) (ax.keep k1) (ay.keep k1)).step ?_
  rintro o h2 ⟨rfl, s2⟩
  have kc2 := (kc.keep k1).stored s2 (by omega)
  have aa2 := s2.at_self aa
  have e2 := s2.le
  refine (tri_new aa2.base zero).fresh1 fun b h3 k3 ab lb => ?_
  have e3 := k3.le
  have ax3 := (s2.at (ax.keep k1) (by omega)).keep k3
  have ay3 := (s2.at (ay.keep k1) (by omega)).keep k3
  refine (tri_addOverflow (.inr (by omega)) ax3 ay3).step ?_
  rintro o h4 ⟨rfl, s4⟩
  have kc4 := (kc2.keep k3).stored s4 (by omega)
  have aa4 := s4.at (aa2.keep k3) (by have := aa2.lt; omega)
  have ab4 := s4.at_self ab
  have e4 := s4.le
  refine (tri_bandLower (r := U256.subOverflow vx vy) kc4 aa4).bind ?_
  rintro l h5 vl ⟨rfl, rfl⟩
  refine (tri_bandUpper (r := U256.addOverflow vx vy) kc4 ab4).bind ?_
  rintro u h6 vu ⟨rfl, rfl⟩
  refine Tri.ret ⟨rfl, by omega, fun r hr => ?_⟩
  rw [s4.cell r (by omega) (by omega), k3.cell r (by omega), s2.cell r (by omega) (by omega), k1.cell r hr]

theorem tri_bollingerTicks (ok : StratOk c h s) {m : Int} (hm : multiplierOf s.kind = some m) :
    Tri c (Ptr.bollingerTicks s) h ((s.view h).bollingerTicks m) (fun a h' v => a = v ∧ Kept h h') := by
  unfold Ptr.bollingerTicks Strat.bollingerTicks
  refine (tri_bandWidth ok hm).fresh fun w h1 vw k1 aw _ => ?_
  have t := tri_average aw.base (ok.history.keep k1)
  have e : s.history.view h1 = (s.view h).history := by
    unfold HPrices.view HStrat.view
    rw [ok.history.map_kept k1]
    rfl
  rw [e] at t
  refine t.fresh fun x h2 v k2 ax _ => ?_
  refine (mk_sqrt ax).fresh fun y h3 vy k3 ay _ => ?_
  have k := (k1.trans k2).trans k3
  refine (tri_band (ok.consts.keep k) ay (aw.keep (k2.trans k3))).mono ?_
  rintro r h4 v ⟨e, k4⟩
  exact ⟨e, k.trans k4⟩

theorem tri_volatilityTicks (ok : StratOk c h s) {m : Int} (hm : multiplierOf s.kind = some m) :
    Tri c (Ptr.volatilityTicks s) h ((s.view h).volatilityTicks m) (fun a h' v => a = v ∧ Kept h h') := by
  unfold Ptr.volatilityTicks Strat.volatilityTicks
  refine (tri_bandWidth ok hm).fresh fun w h1 vw k1 aw _ => ?_
  refine (tri_band (ok.consts.keep k1) (ok.price.keep k1) aw).mono ?_
  rintro r h4 v ⟨e, k4⟩
  exact ⟨e, k1.trans k4⟩

/-- positions at ticks that were computed -/
theorem Tri.ticks {m : HM (Int × Int)} {y : Go (Int × Int)} (ok : StratOk c h s) (t : Tri c m h y (fun a h' v => a = v ∧ Kept h h'))
    {f : Int × Int → HM HStrat} {g : Int × Int → Go Strat}
    (hf : ∀ {h' : Heap} (r : Int × Int), StratOk c h' s → s.view h' = s.view h → Tri c (f r) h' (g r) (fun s' h'' v => StratRel c h' s s' h'' v)) :
    Tri c (m >>= f) h (y >>= g) (fun s' h' v => StratRel c h s s' h' v) := by
  refine t.bind ?_
  rintro r h1 _ ⟨rfl, k⟩
  exact Tri.later ok k fun o e => hf r o e

theorem tri_mintTicks (ok : StratOk c h s) {m : HM (Int × Int)} {y : Go (Int × Int)} (t : Tri c m h y (fun a h' v => a = v ∧ Kept h h')) :
    Tri c (m >>= fun r => Ptr.mintPosition s r.1 r.2) h (y >>= fun r => (s.view h).mintPosition r.1 r.2)
      (fun s' h' v => StratRel c h s s' h' v) :=
  Tri.ticks ok t fun r o e => e ▸ tri_mintPosition o r.1 r.2

theorem tri_setBollingerFill (ok : StratOk c h s) {m : Int} (hm : multiplierOf s.kind = some m) :
    Tri c (Ptr.setBollingerFill s) h ((s.view h).setBollingerFill m) (fun s' h' v => StratRel c h s s' h' v) := by
  unfold Ptr.setBollingerFill Strat.setBollingerFill
  refine Tri.ticks ok (tri_bollingerTicks ok hm) fun r o e => ?_
  rw [← e]
  exact (tri_mintPosition o r.1 r.2).then_ fun s1 h1 _ o1 => Tri.ite (fun _ => tri_fillSide o1 _ _) fun _ => Tri.ret (StratRel.refl o1)

/-- the remembered interval has changed -/
theorem StratOk.interval (ok : StratOk c h s) (a b : Int) :
    StratRel c h s { s with tickLower := a, tickUpper := b } h { s.view h with tickLower := a, tickUpper := b } := by
  obtain ⟨o, st⟩ := ok.fields (s' := { s with tickLower := a, tickUpper := b }) rfl rfl rfl rfl rfl fun x hx => .inl hx
  exact ⟨rfl, o, st⟩

theorem tri_openFirst (ok : StratOk c h s) (fuel : Nat) :
    Tri c (Ptr.openFirst s fuel) h ((s.view h).openFirst fuel) (fun s' h' v => StratRel c h s s' h' v) := by
  unfold Ptr.openFirst Strat.openFirst
  have e : (s.view h).kind = s.kind := rfl
  rw [e]
  cases hk : s.kind with
  | constantInterval width =>
    dsimp only
    rw [← hk]
    have r := ok.interval (Ptr.around s s.pool.tick width).1 (Ptr.around s s.pool.tick width).2
    exact (tri_mintUnchecked r.ok _ _).mono fun s' h' v r' => r.trans r'
  | aroundPrice width => exact tri_mintUnchecked ok _ _
  | twoInterval a b => exact tri_setTwo ok a b
  | aroundAverage width n => exact tri_mintTicks ok (tri_averageTicks ok width)
  | bollinger n m => exact tri_mintTicks ok (tri_bollingerTicks ok (by rw [hk]; rfl))
  | bollingerFillUp n m => exact tri_mintTicks ok (tri_bollingerTicks ok (by rw [hk]; rfl))
  | volatilitySized n m => exact tri_mintTicks ok (tri_volatilityTicks ok (by rw [hk]; rfl))
  | fillUp width => exact tri_setFill ok width
  | limitOrder width => exact tri_setLimit ok width
  | swapHalf width => exact tri_swapMint ok fuel _ _
  | v2 => exact tri_mintPosition ok _ _
  | noProvision => exact Tri.ret (StratRel.refl ok)

theorem tri_openAgain (ok : StratOk c h s) (fuel : Nat) :
    Tri c (Ptr.openAgain s fuel) h ((s.view h).openAgain fuel) (fun s' h' v => StratRel c h s s' h' v) := by
  unfold Ptr.openAgain Strat.openAgain
  have e : (s.view h).kind = s.kind := rfl
  rw [e]
  cases hk : s.kind with
  | constantInterval width => exact tri_mintPosition ok _ _
  | aroundPrice width => exact tri_mintPosition ok _ _
  | twoInterval a b => exact tri_setTwo ok a b
  | aroundAverage width n => exact tri_mintTicks ok (tri_averageTicks ok width)
  | bollinger n m => exact tri_mintTicks ok (tri_bollingerTicks ok (by rw [hk]; rfl))
  | bollingerFillUp n m => exact tri_setBollingerFill ok (by rw [hk]; rfl)
  | volatilitySized n m => exact tri_mintTicks ok (tri_volatilityTicks ok (by rw [hk]; rfl))
  | fillUp width => exact tri_setFill ok width
  | limitOrder width => exact tri_setLimit ok width
  | swapHalf width => exact tri_swapMint ok fuel _ _
  | v2 => exact tri_mintPosition ok _ _
  | noProvision => exact Tri.ret (StratRel.refl ok)

/-- The strategy after a step, and two numbers the step returns that the strategy will not change. -/
structure Paid (c : Rights) (h : Heap) (s : HStrat) (a : (Nat × Nat) × HStrat) (h' : Heap) (v : (U256 × U256) × Strat) : Prop where
  rel : StratRel c h s a.2 h' v.2
  fst : At c h' a.1.1 v.1.1
  snd : At c h' a.1.2 v.1.2
  off1 : a.1.1 ∉ a.2.writes
  off2 : a.1.2 ∉ a.2.writes

theorem tri_init (ok : StratOk c h s) (fuel : Nat) :
    Tri c (Ptr.init s fuel) h ((s.view h).init fuel) (fun a h' v => Paid c h s a h' v) := by
  unfold Ptr.init Strat.init
  refine (tri_balances ok).step fun r h1 f => ?_
  have r1 := ok.keep f.kept
  have t := tri_openFirst r1.ok fuel
  rw [← r1.view] at t
  refine t.bind fun s' h2 v r2 => ?_
  have n1 := ok.fresh f.new1
  have n2 := ok.fresh f.new2
  exact Tri.ret ⟨r1.trans r2, r2.step.at_ f.fst n1, r2.step.at_ f.snd n2, r2.step.not_mem f.fst.lt n1, r2.step.not_mem f.snd.lt n2⟩

theorem tri_reopen (ok : StratOk c h s) (fuel : Nat) :
    Tri c (Ptr.reopen s fuel) h (do
      let c ← (s.view h).closeAll
      let s' ← c.2.openAgain fuel
      return (some c.1, s')) (fun a h' v => StratRel c h s a.2 h' v.2) := by
  unfold Ptr.reopen
  refine (tri_closeAll ok).bind ?_
  rintro a h1 v ⟨r, _⟩
  have t := tri_openAgain r.ok fuel
  rw [← r.view] at t
  exact t.bind fun s' h2 v2 r2 => Tri.ret (r.trans r2)

theorem tri_rebalance (ok : StratOk c h s) (fuel : Nat) :
    Tri c (Ptr.rebalance s fuel) h ((s.view h).rebalance fuel) (fun a h' v => StratRel c h s a.2 h' v.2) := by
  unfold Ptr.rebalance Strat.rebalance
  have e : (s.view h).kind = s.kind := rfl
  rw [e]
  cases s.kind <;> first | exact tri_reopen ok fuel | exact Tri.ret (StratRel.refl ok)

theorem tri_snapshotPrice (ok : StratOk c h s) :
    Tri c (Ptr.snapshotPrice s) h (do
      let x ← (s.view h).history.add (s.view h).pool.price
      return { s.view h with history := x }) (fun s' h' v => StratRel c h s s' h' v) := by
  unfold Ptr.snapshotPrice
  refine (tri_addPrice ok.history ok.price).bind fun p h1 v k => ?_
  have r1 := ok.keep k.kept
  obtain ⟨o2, st2⟩ := r1.ok.fields (s' := { s with history := p }) rfl rfl rfl rfl rfl fun x hx => by
    rcases List.mem_cons.1 hx with h1 | hx
    · exact .inl (h1 ▸ List.mem_cons_self)
    rcases List.mem_append.1 hx with hx | hx
    · exact .inl (List.mem_cons_of_mem _ (List.mem_append_left _ hx))
    rcases k.mem x hx with h1 | ⟨h1, h2⟩
    · exact .inl (List.mem_cons_of_mem _ (List.mem_append_right _ h1))
    · exact .inr ⟨h2, canRead_of_write (.inr (le_trans ok.base h1)), ok.fresh h1⟩
  refine Tri.ret ⟨?_, o2, r1.step.trans st2⟩
  rw [r1.view, k.view]
  rfl

theorem tri_makeSnapshot (ok : StratOk c h s) :
    Tri c (Ptr.makeSnapshot s) h (s.view h).makeSnapshot (fun s' h' v => StratRel c h s s' h' v) := by
  unfold Ptr.makeSnapshot Strat.makeSnapshot
  have e : (s.view h).kind = s.kind := rfl
  have t := tri_snapshotPrice ok
  dsimp only at t
  rw [e] at t ⊢
  cases hk : s.kind <;> rw [hk] at t <;> first | exact t | exact Tri.ret (StratRel.refl ok)

end
end Uni
