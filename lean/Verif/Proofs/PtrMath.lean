import Verif.Proofs.Tri
import Verif.Model.PtrMath
import Verif.Proofs.TickMath
/-! # The arithmetic on memory agrees with the arithmetic on values and changes no number of its callers -/
namespace Uni
open InPlace Ptr U256

/-! ### Facts about memory are kept -/

/-- a fact `At` is carried along the steps that change no number -/
syntax "at!" : tactic
macro_rules
  | `(tactic| at!) => `(tactic| first
    | assumption
    | (with_reducible apply At.keep; rotate_left; assumption; at!))

/-- steps that change no number, one after the other -/
syntax "kept!" : tactic
macro_rules
  | `(tactic| kept!) => `(tactic| first
    | assumption
    | exact Kept.refl _
    | (with_reducible refine Kept.trans ?_ (by assumption); kept!))

namespace Tri
variable {α β γ δ : Type} {c : Rights} {h : Heap}

/-- a step that returns a new number -/
theorem fresh {m : HM Nat} {y : Go U256} {f : Nat → HM γ} {g : U256 → Go δ} {S : γ → Heap → δ → Prop}
    (t : Tri c m h y (fun r h' v => Fresh c h r h' v))
    (hf : ∀ r h' v, Kept h h' → At c h' r v → h.next ≤ r → Tri c (f r) h' (g v) S) : Tri c (m >>= f) h (y >>= g) S :=
  t.bind fun r h' v fr => hf r h' v fr.kept fr.at_ fr.new

/-- a step that returns a new number and does not fail -/
theorem fresh1 {m : HM Nat} {v : U256} {f : Nat → HM γ} {y : Go δ} {S : γ → Heap → δ → Prop}
    (t : Tri c m h (.ok v) (fun r h' v => Fresh c h r h' v))
    (hf : ∀ r h', Kept h h' → At c h' r v → h.next ≤ r → Tri c (f r) h' y S) : Tri c (m >>= f) h y S :=
  t.step fun r h' fr => hf r h' fr.kept fr.at_ fr.new

/-- the last step -/
theorem tail {h0 : Heap} {m : HM Nat} {y : Go U256} (k : Kept h0 h) (t : Tri c m h y (fun r h' v => Fresh c h r h' v)) :
    Tri c m h y (fun r h' v => Fresh c h0 r h' v) := t.mono fun _ _ _ f => Fresh.after k f

/-- nothing but a return after the last step -/
theorem ret_left {m : HM α} {y : Go β} {R : α → Heap → β → Prop} {k : α → γ} {S : γ → Heap → β → Prop} (t : Tri c m h y R)
    (hs : ∀ a h' b, R a h' b → S (k a) h' b) : Tri c (m >>= fun a => pure (k a)) h y S := by
  have := t.bind (f := fun a => pure (k a)) (g := pure) (S := S) fun a h' b r => Tri.ret (hs a h' b r)
  rwa [bind_pure] at this

theorem mk {op : Nat → HM Unit} {y : Go U256} (hb : c.base ≤ h.next)
    (t : ∀ z h', Kept h h' → At c h' z zero → c.canWrite z → Tri c (op z) h' y (fun _ h'' v => Stored h' z h'' v)) :
    Tri c (Ptr.mk op) h y (fun r h' v => Fresh c h r h' v) := by
  refine (tri_new hb zero).step fun z h' fr => ?_
  exact (t z h' fr.kept fr.at_ (fr.write hb)).ret_left (k := fun _ => z) fun _ h'' v s => fr.stored s

end Tri

section methods
variable {c : Rights} {h : Heap} {x y : Nat} {a b : U256}

theorem mk_add (ax : At c h x a) (ay : At c h y b) :
    Tri c (mk fun z => add z x y) h (.ok (U256.add a b)) (fun r h' v => Fresh c h r h' v) :=
  Tri.mk ax.base fun _ _ k _ w => tri_add w (ax.keep k) (ay.keep k)
theorem mk_sub (ax : At c h x a) (ay : At c h y b) :
    Tri c (mk fun z => sub z x y) h (.ok (U256.sub a b)) (fun r h' v => Fresh c h r h' v) :=
  Tri.mk ax.base fun _ _ k _ w => tri_sub w (ax.keep k) (ay.keep k)
theorem mk_mul (ax : At c h x a) (ay : At c h y b) :
    Tri c (mk fun z => mul z x y) h (.ok (U256.mul a b)) (fun r h' v => Fresh c h r h' v) :=
  Tri.mk ax.base fun _ _ k _ w => tri_mul w (ax.keep k) (ay.keep k)
theorem mk_and (ax : At c h x a) (ay : At c h y b) :
    Tri c (mk fun z => InPlace.and z x y) h (.ok (U256.and a b)) (fun r h' v => Fresh c h r h' v) :=
  Tri.mk ax.base fun _ _ k _ w => tri_and w (ax.keep k) (ay.keep k)
theorem mk_lsh (ax : At c h x a) (n : Nat) :
    Tri c (mk fun z => lsh z x n) h (.ok (U256.lsh a n)) (fun r h' v => Fresh c h r h' v) :=
  Tri.mk ax.base fun _ _ k _ w => tri_lsh w (ax.keep k) n
theorem mk_rsh (ax : At c h x a) (n : Nat) :
    Tri c (mk fun z => rsh z x n) h (.ok (U256.rsh a n)) (fun r h' v => Fresh c h r h' v) :=
  Tri.mk ax.base fun _ _ k _ w => tri_rsh w (ax.keep k) n
theorem mk_set (ax : At c h x a) :
    Tri c (mk fun z => set z x) h (.ok a) (fun r h' v => Fresh c h r h' v) :=
  Tri.mk ax.base fun _ _ k _ w => tri_set w (ax.keep k)
theorem mk_neg (ax : At c h x a) :
    Tri c (mk fun z => neg z x) h (.ok (U256.neg a)) (fun r h' v => Fresh c h r h' v) :=
  Tri.mk ax.base fun _ _ k az w => tri_neg w az.lt (ax.keep k)
theorem mk_div (ax : At c h x a) (ay : At c h y b) :
    Tri c (mk fun z => div z x y) h (U256.div a b) (fun r h' v => Fresh c h r h' v) :=
  Tri.mk ax.base fun _ _ k _ w => tri_div w (ax.keep k) (ay.keep k)
theorem mk_sdiv (ax : At c h x a) (ay : At c h y b) :
    Tri c (mk fun z => sdiv z x y) h (U256.sdiv a b) (fun r h' v => Fresh c h r h' v) :=
  Tri.mk ax.base fun _ _ k az w => tri_sdiv w az.lt (ax.keep k) (ay.keep k)
theorem mk_sqrt (ax : At c h x a) :
    Tri c (mk fun z => sqrt z x) h (U256.sqrt a) (fun r h' v => Fresh c h r h' v) :=
  Tri.mk ax.base fun _ _ k az w => tri_sqrt w az.lt (ax.keep k)

theorem tri_clone (ax : At c h x a) : Tri c (clone x) h (.ok a) (fun r h' v => Fresh c h r h' v) :=
  Tri.load_bind ax (tri_new ax.base a)

end methods

/-! ### The package-level numbers -/

/-- The package-level numbers are in memory, have their values and may be read. -/
structure Consts (c : Rights) (h : Heap) : Prop where
  zero : At c h zeroAt U256.zero
  one : At c h oneAt U256.one
  maxUint256 : At c h maxUint256At Cons.maxUint256
  q128 : At c h q128At Cons.q128
  q96 : At c h q96At Cons.q96
  q192 : At c h q192At Cons.q192
  maxUint160 : At c h maxUint160At SqrtPriceMath.maxUint160
  maxFee : At c h maxFeeAt SwapMath.maxFee
  minSqrtRatio : At c h minSqrtRatioAt TickMath.minSqrtRatio
  maxSqrtRatio : At c h maxSqrtRatioAt TickMath.maxSqrtRatio
  table : ∀ i v, TickMath.ticksAt i = .ok v → At c h (tableAt i) v

theorem table_lt {i : Int} {v : U256} (hv : TickMath.ticksAt i = .ok v) : tableAt i < constEnd := by
  unfold TickMath.ticksAt at hv
  by_cases hi : 0 ≤ i ∧ i < TickMath.totalTicks
  · unfold tableAt constEnd
    have : i.toNat < TickMath.totalTicks.toNat := by
      have := hi.1; have := hi.2
      omega
    omega
  · rw [if_neg hi] at hv; cases hv

theorem Consts.map {c d : Rights} {h h' : Heap} (k : Consts c h) (f : ∀ r v, r < constEnd → At c h r v → At d h' r v) : Consts d h' := by
  have e : constEnd = 1774561 := by decide
  have hl : ∀ r, r < 16 → r < constEnd := fun r hr => by omega
  refine ⟨f _ _ (hl _ (by decide)) k.zero, f _ _ (hl _ (by decide)) k.one, f _ _ (hl _ (by decide)) k.maxUint256,
    f _ _ (hl _ (by decide)) k.q128, f _ _ (hl _ (by decide)) k.q96, f _ _ (hl _ (by decide)) k.q192,
    f _ _ (hl _ (by decide)) k.maxUint160, f _ _ (hl _ (by decide)) k.maxFee, f _ _ (hl _ (by decide)) k.minSqrtRatio,
    f _ _ (hl _ (by decide)) k.maxSqrtRatio, fun i v hv => f _ _ ?_ (k.table i v hv)⟩
  exact table_lt hv

theorem Consts.keep {c : Rights} {h h' : Heap} (k : Consts c h) (l : Kept h h') : Consts c h' :=
  k.map fun _ _ _ a => a.keep l

/-! ### `lib/fullmath` -/

section
variable {c : Rights} {h : Heap}

theorem tri_roundUp (kc : Consts c h) (v rem : U256) :
    Tri c (roundUp v rem) h (.ok (if !rem.isZero then U256.add v U256.one else v)) (fun r h' v => Fresh c h r h' v) := by
  unfold roundUp whenM
  refine (tri_new kc.one.base v).step fun r h' fr => ?_
  by_cases hr : (!rem.isZero) = true
  · rw [if_pos hr, if_pos hr]
    refine (tri_add (fr.write kc.one.base) fr.at_ (kc.one.keep fr.kept)).step fun _ h'' s => ?_
    exact Tri.ret (fr.stored s)
  · rw [if_neg hr, if_neg hr]
    exact Tri.ret fr

theorem tri_mulDivRoundingUp (kc : Consts c h) {a b d : Nat} {va vb vd : U256} (ha : At c h a va) (hb : At c h b vb)
    (hd : At c h d vd) :
    Tri c (mulDivRoundingUp a b d) h (FullMath.mulDivRoundingUp va vb vd) (fun r h' v => Fresh c h r h' v) := by
  unfold mulDivRoundingUp FullMath.mulDivRoundingUp
  refine Tri.load_bind ha (Tri.load_bind hb ?_)
  refine Tri.ite (fun _ => tri_new ha.base _) fun _ => ?_
  refine Tri.load_bind hd (Tri.lift_bind fun r => ?_)
  exact tri_roundUp kc _ _

theorem tri_mulDiv {a b d : Nat} {va vb vd : U256} (ha : At c h a va) (hb : At c h b vb) (hd : At c h d vd) :
    Tri c (mulDiv a b d) h (FullMath.mulDiv va vb vd) (fun r h' v => Fresh c h r h' v) := by
  unfold mulDiv FullMath.mulDiv
  refine Tri.load_bind ha (Tri.load_bind hb ?_)
  refine Tri.ite (fun _ => tri_new ha.base _) fun _ => ?_
  refine Tri.load_bind hd (Tri.lift_bind fun r => ?_)
  exact tri_new ha.base _

/-! ### `lib/sqrtprice_math` -/

theorem tri_multiplyIn256 (kc : Consts c h) {x y : Nat} {vx vy : U256} (hx : At c h x vx) (hy : At c h y vy) :
    Tri c (multiplyIn256 x y) h (.ok (SqrtPriceMath.multiplyIn256 vx vy)) (fun r h' v => Fresh c h r h' v) := by
  refine (mk_mul hx hy).fresh1 fun r h1 k1 a1 _ => ?_
  exact (mk_and a1 (kc.maxUint256.keep k1)).tail k1

theorem tri_addIn256 (kc : Consts c h) {x y : Nat} {vx vy : U256} (hx : At c h x vx) (hy : At c h y vy) :
    Tri c (addIn256 x y) h (.ok (SqrtPriceMath.addIn256 vx vy)) (fun r h' v => Fresh c h r h' v) := by
  refine (mk_add hx hy).fresh1 fun r h1 k1 a1 _ => ?_
  exact (mk_and a1 (kc.maxUint256.keep k1)).tail k1

theorem tri_order {a b : Nat} {va vb : U256} (ha : At c h a va) (hb : At c h b vb) :
    Tri c (order a b) h (.ok (SqrtPriceMath.order va vb))
      (fun p h' w => h' = h ∧ At c h p.1 w.1 ∧ At c h p.2 w.2) := by
  unfold order SqrtPriceMath.order
  refine Tri.load_bind ha (Tri.load_bind hb ?_)
  by_cases hc : cmp va vb > 0
  · rw [if_pos hc, if_pos hc]
    exact Tri.ret ⟨rfl, hb, ha⟩
  · rw [if_neg hc, if_neg hc]
    exact Tri.ret ⟨rfl, ha, hb⟩

theorem tri_getAmount0Delta (kc : Consts c h) {a b l : Nat} {va vb vl : U256} (ha : At c h a va) (hb : At c h b vb)
    (hl : At c h l vl) (up : Bool) :
    Tri c (getAmount0Delta a b l up) h (SqrtPriceMath.getAmount0Delta va vb vl up) (fun r h' v => Fresh c h r h' v) := by
  unfold getAmount0Delta SqrtPriceMath.getAmount0Delta
  dsimp only
  refine (tri_order ha hb).step ?_
  rintro p _ ⟨rfl, o1, o2⟩
  refine (mk_lsh hl 96).fresh1 fun n1 h1 k1 a1 _ => ?_
  refine (mk_sub (o2.keep k1) (o1.keep k1)).fresh1 fun n2 h2 k2 a2 _ => ?_
  have kc2 := (kc.keep k1).keep k2
  refine Tri.ite (fun _ => ?_) (fun _ => ?_)
  · refine (tri_mulDivRoundingUp kc2 (a1.keep k2) a2 (by at!)).fresh fun x h3 v k3 a3 _ => ?_
    exact (tri_mulDivRoundingUp (kc2.keep k3) a3 (kc2.keep k3).one (by at!)).tail (by kept!)
  · refine Tri.bind (tri_mulDiv (a1.keep k2) a2 (by at!)) fun x h3 v fr => ?_
    have k3 := fr.kept
    have t := tri_div (fr.write a2.base) fr.at_ (((o1.keep k1).keep k2).keep k3)
    exact t.ret_left (k := fun _ => x) fun _ h4 w s => Fresh.after (k1.trans k2) (fr.stored s)

theorem tri_getAmount1Delta (kc : Consts c h) {a b l : Nat} {va vb vl : U256} (ha : At c h a va) (hb : At c h b vb)
    (hl : At c h l vl) (up : Bool) :
    Tri c (getAmount1Delta a b l up) h (SqrtPriceMath.getAmount1Delta va vb vl up) (fun r h' v => Fresh c h r h' v) := by
  unfold getAmount1Delta SqrtPriceMath.getAmount1Delta
  dsimp only
  refine (tri_order ha hb).step ?_
  rintro p _ ⟨rfl, o1, o2⟩
  refine (mk_sub o2 o1).fresh1 fun n2 h2 k2 a2 _ => ?_
  have kc2 := kc.keep k2
  refine Tri.ite (fun _ => ?_) (fun _ => ?_)
  · exact (tri_mulDivRoundingUp kc2 (by at!) a2 kc2.q96).tail (by kept!)
  · exact (tri_mulDiv (by at!) a2 kc2.q96).tail (by kept!)

/-- `r` is the pointer `p` or a new number; no number has changed -/
structure FreshOr (c : Rights) (p : Nat) (h : Heap) (r : Nat) (h' : Heap) (v : U256) : Prop where
  kept : Kept h h'
  at_ : At c h' r v
  new : r = p ∨ h.next ≤ r

theorem Fresh.orPtr {h h' : Heap} {r p : Nat} {v : U256} (f : Fresh c h r h' v) : FreshOr c p h r h' v := ⟨f.kept, f.at_, .inr f.new⟩
theorem Tri.tailOr {α : Type} {h0 : Heap} {p : Nat} {m : HM Nat} {y : Go U256} (k : Kept h0 h)
    (t : Tri c m h y (fun r h' v => Fresh c h r h' v)) : Tri c m h y (fun r h' v => FreshOr c p h0 r h' v) :=
  t.mono fun _ _ _ f => (Fresh.after k f).orPtr

theorem tri_nextFromAmount0 (kc : Consts c h) {p l a : Nat} {vp vl va : U256} (hp : At c h p vp) (hl : At c h l vl)
    (ha : At c h a va) (plus : Bool) :
    Tri c (getNextSqrtPriceFromAmount0RoundingUp p l a plus) h
      (SqrtPriceMath.getNextSqrtPriceFromAmount0RoundingUp vp vl va plus) (fun r h' v => FreshOr c p h r h' v) := by
  unfold getNextSqrtPriceFromAmount0RoundingUp SqrtPriceMath.getNextSqrtPriceFromAmount0RoundingUp
  dsimp only
  refine Tri.load_bind ha ?_
  refine Tri.ite (fun _ => Tri.ret ⟨Kept.refl _, hp, .inl rfl⟩) fun _ => ?_
  refine (mk_lsh hl 96).fresh1 fun n1 h1 k1 a1 _ => ?_
  have kc1 := kc.keep k1
  refine Tri.ite (fun _ => ?_) (fun _ => ?_)
  · refine (tri_multiplyIn256 kc1 (by at!) (by at!)).fresh1 fun pr h2 k2 a2 _ => ?_
    refine (mk_div a2 (by at!)).fresh fun q h3 vq k3 a3 _ => ?_
    have kc3 := (kc1.keep k2).keep k3
    refine (tri_addIn256 kc3 (show At c h3 n1 _ by at!) (show At c h3 pr _ by at!)).fresh1 fun d h4 k4 a4 _ => ?_
    have kc4 := kc3.keep k4
    refine Tri.load_bind (show At c h4 q _ by at!) ?_
    refine Tri.load_bind (show At c h4 p _ by at!) ?_
    refine Tri.load_bind a4 ?_
    refine Tri.load_bind (show At c h4 n1 _ by at!) ?_
    refine Tri.ite (fun _ => ?_) (fun _ => ?_)
    · exact (tri_mulDivRoundingUp kc4 (by at!) (by at!) a4).tailOr (α := Unit) (by kept!)
    · refine (mk_div (show At c h4 n1 _ by at!) (show At c h4 p _ by at!)).fresh fun e h5 ve k5 a5 _ => ?_
      refine (mk_add a5 (show At c h5 a _ by at!)).fresh1 fun s h6 k6 a6 _ => ?_
      have kc6 := (kc4.keep k5).keep k6
      exact (tri_mulDivRoundingUp kc6 (by at!) kc6.one a6).tailOr (α := Unit) (by kept!)
  · refine (tri_multiplyIn256 kc1 (by at!) (by at!)).fresh1 fun pr h2 k2 a2 _ => ?_
    refine (mk_sub (show At c h2 n1 _ by at!) a2).fresh1 fun d h3 k3 a3 _ => ?_
    have kc3 := (kc1.keep k2).keep k3
    exact (tri_mulDivRoundingUp kc3 (by at!) (by at!) a3).tailOr (α := Unit) (by kept!)

theorem tri_nextFromAmount1 (kc : Consts c h) {p l a : Nat} {vp vl va : U256} (hp : At c h p vp) (hl : At c h l vl)
    (ha : At c h a va) (plus : Bool) :
    Tri c (getNextSqrtPriceFromAmount1RoundingDown p l a plus) h
      (SqrtPriceMath.getNextSqrtPriceFromAmount1RoundingDown vp vl va plus) (fun r h' v => Fresh c h r h' v) := by
  unfold getNextSqrtPriceFromAmount1RoundingDown SqrtPriceMath.getNextSqrtPriceFromAmount1RoundingDown
  refine Tri.ite (fun _ => ?_) (fun _ => ?_)
  · refine Tri.load_bind ha (Tri.load_bind kc.maxUint160 ?_)
    refine Tri.ite (fun _ => ?_) (fun _ => ?_)
    · refine (mk_lsh ha 96).fresh1 fun x h1 k1 a1 _ => ?_
      refine (mk_div a1 (by at!)).fresh fun q h2 vq k2 a2 _ => ?_
      exact (mk_add (by at!) a2).tail (by kept!)
    · refine (mk_mul ha kc.q96).fresh1 fun x h1 k1 a1 _ => ?_
      refine (mk_div a1 (by at!)).fresh fun q h2 vq k2 a2 _ => ?_
      exact (mk_add (by at!) a2).tail (by kept!)
  · refine (tri_mulDivRoundingUp kc ha kc.q96 hl).fresh fun q h1 vq k1 a1 _ => ?_
    exact (mk_sub (by at!) a1).tail (by kept!)

theorem tri_nextFromInput (kc : Consts c h) {p l a : Nat} {vp vl va : U256} (hp : At c h p vp) (hl : At c h l vl)
    (ha : At c h a va) (zf : Bool) :
    Tri c (getNextSqrtPriceFromInput p l a zf) h
      (SqrtPriceMath.getNextSqrtPriceFromInput vp vl va zf) (fun r h' v => FreshOr c p h r h' v) := by
  unfold getNextSqrtPriceFromInput SqrtPriceMath.getNextSqrtPriceFromInput
  refine Tri.load_bind hp (Tri.lift_bind fun _ => Tri.load_bind hl (Tri.lift_bind fun _ => ?_))
  exact Tri.ite (fun _ => tri_nextFromAmount0 kc hp hl ha true)
    (fun _ => (tri_nextFromAmount1 kc hp hl ha true).tailOr (α := Unit) (Kept.refl _))

theorem tri_nextFromOutput (kc : Consts c h) {p l a : Nat} {vp vl va : U256} (hp : At c h p vp) (hl : At c h l vl)
    (ha : At c h a va) (zf : Bool) :
    Tri c (getNextSqrtPriceFromOutput p l a zf) h
      (SqrtPriceMath.getNextSqrtPriceFromOutput vp vl va zf) (fun r h' v => FreshOr c p h r h' v) := by
  unfold getNextSqrtPriceFromOutput SqrtPriceMath.getNextSqrtPriceFromOutput
  refine Tri.load_bind hp (Tri.lift_bind fun _ => Tri.load_bind hl (Tri.lift_bind fun _ => ?_))
  exact Tri.ite (fun _ => (tri_nextFromAmount1 kc hp hl ha false).tailOr (α := Unit) (Kept.refl _))
    (fun _ => tri_nextFromAmount0 kc hp hl ha false)

theorem tri_getAmount0DeltaRounded (kc : Consts c h) {a b l : Nat} {va vb vl : U256} (ha : At c h a va) (hb : At c h b vb)
    (hl : At c h l vl) :
    Tri c (getAmount0DeltaRounded a b l) h (SqrtPriceMath.getAmount0DeltaRounded va vb vl) (fun r h' v => Fresh c h r h' v) := by
  unfold getAmount0DeltaRounded SqrtPriceMath.getAmount0DeltaRounded
  refine Tri.load_bind hl (Tri.ite (fun _ => ?_) (fun _ => tri_getAmount0Delta kc ha hb hl true))
  refine (mk_neg hl).fresh1 fun l1 h1 k1 a1 _ => ?_
  refine (tri_getAmount0Delta (kc.keep k1) (by at!) (by at!) a1 false).fresh fun x h2 v k2 a2 _ => ?_
  exact (mk_neg a2).tail (by kept!)

theorem tri_getAmount1DeltaRounded (kc : Consts c h) {a b l : Nat} {va vb vl : U256} (ha : At c h a va) (hb : At c h b vb)
    (hl : At c h l vl) :
    Tri c (getAmount1DeltaRounded a b l) h (SqrtPriceMath.getAmount1DeltaRounded va vb vl) (fun r h' v => Fresh c h r h' v) := by
  unfold getAmount1DeltaRounded SqrtPriceMath.getAmount1DeltaRounded
  refine Tri.load_bind hl (Tri.ite (fun _ => ?_) (fun _ => tri_getAmount1Delta kc ha hb hl true))
  refine (mk_neg hl).fresh1 fun l1 h1 k1 a1 _ => ?_
  refine (tri_getAmount1Delta (kc.keep k1) (by at!) (by at!) a1 false).fresh fun x h2 v k2 a2 _ => ?_
  exact (mk_neg a2).tail (by kept!)

/-! ### `lib/swapmath` -/

theorem tri_newGoInt (hb : c.base ≤ h.next) (i : Int) :
    Tri c (newGoInt i) h (.ok (SwapMath.ofGoInt i)) (fun r h' v => Fresh c h r h' v) := tri_new hb _

theorem tri_stepIn (kc : Consts c h) (zf : Bool) {p t l : Nat} {vp vt vl : U256} (hp : At c h p vp) (ht : At c h t vt)
    (hl : At c h l vl) :
    Tri c (stepIn zf p t l) h (SwapMath.stepIn zf vp vt vl) (fun r h' v => Fresh c h r h' v) :=
  Tri.ite (fun _ => tri_getAmount0Delta kc ht hp hl true) (fun _ => tri_getAmount1Delta kc hp ht hl true)

theorem tri_stepOut (kc : Consts c h) (zf : Bool) {p t l : Nat} {vp vt vl : U256} (hp : At c h p vp) (ht : At c h t vt)
    (hl : At c h l vl) :
    Tri c (stepOut zf p t l) h (SwapMath.stepOut zf vp vt vl) (fun r h' v => Fresh c h r h' v) :=
  Tri.ite (fun _ => tri_getAmount1Delta kc ht hp hl false) (fun _ => tri_getAmount0Delta kc hp ht hl false)

/-- the outcome of `stepPrice` -/
structure PriceOk (c : Rights) (p : Nat) (exactIn : Bool) (h : Heap) (r : Nat × Nat) (h' : Heap) (v : U256 × U256 × U256) : Prop where
  kept : Kept h h'
  next : At c h' r.1 v.1
  new : r.1 = p ∨ h.next ≤ r.1
  amount : At c h' r.2 (if exactIn then v.2.1 else v.2.2)
  amountNew : h.next ≤ r.2

theorem tri_stepPrice (kc : Consts c h) {p t l r m : Nat} {vp vt vl vr : U256} (hp : At c h p vp) (ht : At c h t vt)
    (hl : At c h l vl) (hr : At c h r vr) (hm : At c h m (U256.neg vr)) (fee : Int) (zf ei : Bool) :
    Tri c (stepPrice p t l r m fee zf ei) h (SwapMath.stepPrice vp vt vl vr fee zf ei) (fun r h' v => PriceOk c p ei h r h' v) := by
  unfold stepPrice SwapMath.stepPrice
  refine Tri.ite (fun he => ?_) (fun he => ?_)
  · refine (tri_newGoInt hp.base fee).fresh1 fun f h1 k1 a1 _ => ?_
    refine (mk_sub (kc.maxFee.keep k1) a1).fresh1 fun x h2 k2 a2 _ => ?_
    refine (mk_mul (show At c h2 r _ by at!) a2).fresh1 fun y h3 k3 a3 _ => ?_
    have kc3 := ((kc.keep k1).keep k2).keep k3
    refine (mk_div a3 kc3.maxFee).fresh fun lf h4 vlf k4 a4 _ => ?_
    have kc4 := kc3.keep k4
    refine (tri_stepIn kc4 zf (show At c h4 p _ by at!) (show At c h4 t _ by at!) (show At c h4 l _ by at!)).fresh
      fun ai h5 vi k5 a5 n5 => ?_
    have kc5 := kc4.keep k5
    have n5' : h.next ≤ ai := le_trans (((k1.trans k2).trans k3).trans k4).le n5
    refine Tri.load_bind (show At c h5 lf _ by at!) (Tri.load_bind a5 ?_)
    refine Tri.ite (fun _ => ?_) (fun _ => ?_)
    · refine Tri.step (tri_clone (show At c h5 t _ by at!)) fun nx h6 fr => ?_
      have k6 := fr.kept
      refine Tri.ret ⟨by kept!, fr.at_, .inr ?_, by rw [if_pos he]; at!, n5'⟩
      exact le_trans ((((k1.trans k2).trans k3).trans k4).trans k5).le fr.new
    · refine Tri.bind (tri_nextFromInput kc5 (show At c h5 p _ by at!) (show At c h5 l _ by at!) (show At c h5 lf _ by at!) zf)
        fun nx h6 v fr => ?_
      have k6 := fr.kept
      refine Tri.ret ⟨by kept!, fr.at_, fr.new.imp id ?_, by rw [if_pos he]; at!, n5'⟩
      exact le_trans ((((k1.trans k2).trans k3).trans k4).trans k5).le
  · refine (tri_stepOut kc zf hp ht hl).fresh fun ao h5 vo k5 a5 n5 => ?_
    have kc5 := kc.keep k5
    refine Tri.load_bind (show At c h5 m _ by at!) (Tri.load_bind a5 ?_)
    refine Tri.ite (fun _ => ?_) (fun _ => ?_)
    · refine Tri.step (tri_clone (show At c h5 t _ by at!)) fun nx h6 fr => ?_
      have k6 := fr.kept
      refine Tri.ret ⟨by kept!, fr.at_, .inr (le_trans k5.le fr.new), by rw [if_neg he]; at!, n5⟩
    · refine Tri.bind (tri_nextFromOutput kc5 (show At c h5 p _ by at!) (show At c h5 l _ by at!) (show At c h5 m _ by at!) zf)
        fun nx h6 v fr => ?_
      have k6 := fr.kept
      refine Tri.ret ⟨by kept!, fr.at_, fr.new.imp id (le_trans k5.le), by rw [if_neg he]; at!, n5⟩

/-- `reassign`: the old pointer if the condition fails -/
theorem tri_reassign {b : Bool} {f : HM Nat} {g : Go U256} {old : Nat} {vo : U256} (ho : b = false → At c h old vo)
    (t : Tri c f h g (fun r h' v => Fresh c h r h' v)) :
    Tri c (reassign b f old) h (SwapMath.reassign b g vo) (fun r h' v => FreshOr c old h r h' v) := by
  unfold reassign SwapMath.reassign
  refine Tri.ite (fun _ => t.tailOr (α := Unit) (Kept.refl _)) (fun hb => ?_)
  exact Tri.ret ⟨Kept.refl _, ho (by simpa using hb), .inl rfl⟩

/-- the outcome of `stepAmounts` -/
structure AmountsOk (c : Rights) (h : Heap) (old : Nat) (r : Nat × Nat) (h' : Heap) (v : U256 × U256) : Prop where
  kept : Kept h h'
  in_ : At c h' r.1 v.1
  out : At c h' r.2 v.2
  newIn : r.1 = old ∨ h.next ≤ r.1
  newOut : r.2 = old ∨ h.next ≤ r.2

theorem tri_stepAmounts (kc : Consts c h) {p l n a : Nat} {vp vl vn vi vo : U256} (hp : At c h p vp) (hl : At c h l vl)
    (hn : At c h n vn) (ei : Bool) (ha : At c h a (if ei then vi else vo)) (zf mx : Bool) :
    Tri c (stepAmounts p l n a zf ei mx) h (SwapMath.stepAmounts vp vl vn vi vo zf ei mx)
      (fun r h' v => AmountsOk c h a r h' v) := by
  have e1 : (!(mx && ei)) = false → At c h a vi := by
    intro e
    have : ei = true := by cases ei <;> simp_all
    subst this; exact ha
  have e2 : (!(mx && !ei)) = false → ∀ {h'}, Kept h h' → At c h' a vo := by
    intro e h' k
    have : ei = false := by cases ei <;> simp_all
    subst this; exact At.keep ha k
  unfold stepAmounts SwapMath.stepAmounts
  refine Tri.ite (fun _ => ?_) (fun _ => ?_)
  · refine (tri_reassign e1 (tri_getAmount0Delta kc hn hp hl true)).bind fun i h1 v f1 => ?_
    have k1 := f1.kept
    refine (tri_reassign (fun e => e2 e k1) (tri_getAmount1Delta (kc.keep k1) (hn.keep k1) (hp.keep k1) (hl.keep k1) false)).bind
      fun o h2 w f2 => Tri.ret ?_
    exact ⟨k1.trans f2.kept, f1.at_.keep f2.kept, f2.at_, f1.new, f2.new.imp id (le_trans k1.le)⟩
  · refine (tri_reassign e1 (tri_getAmount1Delta kc hp hn hl true)).bind fun i h1 v f1 => ?_
    have k1 := f1.kept
    refine (tri_reassign (fun e => e2 e k1) (tri_getAmount0Delta (kc.keep k1) (hp.keep k1) (hn.keep k1) (hl.keep k1) false)).bind
      fun o h2 w f2 => Tri.ret ?_
    exact ⟨k1.trans f2.kept, f1.at_.keep f2.kept, f2.at_, f1.new, f2.new.imp id (le_trans k1.le)⟩

theorem tri_capOut (ei : Bool) {o r m : Nat} {vo vr : U256} (ho : At c h o vo) (hr : At c h r vr) (hm : At c h m (U256.neg vr)) :
    Tri c (capOut ei o r m) h (.ok (if !ei && decide (cmp vo (U256.neg vr) > 0) then U256.neg vr else vo))
      (fun r h' v => FreshOr c o h r h' v) := by
  unfold capOut
  cases ei with
  | true => exact Tri.ret ⟨Kept.refl _, ho, .inl rfl⟩
  | false =>
    simp only [Bool.not_false, if_true, Bool.true_and]
    refine Tri.load_bind ho ?_
    refine (mk_neg hr).fresh1 fun x h1 k1 a1 _ => ?_
    refine Tri.load_bind a1 ?_
    by_cases hc : cmp vo (U256.neg vr) > 0
    · rw [if_pos hc, if_pos (decide_eq_true hc)]
      exact (tri_clone (hm.keep k1)).tailOr (α := Unit) k1
    · rw [if_neg hc, if_neg (by simpa using hc)]
      exact Tri.ret ⟨k1, ho.keep k1, .inl rfl⟩

theorem tri_stepFee (kc : Consts c h) (ei : Bool) {n t r i : Nat} {vn vt vr vi : U256} (hn : At c h n vn) (ht : At c h t vt)
    (hr : At c h r vr) (hi : At c h i vi) (fee : Int) :
    Tri c (stepFee ei n t r i fee) h (if ei && decide (cmp vn vt ≠ 0) then .ok (U256.sub vr vi) else
      FullMath.mulDivRoundingUp vi (SwapMath.ofGoInt fee) (U256.sub SwapMath.maxFee (SwapMath.ofGoInt fee)))
      (fun r h' v => Fresh c h r h' v) := by
  unfold stepFee
  refine Tri.load_bind hn (Tri.load_bind ht ?_)
  refine Tri.ite (fun _ => mk_sub hr hi) (fun _ => ?_)
  refine (tri_newGoInt hn.base fee).fresh1 fun f h1 k1 a1 _ => ?_
  refine (tri_newGoInt a1.base fee).fresh1 fun g h2 k2 a2 _ => ?_
  refine (mk_sub ((kc.keep k1).keep k2).maxFee a2).fresh1 fun d h3 k3 a3 _ => ?_
  exact (tri_mulDivRoundingUp (((kc.keep k1).keep k2).keep k3) (by at!) (show At c h3 f _ by at!) a3).tail (by kept!)

/-- the outcome of `computeSwapStep`: the price pointer is the current one or new, the amounts are new numbers -/
structure SwapStepOk (c : Rights) (p : Nat) (h : Heap) (r : Ptr.Step) (h' : Heap) (v : SwapMath.Step) : Prop where
  kept : Kept h h'
  next : At c h' r.next v.next
  new : r.next = p ∨ h.next ≤ r.next
  in_ : At c h' r.amountIn v.amountIn
  out : At c h' r.amountOut v.amountOut
  fee : At c h' r.fee v.fee
  newIn : h.next ≤ r.amountIn
  newOut : h.next ≤ r.amountOut
  newFee : h.next ≤ r.fee

theorem tri_computeSwapStep (kc : Consts c h) {p t l r : Nat} {vp vt vl vr : U256} (hp : At c h p vp) (ht : At c h t vt)
    (hl : At c h l vl) (hr : At c h r vr) (fee : Int) :
    Tri c (computeSwapStep p t l r fee) h (SwapMath.computeSwapStep vp vt vl vr fee) (fun r h' v => SwapStepOk c p h r h' v) := by
  unfold computeSwapStep SwapMath.computeSwapStep
  dsimp only
  refine Tri.load_bind hp (Tri.load_bind ht (Tri.load_bind hr ?_))
  refine (mk_neg hr).fresh1 fun m h1 k1 a1 _ => ?_
  refine Tri.bind (tri_stepPrice (kc.keep k1) (hp.keep k1) (ht.keep k1) (hl.keep k1) (hr.keep k1) a1 fee
    (decide (cmp vp vt ≥ 0)) (decide (sign vr ≥ 0))) ?_
  rintro ⟨n, a⟩ h2 ⟨vn, vi, vo⟩ ⟨k2, hn, hnew, ha, na⟩
  dsimp only at hn hnew ha na ⊢
  have kc2 := (kc.keep k1).keep k2
  refine Tri.load_bind hn ?_
  refine Tri.bind (tri_stepAmounts (vi := vi) (vo := vo) kc2 (show At c h2 p _ by at!) (show At c h2 l _ by at!) hn
    (decide (sign vr ≥ 0)) ha (decide (cmp vp vt ≥ 0)) (decide (cmp vt vn = 0))) ?_
  rintro ⟨i, o⟩ h3 ⟨wi, wo⟩ ⟨k3, hi, ho, ni, no⟩
  dsimp only at hi ho ni no ⊢
  have kc3 := kc2.keep k3
  refine Tri.step (tri_capOut (decide (sign vr ≥ 0)) ho (show At c h3 r _ by at!) (show At c h3 m _ by at!)) ?_
  rintro o' h4 ⟨k4, ho', no'⟩
  have kc4 := kc3.keep k4
  have e1 := k1.le
  have e2 := k2.le
  have e3 := k3.le
  have e4 := k4.le
  have t := tri_stepFee kc4 (decide (sign vr ≥ 0)) (show At c h4 n _ by at!) (show At c h4 t _ by at!) (show At c h4 r _ by at!)
    (show At c h4 i _ by at!) fee
  by_cases hc : (decide (sign vr ≥ 0) && decide (cmp vn vt ≠ 0)) = true
  · rw [if_pos hc] at t ⊢
    refine Tri.step t fun f h5 fr => Tri.ret ?_
    have k5 := fr.kept
    exact ⟨by kept!, by at!, hnew.imp id (le_trans k1.le), by at!, by at!, fr.at_, by dsimp only; omega, by dsimp only; omega,
      by have := fr.new; dsimp only; omega⟩
  · rw [if_neg hc] at t ⊢
    refine Tri.bind t fun f h5 w fr => Tri.ret ?_
    have k5 := fr.kept
    exact ⟨by kept!, by at!, hnew.imp id (le_trans k1.le), by at!, by at!, fr.at_, by dsimp only; omega, by dsimp only; omega,
      by have := fr.new; dsimp only; omega⟩

/-! ### `lib/tickmath` -/

theorem ticksAt_ok {i : Int} (hi : 0 ≤ i ∧ i < TickMath.totalTicks) : ∃ v, TickMath.ticksAt i = .ok v := by
  unfold TickMath.ticksAt
  rw [if_pos hi]
  have e : TickMath.totalTicks = 1774545 := rfl
  have e' : TickMath.minTick = -887272 := rfl
  have h1 := hi.1
  have h2 := hi.2
  obtain ⟨v, hv, _⟩ := TickMath.getSqrtRatioAtTick'_spec (i + TickMath.minTick) (by omega) (by omega)
  exact ⟨v, hv⟩

theorem tri_table (kc : Consts c h) {γ δ : Type} {f : Nat → HM γ} {g : U256 → Go δ} {S : γ → Heap → δ → Prop} (i : Int)
    (hf : ∀ t v, At c h t v → Tri c (f t) h (g v) S) : Tri c (lift (tablePtr i) >>= f) h (TickMath.ticksAt i >>= g) S := by
  by_cases hi : 0 ≤ i ∧ i < TickMath.totalTicks
  · obtain ⟨v, hv⟩ := ticksAt_ok hi
    have e : tablePtr i = .ok (tableAt i) := if_pos hi
    rw [e, hv]
    exact hf (tableAt i) v (kc.table i v hv)
  · have e : tablePtr i = .error .panic := if_neg hi
    have e' : TickMath.ticksAt i = .error .panic := if_neg hi
    rw [e, e']
    exact ⟨trivial, rfl⟩

theorem tri_getSqrtRatioAtTick (kc : Consts c h) (tick : Int) :
    Tri c (Ptr.getSqrtRatioAtTick tick) h (TickMath.getSqrtRatioAtTick tick) (fun r h' v => Fresh c h r h' v) := by
  unfold Ptr.getSqrtRatioAtTick TickMath.getSqrtRatioAtTick
  have := tri_table (g := pure) (S := fun r h' v => Fresh c h r h' v) kc (tick + TickMath.maxTick)
    (f := fun t => mk fun z => set z t) fun t v ht => mk_set ht
  rwa [bind_pure] at this

theorem tri_tickSearch (kc : Consts c h) {p : Nat} {vp : U256} (hp : At c h p vp) (fuel : Nat) : ∀ l r : Int,
    Tri c (tickSearch p fuel l r) h (TickMath.tickSearch vp fuel l r) (fun a h' b => a = b ∧ h' = h) := by
  induction fuel with
  | zero => intro l r; exact ⟨trivial, rfl⟩
  | succ n ih =>
    intro l r
    unfold tickSearch TickMath.tickSearch
    refine Tri.ite (fun _ => ?_) (fun _ => Tri.ret ⟨rfl, rfl⟩)
    refine tri_table kc _ fun t v ht => ?_
    refine Tri.load_bind ht (Tri.load_bind hp ?_)
    exact Tri.ite (fun _ => ih _ _) (fun _ => ih _ _)

theorem tri_getTickAtSqrtRatio (kc : Consts c h) {p : Nat} {vp : U256} (hp : At c h p vp) :
    Tri c (Ptr.getTickAtSqrtRatio p) h (TickMath.getTickAtSqrtRatio vp) (fun a h' b => a = b ∧ h' = h) := by
  unfold Ptr.getTickAtSqrtRatio TickMath.getTickAtSqrtRatio
  refine Tri.load_bind hp (Tri.load_bind kc.minSqrtRatio (Tri.load_bind kc.maxSqrtRatio (Tri.lift_bind fun _ => ?_)))
  refine (tri_tickSearch kc hp _ _ _).bind ?_
  rintro l _ _ ⟨rfl, rfl⟩
  exact Tri.ret ⟨rfl, rfl⟩

/-! ### `lib/liquidity_amounts` -/

theorem tri_getLiquidityForAmount0 (kc : Consts c h) {a b x : Nat} {va vb vx : U256} (ha : At c h a va) (hb : At c h b vb)
    (hx : At c h x vx) :
    Tri c (getLiquidityForAmount0 a b x) h (LiquidityAmounts.getLiquidityForAmount0 va vb vx) (fun r h' v => Fresh c h r h' v) := by
  unfold getLiquidityForAmount0 LiquidityAmounts.getLiquidityForAmount0
  dsimp only
  refine (tri_order ha hb).step ?_
  rintro p _ ⟨rfl, o1, o2⟩
  refine (tri_mulDiv o1 o2 kc.q96).fresh fun i h1 v k1 a1 _ => ?_
  refine (mk_sub (o2.keep k1) (o1.keep k1)).fresh1 fun d h2 k2 a2 _ => ?_
  exact (tri_mulDiv (by at!) (show At c h2 i _ by at!) a2).tail (by kept!)

theorem tri_getLiquidityForAmount1 (kc : Consts c h) {a b x : Nat} {va vb vx : U256} (ha : At c h a va) (hb : At c h b vb)
    (hx : At c h x vx) :
    Tri c (getLiquidityForAmount1 a b x) h (LiquidityAmounts.getLiquidityForAmount1 va vb vx) (fun r h' v => Fresh c h r h' v) := by
  unfold getLiquidityForAmount1 LiquidityAmounts.getLiquidityForAmount1
  dsimp only
  refine (tri_order ha hb).step ?_
  rintro p _ ⟨rfl, o1, o2⟩
  refine (mk_sub o2 o1).fresh1 fun d h2 k2 a2 _ => ?_
  exact (tri_mulDiv (by at!) (kc.keep k2).q96 a2).tail (by kept!)

theorem tri_getLiquidityForAmount (kc : Consts c h) {p a b x y : Nat} {vp va vb vx vy : U256} (hp : At c h p vp) (ha : At c h a va)
    (hb : At c h b vb) (hx : At c h x vx) (hy : At c h y vy) :
    Tri c (getLiquidityForAmount p a b x y) h (LiquidityAmounts.getLiquidityForAmount vp va vb vx vy)
      (fun r h' v => Fresh c h r h' v) := by
  unfold getLiquidityForAmount LiquidityAmounts.getLiquidityForAmount
  dsimp only
  refine (tri_order ha hb).step ?_
  rintro o _ ⟨rfl, o1, o2⟩
  refine Tri.load_bind hp (Tri.load_bind o1 (Tri.load_bind o2 ?_))
  refine Tri.ite (fun _ => tri_getLiquidityForAmount0 kc o1 o2 hx) (fun _ => ?_)
  refine Tri.ite (fun _ => ?_) (fun _ => tri_getLiquidityForAmount1 kc o1 o2 hy)
  refine (tri_getLiquidityForAmount0 kc hp o2 hx).bind fun l0 h1 v0 f0 => ?_
  have k0 := f0.kept
  refine (tri_getLiquidityForAmount1 (kc.keep k0) (o1.keep k0) (hp.keep k0) (hy.keep k0)).bind fun l1 h2 v1 f1 => ?_
  refine Tri.load_bind (f0.at_.keep f1.kept) (Tri.load_bind f1.at_ ?_)
  by_cases hc : cmp v0 v1 < 0
  · rw [if_pos hc, if_pos hc]; exact Tri.ret (f0.keep f1.kept)
  · rw [if_neg hc, if_neg hc]; exact Tri.ret (Fresh.after k0 f1)

theorem tri_getAmount0ForLiquidity {a b l : Nat} {va vb vl : U256} (ha : At c h a va) (hb : At c h b vb)
    (hl : At c h l vl) :
    Tri c (getAmount0ForLiquidity a b l) h (LiquidityAmounts.getAmount0ForLiquidity va vb vl) (fun r h' v => Fresh c h r h' v) := by
  unfold getAmount0ForLiquidity LiquidityAmounts.getAmount0ForLiquidity
  dsimp only
  refine (tri_order ha hb).step ?_
  rintro p _ ⟨rfl, o1, o2⟩
  refine (mk_lsh hl 96).fresh1 fun t1 h1 k1 a1 _ => ?_
  refine (mk_sub (o2.keep k1) (o1.keep k1)).fresh1 fun t2 h2 k2 a2 _ => ?_
  refine (tri_mulDiv (a1.keep k2) a2 (by at!)).fresh fun t3 h3 v k3 a3 _ => ?_
  exact (mk_div a3 (by at!)).tail (by kept!)

theorem tri_getAmount1ForLiquidity (kc : Consts c h) {a b l : Nat} {va vb vl : U256} (ha : At c h a va) (hb : At c h b vb)
    (hl : At c h l vl) :
    Tri c (getAmount1ForLiquidity a b l) h (LiquidityAmounts.getAmount1ForLiquidity va vb vl) (fun r h' v => Fresh c h r h' v) := by
  unfold getAmount1ForLiquidity LiquidityAmounts.getAmount1ForLiquidity
  dsimp only
  refine (tri_order ha hb).step ?_
  rintro p _ ⟨rfl, o1, o2⟩
  refine (mk_sub o2 o1).fresh1 fun d h2 k2 a2 _ => ?_
  exact (tri_mulDiv (by at!) a2 (kc.keep k2).q96).tail (by kept!)

theorem tri_getAmountsForLiquidity (kc : Consts c h) {p a b l : Nat} {vp va vb vl : U256} (hp : At c h p vp) (ha : At c h a va)
    (hb : At c h b vb) (hl : At c h l vl) :
    Tri c (getAmountsForLiquidity p a b l) h (LiquidityAmounts.getAmountsForLiquidity vp va vb vl)
      (fun r h' v => Kept h h' ∧ At c h' r.1 v.1 ∧ At c h' r.2 v.2 ∧ h.next ≤ r.1 ∧ h.next ≤ r.2) := by
  unfold getAmountsForLiquidity LiquidityAmounts.getAmountsForLiquidity
  dsimp only
  refine (tri_order ha hb).step ?_
  rintro o _ ⟨rfl, o1, o2⟩
  refine (tri_new hp.base zero).fresh1 fun z0 h1 k1 a1 n1 => ?_
  refine (tri_new a1.base zero).fresh1 fun z1 h2 k2 a2 n2 => ?_
  have kc2 := (kc.keep k1).keep k2
  have k12 := k1.trans k2
  refine Tri.load_bind (hp.keep k12) (Tri.load_bind (o1.keep k12) (Tri.load_bind (o2.keep k12) ?_))
  refine Tri.ite (fun _ => ?_) (fun _ => ?_)
  · refine (tri_getAmount0ForLiquidity (o1.keep k12) (o2.keep k12) (hl.keep k12)).bind fun x h3 v f => Tri.ret ?_
    exact ⟨k12.trans f.kept, f.at_, a2.keep f.kept, le_trans k12.le f.new, le_trans k1.le n2⟩
  refine Tri.ite (fun _ => ?_) (fun _ => ?_)
  · refine (tri_getAmount0ForLiquidity (hp.keep k12) (o2.keep k12) (hl.keep k12)).bind fun x h3 v f => ?_
    have k3 := k12.trans f.kept
    refine (tri_getAmount1ForLiquidity (kc2.keep f.kept) (o1.keep k3) (hp.keep k3) (hl.keep k3)).bind fun y h4 w e => Tri.ret ?_
    exact ⟨k3.trans e.kept, f.at_.keep e.kept, e.at_, le_trans k12.le f.new, le_trans k3.le e.new⟩
  · refine (tri_getAmount1ForLiquidity kc2 (o1.keep k12) (o2.keep k12) (hl.keep k12)).bind fun x h3 v f => Tri.ret ?_
    exact ⟨k12.trans f.kept, (a1.keep k2).keep f.kept, f.at_, n1, le_trans k12.le f.new⟩

end
end Uni
