import Verif.Spec.Start
import Verif.Proofs.Order
import Verif.Proofs.Invest
import Verif.Props.Total
/-! # When the strategies can open their positions -/
namespace Uni
open U256 Spec TickData TickMath SwapMath FullMath SqrtPriceMath LiquidityAmounts Pool
namespace Strat

/-! ### The records after some positions have been opened -/

/-- The pool after the positions `done` have been opened in the pool `p`, as far as crediting is concerned. -/
structure Carried (p : Pool) (done : List StratPos) (p' : Pool) : Prop where
  price : p'.price = p.price
  inside : ∀ l u, insideOf p' l u = insideOf p l u
  record : ∀ l u, ((recordOf p' (l, u)).liquidity, (recordOf p' (l, u)).inside0, (recordOf p' (l, u)).inside1) = recordAfter p l u done

theorem Carried.refl (p : Pool) : Carried p [] p := ⟨rfl, fun _ _ => rfl, fun _ _ => rfl⟩

theorem Carried.next {p p' : Pool} {done : List StratPos} (h : Carried p done p') (q : StratPos) :
    OpensNext p done q ↔ ValidRange q.lower q.upper ∧ Creditable p' q.lower q.upper ∧
      ¬ Unpriceable (clamp p'.price.toNat (tickPrice q.lower) (tickPrice q.upper)) (tickPrice q.upper) q.amount.toNat := by
  unfold OpensNext Creditable
  rw [h.price, h.inside]
  have e := h.record q.lower q.upper
  generalize recordAfter p q.lower q.upper done = r at *
  obtain ⟨r1, r2, r3⟩ := r
  simp only [Prod.mk.injEq] at e
  obtain ⟨rfl, rfl, rfl⟩ := e
  exact ⟨fun ⟨a, b, c⟩ => ⟨a, c, b⟩, fun ⟨a, b, c⟩ => ⟨a, c, b⟩⟩

theorem Carried.mint {p p' p'' : Pool} {done : List StratPos} (h : Carried p done p') {b : List Entry} (hr : Reachable b p')
    {q : StratPos} (hf : total b + q.amount.toNat < 2 ^ 128) {a0 a1 : U256}
    (hx : p'.mintStrategy q.lower q.upper q.amount = .ok (a0, a1, p'')) : Carried p (q :: done) p'' := by
  have hi := Props.reachable_inv hr
  have hz : 0 < q.amount.toNat := by
    obtain ⟨h1, h2, _⟩ := mintStrategy_eq hx
    omega
  obtain ⟨k, t', pos, _, E⟩ := effect_of_exec (c := ⟨true, true, q.lower, q.upper, q.amount⟩) (fuel := 0) hi hf (by show q.amount.toNat ≠ 0; omega)
    (exec_mint hx)
  have hlt := add_lt hi hf
  have hin : ∀ l u, insideOf p'' l u = insideOf p' l u := fun l u => E.inside fun i _ _ => nowEmpty_mint hi hz hlt i
  have hp : p''.price = p'.price := by rw [E.eq]
  obtain ⟨o0, o1, _, _, e⟩ := update_eq (E.upd rfl)
  refine ⟨hp.trans h.price, fun l u => (hin l u).trans (h.inside l u), fun l u => ?_⟩
  have e0 := h.record l u
  rw [record_posOrNew] at e0 ⊢
  have e1 : posOrNew (p''.positions (posKey l u)) = if posKey l u = posKey q.lower q.upper then credited pos k else posOrNew (p'.positions (posKey l u)) := by
    rw [E.eq]
    dsimp only
    rw [if_pos rfl, posOrNew_setPos]
  unfold recordAfter
  dsimp only at e0 ⊢
  rw [e1, ← e0]
  by_cases hk : posKey q.lower q.upper = posKey l u
  · rw [if_pos hk, if_pos hk.symm, e]
    dsimp only [credited, delta]
    rw [hk, h.inside]
    rfl
  · rw [if_neg hk, if_neg (Ne.symm hk)]

/-! ### Positions opened one after another -/

theorem opensAfter_append (p : Pool) : ∀ (a b done : List StratPos),
    OpensAfter p done (a ++ b) ↔ OpensAfter p done a ∧ OpensAfter p (a.reverse ++ done) b
  | [], b, done => ⟨fun h => ⟨trivial, h⟩, fun h => h.2⟩
  | q :: a, b, done => by
    show OpensNext p done q ∧ OpensAfter p (q :: done) (a ++ b) ↔ (OpensNext p done q ∧ OpensAfter p (q :: done) a) ∧ _
    rw [opensAfter_append p a b (q :: done), List.reverse_cons, List.append_assoc, List.singleton_append, and_assoc]

/-- The pool `p'` is the pool `p` after `MintStrategy` has been called for the positions in order. -/
inductive Mints : Pool → List StratPos → Pool → Prop
  | nil (p : Pool) : Mints p [] p
  | cons {p p1 p' : Pool} {q : StratPos} {qs : List StratPos} {a0 a1 : U256}
      (h : p.mintStrategy q.lower q.upper q.amount = .ok (a0, a1, p1)) (ht : Mints p1 qs p') : Mints p (q :: qs) p'

theorem Mints.trans {p p1 p2 : Pool} {a b : List StratPos} (h : Mints p a p1) (h' : Mints p1 b p2) : Mints p (a ++ b) p2 := by
  induction h with
  | nil => exact h'
  | cons hq _ ih => exact .cons hq (ih h')

theorem Mints.opens {p p' : Pool} {qs : List StratPos} (h : Mints p qs p') {b : List Entry} (hr : Reachable b p)
    (hf : total b + total (entries qs) < 2 ^ 128) {p0 : Pool} {done : List StratPos} (hc : Carried p0 done p) :
    OpensAfter p0 done qs ∧ Carried p0 (qs.reverse ++ done) p' := by
  induction h generalizing b done with
  | nil => exact ⟨trivial, hc⟩
  | @cons p p1 p' q qs a0 a1 hq _ ih =>
    have hn := total_entries_nonneg qs
    rw [show entries (q :: qs) = ⟨q.lower, q.upper, q.amount.toNat⟩ :: entries qs from rfl, total_cons] at hf
    dsimp only at hf
    have hf1 : total b + q.amount.toNat < 2 ^ 128 := by omega
    obtain ⟨_, h2, h3, h4⟩ := (Props.C80_mintStrategy hr q.lower q.upper hf1).1 ⟨_, hq⟩
    have hr1 := reachable_step hr 0 (.mintStrategy q.lower q.upper q.amount) hf1 (exec_mint hq)
    obtain ⟨i1, i2⟩ := ih hr1 (by
      show total (⟨q.lower, q.upper, q.amount.toNat⟩ :: b) + _ < _
      rw [total_cons]
      dsimp only
      omega) (hc.mint hr hf1 hq)
    refine ⟨⟨(hc.next q).2 ⟨h2, h3, h4⟩, i1⟩, ?_⟩
    rw [List.reverse_cons, List.append_assoc, List.singleton_append]
    exact i2

/-- From one state to the next by minting positions. -/
def Minted (s s' : Strat) : Prop := ∃ new, s'.positions = s.positions ++ new ∧ Mints s.pool new s'.pool

theorem Minted.refl (s : Strat) : Minted s s := ⟨[], (List.append_nil _).symm, .nil _⟩

theorem Minted.trans {s t r : Strat} (h : Minted s t) (h' : Minted t r) : Minted s r := by
  obtain ⟨a, e1, m1⟩ := h
  obtain ⟨b, e2, m2⟩ := h'
  exact ⟨a ++ b, by rw [e2, e1, List.append_assoc], m1.trans m2⟩

theorem mintAmount_minted {s s' : Strat} {l u : Int} {L : U256} (hx : s.mintAmount l u L = .ok s') : Minted s s' := by
  unfold mintAmount at hx
  obtain ⟨⟨a0, a1, q⟩, h1, hx⟩ := bind_ok hx
  cases hx
  exact ⟨[⟨L, l, u⟩], rfl, .cons h1 (.nil _)⟩

theorem mintPosition_minted {s s' : Strat} {l u : Int} (hx : s.mintPosition l u = .ok s') : Minted s s' := by
  unfold mintPosition at hx
  obtain ⟨L, _, hx⟩ := bind_ok hx
  by_cases hz : L.isZero
  · rw [if_pos hz] at hx
    cases hx
    exact Minted.refl s
  · rw [if_neg hz] at hx
    exact mintAmount_minted hx

theorem mintUnchecked_minted {s s' : Strat} {l u : Int} (hx : s.mintUnchecked l u = .ok s') : Minted s s' := by
  unfold mintUnchecked at hx
  obtain ⟨L, _, hx⟩ := bind_ok hx
  exact mintAmount_minted hx

theorem mintHalf_minted {s s' : Strat} {l u : Int} (hx : s.mintHalf l u = .ok s') : Minted s s' := by
  unfold mintHalf at hx
  obtain ⟨A, _, hx⟩ := bind_ok hx
  obtain ⟨L, _, hx⟩ := bind_ok hx
  by_cases hz : L.isZero
  · rw [if_pos hz] at hx
    cases hx
    exact Minted.refl s
  · rw [if_neg hz] at hx
    exact mintAmount_minted hx

/-! ### Plans that can be followed -/

end Strat
namespace Spec

theorem Buys.split {P : U256} : ∀ {p1 p2 : List Purchase} {x y : U256 × U256} {ps : List StratPos},
    Buys P (p1 ++ p2) x ps y → ∃ a b z, ps = a ++ b ∧ Buys P p1 x a z ∧ Buys P p2 z b y
  | [], p2, x, y, ps, h => ⟨[], ps, x, rfl, .done x, h⟩
  | o :: p1, p2, x, y, ps, h => by
    cases h with
    | skip hs h =>
      obtain ⟨a, b, z, e, h1, h2⟩ := Buys.split h
      exact ⟨a, b, z, e, .skip hs h1, h2⟩
    | step hs hv ha hb hA hL h0 h1 h =>
      obtain ⟨a, b, z, e, k1, k2⟩ := Buys.split h
      exact ⟨_ ++ a, b, z, by rw [e, List.append_assoc], .step hs hv ha hb hA hL h0 h1 k1, k2⟩

end Spec
namespace Strat

/-- Everything the strategy has and buys fits. -/
theorem fitsWith_append {m : List Entry} {s : Strat} {a b : List StratPos} (h : FitsWith m s (a ++ b)) : FitsWith m s a := by
  unfold FitsWith at *
  rw [← List.append_assoc] at h
  exact wsum_total_fits h

/-- Where a strategy stands after it has opened the positions `done` in the pool `p0`. -/
structure Stands (m : List Entry) (p0 : Pool) (done : List StratPos) (s : Strat) : Prop where
  own : Owns m s.positions s.pool
  carried : Carried p0 done s.pool

theorem Owns.reach {m : List Entry} {ps : List StratPos} {p : Pool} (ho : Owns m ps p) :
    ∃ b, Reachable b p ∧ total b = total (entries ps ++ m) := by
  obtain ⟨b, hr, hs⟩ := ho.pool
  exact ⟨b, hr, hs.total⟩

/-- The call `go` follows the plan, and returns if the plan can be followed. -/
structure Does (m : List Entry) (s : Strat) (go : Go Strat) (plan : List Purchase) : Prop where
  fwd : ∀ s', go = .ok s' → Follows m s s' plan ∧ Minted s s'
  bwd : ∀ p0 done ps y, Stands m p0 done s → Buys s.pool.price plan (s.amount0, s.amount1) ps y → OpensAfter p0 done ps →
    FitsWith m s ps → ∃ s', go = .ok s' ∧ s'.positions = s.positions ++ ps

/-- What is known after following a plan. -/
theorem after {m : List Entry} {s s' : Strat} {new : List StratPos} (hg : Grown m s s' new) (hm : Minted s s') {p0 : Pool}
    {done : List StratPos} (hst : Stands m p0 done s) (hf : FitsWith m s new) :
    OpensAfter p0 done new ∧ Stands m p0 (new.reverse ++ done) s' := by
  have hf' : Fits m s' := by
    unfold Fits book
    rw [hg.pos]
    exact hf
  obtain ⟨n, e, k⟩ := hm
  have : n = new := List.append_cancel_left (e.symm.trans hg.pos)
  subst this
  obtain ⟨b, hr, ht⟩ := hst.own.reach
  unfold FitsWith at hf
  rw [entries_append, total_append, total_append] at hf
  rw [total_append] at ht
  obtain ⟨h1, h2⟩ := k.opens hr (by omega) hst.carried
  exact ⟨h1, (hg.own hst.own hf').1, h2⟩

theorem Does.trans {m : List Entry} {s : Strat} {go : Go Strat} {f : Strat → Go Strat} {a b : List Purchase} (h1 : Does m s go a)
    (h2 : ∀ s1, go = .ok s1 → Does m s1 (f s1) b) : Does m s (go >>= f) (a ++ b) := by
  refine ⟨fun s' hx => ?_, fun p0 done ps y hst hb ho hf => ?_⟩
  · obtain ⟨s1, k1, k2⟩ := bind_ok hx
    obtain ⟨x1, x2⟩ := h1.fwd s1 k1
    obtain ⟨y1, y2⟩ := (h2 s1 k1).fwd s' k2
    exact ⟨x1.trans y1, x2.trans y2⟩
  · obtain ⟨pa, pb, z, rfl, ba, bb⟩ := hb.split
    obtain ⟨oa, ob⟩ := (opensAfter_append _ _ _ _).1 ho
    have hfa := fitsWith_append hf
    obtain ⟨s1, hs1, hp⟩ := h1.bwd p0 done pa z hst ba oa hfa
    obtain ⟨⟨new, g, k⟩, mi⟩ := h1.fwd s1 hs1
    obtain rfl : new = pa := List.append_cancel_left (g.pos.symm.trans hp)
    have hfit : Fits m s1 := by unfold Fits book; rw [hp]; exact hfa
    obtain ⟨_, rfl⟩ := (k hst.own hfit).unique ba
    obtain ⟨_, st1⟩ := after g mi hst hfa
    rw [← g.still.price] at bb
    have hf1 : FitsWith m s1 pb := by
      unfold FitsWith at hf ⊢
      rw [hp, List.append_assoc]
      exact hf
    obtain ⟨s', hx, hp'⟩ := (h2 s1 hs1).bwd p0 _ pb y st1 bb ob hf1
    exact ⟨s', by rw [hs1, Except_bind_ok]; exact hx, by rw [hp', hp, List.append_assoc]⟩

theorem Does.mark {m : List Entry} {s : Strat} {go : Go Strat} {plan : List Purchase} (h : Does m s go plan) (t : Int) (d : Bool) :
    Does m s (go >>= fun s1 => (return { s1 with limitTick := t, direction := d } : Go Strat)) plan := by
  refine ⟨fun s' hx => ?_, fun p0 done ps y hst hb ho hf => ?_⟩
  · obtain ⟨s1, k1, k2⟩ := bind_ok hx
    cases k2
    obtain ⟨a, b⟩ := h.fwd s1 k1
    exact ⟨a.mark t d, b⟩
  · obtain ⟨s1, k1, k2⟩ := h.bwd p0 done ps y hst hb ho hf
    exact ⟨{ s1 with limitTick := t, direction := d }, by rw [k1]; rfl, k2⟩

theorem does_nothing (m : List Entry) (s : Strat) : Does m s (.ok s) [] := by
  refine ⟨fun s' hx => ?_, fun p0 done ps y hst hb ho hf => ?_⟩
  · cases hx
    exact ⟨Follows.refl m s, Minted.refl s⟩
  · cases hb
    exact ⟨s, rfl, (List.append_nil _).symm⟩

theorem does_skip (m : List Entry) {s : Strat} {o : Purchase} (hs : o.Skipped (s.amount0, s.amount1)) : Does m s (.ok s) [o] := by
  refine ⟨fun s' hx => ?_, fun p0 done ps y hst hb ho hf => ?_⟩
  · cases hx
    exact ⟨follows_skip m hs, Minted.refl s⟩
  · cases hb with
    | skip _ h =>
      cases h
      exact ⟨s, rfl, (List.append_nil _).symm⟩
    | step hn => exact absurd hs hn

theorem affordable_back {s : Strat} {l u : Int} {a b A : U256} (hv : (-887272 ≤ l ∧ l ≤ 887272) ∧ (-887272 ≤ u ∧ u ≤ 887272))
    (ha : a.toNat = tickPrice l) (hb : b.toNat = tickPrice u) (hA : getLiquidityForAmount s.pool.price a b s.amount0 s.amount1 = .ok A) :
    s.affordable l u = .ok A := by
  obtain ⟨a', h1, h2⟩ := getSqrtRatioAtTick_spec l hv.1.1 hv.1.2
  obtain ⟨b', h3, h4⟩ := getSqrtRatioAtTick_spec u hv.2.1 hv.2.2
  rw [Props.tickPrice_eq hv.1.1 hv.1.2] at ha
  rw [Props.tickPrice_eq hv.2.1 hv.2.2] at hb
  obtain rfl : a = a' := ext_toNat (ha.trans h2.symm)
  obtain rfl : b = b' := ext_toNat (hb.trans h4.symm)
  unfold affordable
  rw [h1, h3]
  simp only [bind, Except.bind]
  exact hA

theorem mintAmount_back {m : List Entry} {s : Strat} {p0 : Pool} {done : List StratPos} {q : StratPos} (hst : Stands m p0 done s)
    (hz : q.amount.toNat ≠ 0) (ho : OpensNext p0 done q) (hf : FitsWith m s [q]) :
    ∃ s', s.mintAmount q.lower q.upper q.amount = .ok s' ∧ s'.positions = s.positions ++ [q] := by
  obtain ⟨b, hr, ht⟩ := hst.own.reach
  unfold FitsWith at hf
  rw [entries_append, total_append, total_append] at hf
  rw [total_append] at ht
  have e : total (entries [q]) = q.amount.toNat := by
    show total [⟨q.lower, q.upper, q.amount.toNat⟩] = _
    rw [total_cons]
    show (q.amount.toNat : Int) + 0 = _
    omega
  obtain ⟨h1, h2, h3⟩ := (hst.carried.next q).1 ho
  obtain ⟨⟨a0, a1, p'⟩, hx⟩ := (Props.C80_mintStrategy hr q.lower q.upper (a := q.amount) (by omega)).2 ⟨by omega, h1, h2, h3⟩
  unfold mintAmount
  rw [hx]
  exact ⟨_, rfl, rfl⟩

/-- One step of a plan. -/
theorem step_back {m : List Entry} {s : Strat} {p0 : Pool} {done : List StratPos} {o : Purchase} {ps : List StratPos} {y : U256 × U256}
    (hst : Stands m p0 done s) (hn : ¬ o.Skipped (s.amount0, s.amount1))
    (hb : Buys s.pool.price [o] (s.amount0, s.amount1) ps y) (ho : OpensAfter p0 done ps) (hf : FitsWith m s ps) :
    ∃ A L : U256, s.affordable o.lower o.upper = .ok A ∧ L.toNat = (if o.half then A.toNat / 2 else A.toNat) ∧
      (L.toNat = 0 → ps = []) ∧
      (L.toNat ≠ 0 → ∃ s', s.mintAmount o.lower o.upper L = .ok s' ∧ s'.positions = s.positions ++ ps) := by
  cases hb with
  | skip hs => exact absurd hs hn
  | @step _ _ _ z _ ps' a b A L _ hv ha hb hA hL h0 h1 h =>
    cases h
    refine ⟨A, L, affordable_back hv ha hb hA, hL, fun hz => ?_, fun hz => ?_⟩
    · rw [if_pos hz]; rfl
    · rw [if_neg hz] at ho hf ⊢
      exact mintAmount_back (q := ⟨L, o.lower, o.upper⟩) hst hz ho.1 hf

theorem mintPosition_does (m : List Entry) {s : Strat} {l u : Int} {n : Needs}
    (hn : ¬ (⟨l, u, false, n⟩ : Purchase).Skipped (s.amount0, s.amount1)) : Does m s (s.mintPosition l u) [⟨l, u, false, n⟩] := by
  refine ⟨fun s' hx => ⟨mintPosition_follows m hn hx, mintPosition_minted hx⟩, fun p0 done ps y hst hb ho hf => ?_⟩
  obtain ⟨A, L, h1, h2, h3, h4⟩ := step_back hst hn hb ho hf
  obtain rfl : L = A := ext_toNat (h2.trans (if_neg Bool.false_ne_true))
  unfold mintPosition
  rw [h1, Except_bind_ok]
  by_cases hz : L.toNat = 0
  · rw [if_pos ((isZero_iff _).2 hz), h3 hz]
    exact ⟨s, rfl, (List.append_nil _).symm⟩
  · rw [if_neg (fun h => hz ((isZero_iff _).1 h))]
    exact h4 hz

theorem mintAll_does (m : List Entry) (s : Strat) (l u : Int) : Does m s (s.mintPosition l u) [all (l, u)] :=
  mintPosition_does m all_needs

theorem mintHalf_does (m : List Entry) {s : Strat} {l u : Int} {n : Needs}
    (hn : ¬ (⟨l, u, true, n⟩ : Purchase).Skipped (s.amount0, s.amount1)) : Does m s (s.mintHalf l u) [⟨l, u, true, n⟩] := by
  refine ⟨fun s' hx => ⟨mintHalf_follows m hn hx, mintHalf_minted hx⟩, fun p0 done ps y hst hb ho hf => ?_⟩
  obtain ⟨A, L, h1, h2, h3, h4⟩ := step_back hst hn hb ho hf
  rw [if_pos rfl] at h2
  have hd : div A (ofWord 2) = .ok L := by
    obtain ⟨H, k, _⟩ := div_spec A (ofWord 2)
    rw [k]
    congr 1
    exact ext_toNat ((half_le k).trans h2.symm)
  unfold mintHalf
  rw [h1, Except_bind_ok, hd, Except_bind_ok]
  by_cases hz : L.toNat = 0
  · rw [if_pos ((isZero_iff _).2 hz), h3 hz]
    exact ⟨s, rfl, (List.append_nil _).symm⟩
  · rw [if_neg (fun h => hz ((isZero_iff _).1 h))]
    exact h4 hz

theorem unchecked_back {m : List Entry} {s : Strat} {l u : Int} {p0 : Pool} {done ps : List StratPos} {y : U256 × U256}
    (hst : Stands m p0 done s) (hb : Buys s.pool.price [all (l, u)] (s.amount0, s.amount1) ps y) (ho : OpensAfter p0 done ps)
    (hf : FitsWith m s ps) (hne : ps ≠ []) : ∃ s', s.mintUnchecked l u = .ok s' ∧ s'.positions = s.positions ++ ps := by
  obtain ⟨A, L, h1, h2, h3, h4⟩ := step_back hst all_needs hb ho hf
  obtain rfl : L = A := ext_toNat (h2.trans (if_neg Bool.false_ne_true))
  unfold mintUnchecked
  rw [show s.affordable l u = .ok L from h1, Except_bind_ok]
  exact h4 fun hz => hne (h3 hz)

theorem twoAbove_does (m : List Entry) (s : Strat) (unit b : Int) : Does m s (s.twoAbove unit b)
    [⟨TickRound.ceil s.pool.tick unit, TickRound.ceil s.pool.tick unit + b, false, .token0⟩] := by
  unfold twoAbove
  by_cases hz : s.amount0.isZero
  · rw [if_pos hz]
    exact does_skip m ((isZero_iff _).1 hz)
  · rw [if_neg hz]
    exact mintPosition_does m (fun h => hz ((isZero_iff _).2 h))

theorem twoBelow_does (m : List Entry) (s : Strat) (unit b : Int) : Does m s (s.twoBelow unit b)
    [⟨TickRound.floor s.pool.tick unit - b, TickRound.floor s.pool.tick unit, false, .token1⟩] := by
  unfold twoBelow
  by_cases hz : s.amount1.isZero
  · rw [if_pos hz]
    exact does_skip m ((isZero_iff _).1 hz)
  · rw [if_neg hz]
    exact mintPosition_does m (fun h => hz ((isZero_iff _).2 h))

theorem limitAbove_does (m : List Entry) (s : Strat) (unit : Int) : Does m s (s.limitAbove unit)
    [⟨TickRound.ceil s.pool.tick unit, TickRound.ceil s.pool.tick unit + 10, true, .token0⟩] := by
  unfold limitAbove
  by_cases hz : s.amount0.isZero
  · rw [if_pos hz]
    exact does_skip m ((isZero_iff _).1 hz)
  · rw [if_neg hz]
    exact (mintHalf_does m (n := .token0) (fun h => hz ((isZero_iff _).2 h))).mark _ _

theorem limitBelow_does (m : List Entry) (s : Strat) (unit : Int) : Does m s (s.limitBelow unit)
    [⟨TickRound.floor s.pool.tick unit - 10, TickRound.floor s.pool.tick unit, true, .token1⟩] := by
  unfold limitBelow
  by_cases hz : s.amount1.isZero
  · rw [if_pos hz]
    exact does_skip m ((isZero_iff _).1 hz)
  · rw [if_neg hz]
    exact (mintHalf_does m (n := .token1) (fun h => hz ((isZero_iff _).2 h))).mark _ _

theorem Does.tick {m : List Entry} {s s' : Strat} {go : Go Strat} {plan : List Purchase} (h : Does m s go plan) (hx : go = .ok s') :
    s'.pool.tick = s.pool.tick := (h.fwd s' hx).1.tick

theorem setTwo_does (m : List Entry) (s : Strat) (a b : Int) : Does m s (s.setTwo a b)
    [all (s.around s.pool.tick a), ⟨TickRound.ceil s.pool.tick s.unit, TickRound.ceil s.pool.tick s.unit + b, false, .token0⟩,
      ⟨TickRound.floor s.pool.tick s.unit - b, TickRound.floor s.pool.tick s.unit, false, .token1⟩] := by
  unfold setTwo
  refine Does.trans (a := [all (s.around s.pool.tick a)]) (mintAll_does m s _ _) fun s1 h1 => ?_
  have t1 := (mintAll_does m s _ _).tick h1
  refine Does.trans (a := [_]) (b := [_]) ?_ fun s2 h2 => ?_
  · have := twoAbove_does m s1 s.unit b
    rw [t1] at this
    exact this
  · have t2 := (twoAbove_does m s1 s.unit b).tick h2
    have := twoBelow_does m s2 s.unit b
    rw [t2, t1] at this
    exact this

theorem setLimit_does (m : List Entry) (s : Strat) (w : Int) : Does m s (s.setLimit w)
    [all (s.around s.pool.tick w), ⟨TickRound.ceil s.pool.tick s.unit, TickRound.ceil s.pool.tick s.unit + 10, true, .token0⟩,
      ⟨TickRound.floor s.pool.tick s.unit - 10, TickRound.floor s.pool.tick s.unit, true, .token1⟩] := by
  unfold setLimit
  refine Does.trans (a := [all (s.around s.pool.tick w)]) (mintAll_does m s _ _) fun s1 h1 => ?_
  have t1 := (mintAll_does m s _ _).tick h1
  refine Does.trans (a := [_]) (b := [_]) ?_ fun s2 h2 => ?_
  · have := limitAbove_does m s1 s.unit
    rw [t1] at this
    exact this
  · have t2 := (limitAbove_does m s1 s.unit).tick h2
    have := limitBelow_does m s2 s.unit
    rw [t2, t1] at this
    exact this

theorem fillSide_does (m : List Entry) (s : Strat) (l u : Int) : Does m s (s.fillSide l u)
    (fillStep (TickRound.ceil s.pool.tick s.unit) (TickRound.floor s.pool.tick s.unit) (l, u) (s.amount0, s.amount1)) := by
  unfold fillSide fillStep
  by_cases h0 : s.amount0.toNat ≠ 0
  · rw [if_pos (not_isZero.2 h0), if_pos h0]
    by_cases hc : TickRound.ceil s.pool.tick s.unit < u
    · rw [if_pos hc, if_pos hc]
      exact mintAll_does m s _ _
    · rw [if_neg hc, if_neg hc]
      exact does_nothing m s
  · rw [if_neg (fun h => h0 (not_isZero.1 h)), if_neg h0]
    by_cases h1 : s.amount1.toNat ≠ 0
    · rw [if_pos (not_isZero.2 h1), if_pos h1]
      by_cases hc : l < TickRound.floor s.pool.tick s.unit
      · rw [if_pos hc, if_pos hc]
        exact mintAll_does m s _ _
      · rw [if_neg hc, if_neg hc]
        exact does_nothing m s
    · rw [if_neg (fun h => h1 (not_isZero.1 h)), if_neg h1]
      exact does_nothing m s

/-! ### The plans are determined -/

theorem multiple_unique {unit t t' : Int} (hu : 0 < unit) (h : unit ∣ t) (h' : unit ∣ t') (h1 : t - t' < unit) (h2 : t' - t < unit) : t = t' := by
  obtain ⟨k, hk⟩ := Int.dvd_sub h h'
  have k1 : k < 1 := by
    by_contra hc
    have : unit * 1 ≤ unit * k := Int.mul_le_mul_of_nonneg_left (by omega) (by omega)
    omega
  have k2 : -1 < k := by
    by_contra hc
    have : unit * k ≤ unit * (-1) := Int.mul_le_mul_of_nonneg_left (by omega) (by omega)
    omega
  obtain rfl : k = 0 := by omega
  omega

theorem nearest_unique {unit x t t' : Int} (hu : 0 < unit) (h : Nearest unit x t) (h' : Nearest unit x t') : t = t' := by
  obtain ⟨h1, h2, h3⟩ := h
  obtain ⟨k1, k2, k3⟩ := h'
  by_contra hne
  have key : ∀ {a b : Int}, unit ∣ a → unit ∣ b → 2 * |x - a| ≤ unit → 2 * |x - b| ≤ unit → (2 * |x - a| = unit → |x| < |a|) →
      (2 * |x - b| = unit → |x| < |b|) → a < b → False := by
    intro a b d1 d2 a1 a2 a3 a4 hab
    have h0 : a = 0 ∨ a + unit ≤ 0 ∨ 0 < a := by
      by_contra hc
      push Not at hc
      have := multiple_unique hu d1 (dvd_zero _) (by omega) (by omega)
      omega
    have hd : unit ≤ b - a := by
      by_contra hc
      have := multiple_unique hu d1 d2 (by omega) (by omega)
      omega
    rcases abs_cases (x - a) with ⟨e1, _⟩ | ⟨e1, _⟩ <;> rcases abs_cases (x - b) with ⟨e2, _⟩ | ⟨e2, _⟩ <;>
      rcases abs_cases x with ⟨e3, _⟩ | ⟨e3, _⟩ <;> rcases abs_cases a with ⟨e4, _⟩ | ⟨e4, _⟩ <;>
      rcases abs_cases b with ⟨e5, _⟩ | ⟨e5, _⟩ <;> omega
  rcases lt_or_gt_of_ne hne with hlt | hlt
  · exact key h1 k1 h2 k2 h3 k3 hlt
  · exact key k1 h1 k2 h2 k3 h3 hlt

theorem centred_unique {unit t w : Int} {r r' : Int × Int} (hu : 0 < unit) (h : Centred unit t w r) (h' : Centred unit t w r') : r = r' :=
  Prod.ext (nearest_unique hu h.1 h'.1) (nearest_unique hu h.2 h'.2)

theorem nextUp_unique {unit x t t' : Int} (hu : 0 < unit) (h : NextUp unit x t) (h' : NextUp unit x t') : t = t' := by
  obtain ⟨h1, h2, h3⟩ := h
  obtain ⟨k1, k2, k3⟩ := h'
  exact multiple_unique hu h1 k1 (by omega) (by omega)

theorem nextDown_unique {unit x t t' : Int} (hu : 0 < unit) (h : NextDown unit x t) (h' : NextDown unit x t') : t = t' := by
  obtain ⟨h1, h2, h3⟩ := h
  obtain ⟨k1, k2, k3⟩ := h'
  exact multiple_unique hu h1 k1 (by omega) (by omega)

theorem tickPrice_mono {a b : Int} (h1 : -887272 ≤ a) (h : a ≤ b) (h2 : b ≤ 887272) : tickPrice a ≤ tickPrice b := by
  rw [Props.tickPrice_eq h1 (by omega), Props.tickPrice_eq (by omega) h2]
  rcases eq_or_lt_of_le h with rfl | h
  · exact le_refl _
  · exact (ratio_lt h1 h h2).2.le

theorem tickOf_unique {P : Nat} {t t' : Int} (h : TickOf P t) (h' : TickOf P t') : t = t' := by
  obtain ⟨h1, h2, h3, h4⟩ := h
  obtain ⟨k1, k2, k3, k4⟩ := h'
  by_contra hne
  rcases lt_or_gt_of_ne hne with hlt | hlt
  · have := tickPrice_mono (a := t + 1) (b := t') (by omega) (by omega) (by omega)
    omega
  · have := tickPrice_mono (a := t' + 1) (b := t) (by omega) (by omega) (by omega)
    omega

theorem tickOf_back {p : U256} {t : Int} (h : TickOf p.toNat t) : getTickAtSqrtRatio p = .ok t := by
  have h0 := h
  obtain ⟨h1, h2, h3, h4⟩ := h
  have a1 := tickPrice_mono (a := -887272) (b := t) (by omega) h1 (by omega)
  have a2 := tickPrice_mono (a := t + 1) (b := 887272) (by omega) (by omega) (by omega)
  have e1 : tickPrice (-887272) = 4295128739 := by decide +kernel
  have e2 : tickPrice 887272 = 1461446703485210103287273052203988822378723970342 := by decide +kernel
  obtain ⟨t', ht, _⟩ := getTickAtSqrtRatio_spec p (by omega) (by omega)
  rw [tickOf_unique h0 (tickOf_ok ht)]
  exact ht

theorem averageTicks_back {s : Strat} (hr : Ready s) {w : Int} (hw : |w| ≤ 2 ^ 30) {r : Int × Int} {avg : U256} {t : Int}
    (h1 : s.history.average = .ok avg) (h2 : TickOf (Nat.sqrt avg.toNat) t) (h3 : Centred s.pool.spacing t w r) :
    s.averageTicks w = .ok r := by
  obtain ⟨q, k1, k2⟩ := sqrt_spec avg
  rw [← k2] at h2
  unfold averageTicks
  rw [h1, Except_bind_ok, k1, Except_bind_ok, tickOf_back h2, Except_bind_ok,
    centred_unique hr.pos h3 (around_centred hr h2.1 h2.2.1 hw)]
  rfl

theorem band_back {c w : U256} {r : Int × Int} (h : BandOf c.toNat w.toNat r) : band c w = .ok r := by
  obtain ⟨l, u⟩ := r
  obtain ⟨h1, h2⟩ := h
  have b1 : bandLower (subOverflow c w) = .ok l := by
    unfold bandLower
    have e := subOverflow_spec c w
    have f := subOverflow_flag c w
    by_cases hc : c.toNat < minPrice + w.toNat
    · rw [if_pos hc] at h1
      rw [if_pos]
      · rw [show l = minTick from h1]
      · rw [Bool.or_eq_true, decide_eq_true_iff, cmp_neg_iff, minSqrt_nat]
        by_cases hf : (subOverflow c w).2 = true
        · exact Or.inl hf
        · right
          rw [if_neg hf] at e
          omega
    · rw [if_neg hc] at h1
      have hf : ¬ (subOverflow c w).2 = true := by rw [f]; unfold minPrice at hc; omega
      rw [if_neg hf] at e
      rw [if_neg]
      · apply tickOf_back
        rw [show (subOverflow c w).1.toNat = c.toNat - w.toNat by omega]
        exact h1
      · rw [Bool.or_eq_true, decide_eq_true_iff, cmp_neg_iff, minSqrt_nat]
        rintro (h | h)
        · exact hf h
        · omega
  have b2 : bandUpper (addOverflow c w) = .ok u := by
    unfold bandUpper
    have e := addOverflow_spec c w
    have f := addOverflow_flag c w
    by_cases hc : maxPrice < c.toNat + w.toNat
    · rw [if_pos hc] at h2
      rw [if_pos]
      · rw [show u = maxTick from h2]
      · rw [Bool.or_eq_true, decide_eq_true_iff, cmp_pos_iff, maxSqrt_nat]
        by_cases hf : (addOverflow c w).2 = true
        · exact Or.inl hf
        · right
          rw [if_neg hf] at e
          omega
    · rw [if_neg hc] at h2
      have hf : ¬ (addOverflow c w).2 = true := by rw [f]; unfold maxPrice at hc; omega
      rw [if_neg hf] at e
      rw [if_neg]
      · apply tickOf_back
        rw [show (addOverflow c w).1.toNat = c.toNat + w.toNat by omega]
        exact h2
      · rw [Bool.or_eq_true, decide_eq_true_iff, cmp_pos_iff, maxSqrt_nat]
        rintro (h | h)
        · exact hf h
        · omega
  unfold band
  rw [b1, Except_bind_ok, b2, Except_bind_ok]
  rfl

theorem bandWidth_back {s : Strat} {k : Int} (hk : 0 ≤ k ∧ k < 2 ^ 64) {vol : U256} (h : s.history.volatility = .ok vol) :
    ∃ w, s.bandWidth k = .ok w ∧ w.toNat = bandHalf vol k := by
  obtain ⟨w, h1, _⟩ := sqrt_spec (rsh (mul vol (ofWord (BitVec.ofInt 64 k))) 10)
  have hx : s.bandWidth k = .ok w := by
    unfold bandWidth
    rw [h, Except_bind_ok]
    exact h1
  obtain ⟨vol', h2, h3⟩ := bandWidth_ok hk hx
  rw [h] at h2
  cases h2
  exact ⟨w, hx, h3⟩

theorem bollingerTicks_back {s : Strat} {k : Int} (hk : 0 ≤ k ∧ k < 2 ^ 64) {r : Int × Int} (h : AverageBand s k r) :
    s.bollingerTicks k = .ok r := by
  obtain ⟨avg, vol, h1, h2, h3⟩ := h
  obtain ⟨w, k1, k2⟩ := bandWidth_back hk h2
  obtain ⟨c, k3, k4⟩ := sqrt_spec avg
  rw [← k2, ← k4] at h3
  unfold bollingerTicks
  rw [k1, Except_bind_ok, h1, Except_bind_ok, k3, Except_bind_ok]
  exact band_back h3

theorem volatilityTicks_back {s : Strat} {k : Int} (hk : 0 ≤ k ∧ k < 2 ^ 64) {r : Int × Int} {vol : U256}
    (h1 : s.history.volatility = .ok vol) (h2 : BandOf s.pool.price.toNat (bandHalf vol k) r) : s.volatilityTicks k = .ok r := by
  obtain ⟨w, k1, k2⟩ := bandWidth_back hk h1
  rw [← k2] at h2
  unfold volatilityTicks
  rw [k1, Except_bind_ok]
  exact band_back h2

/-! ### `Init` and `Rebalance` -/

/-- The call returns if the purchases can be made. -/
def Returns (m : List Entry) (s : Strat) (go : Go Strat) (B : U256 × U256 → List StratPos → U256 × U256 → Prop) : Prop :=
  ∀ p0 done ps y, Stands m p0 done s → B (s.amount0, s.amount1) ps y → OpensAfter p0 done ps → FitsWith m s ps →
    ∃ s', go = .ok s' ∧ s'.positions = s.positions ++ ps

theorem fill_returns (m : List Entry) {s : Strat} (hr : Ready s) (r : Int × Int) :
    Returns m s (s.mintPosition r.1 r.2 >>= fun s1 => s1.fillSide r.1 r.2) (FillBuys s.pool.price s.pool.spacing s.pool.tick r) := by
  rintro p0 done ps y hst ⟨c, f, pa, pb, z, hc, hf', rfl, ba, bb⟩ ho hf
  obtain rfl := nextUp_unique hr.pos hc (next_ok hr).1
  obtain rfl := nextDown_unique hr.pos hf' (next_ok hr).2
  have d1 := mintAll_does m s r.1 r.2
  obtain ⟨oa, ob⟩ := (opensAfter_append _ _ _ _).1 ho
  have hfa := fitsWith_append hf
  obtain ⟨s1, hs1, hp⟩ := d1.bwd p0 done pa z hst ba oa hfa
  obtain ⟨⟨new, g, k⟩, mi⟩ := d1.fwd s1 hs1
  obtain rfl : new = pa := List.append_cancel_left (g.pos.symm.trans hp)
  have hfit : Fits m s1 := by unfold Fits book; rw [hp]; exact hfa
  obtain ⟨_, rfl⟩ := (k hst.own hfit).unique ba
  obtain ⟨_, st1⟩ := after g mi hst hfa
  rw [← g.still.price, ← g.still.tick, ← unit_still g.still] at bb
  have hf1 : FitsWith m s1 pb := by
    unfold FitsWith at hf ⊢
    rw [hp, List.append_assoc]
    exact hf
  obtain ⟨s', hx, hp'⟩ := (fillSide_does m s1 r.1 r.2).bwd p0 _ pb y st1 bb ob hf1
  exact ⟨s', by rw [hs1, Except_bind_ok]; exact hx, by rw [hp', hp, List.append_assoc]⟩

theorem Does.returns {m : List Entry} {s : Strat} {go : Go Strat} {plan : List Purchase} (h : Does m s go plan) :
    Returns m s go (Buys s.pool.price plan) := h.bwd

theorem openFirst_returns {m : List Entry} {s : Strat} (fuel : Nat) (hr : Ready s) (hs : Kind.Sane s.kind)
    (hns : ∀ w, s.kind ≠ .swapHalf w) :
    Returns m s (s.openFirst fuel) (fun x ps y => InitBuys s x ps y ∧ (MustOpen s.kind → ps ≠ [])) := by
  rintro p0 done ps y hst ⟨hb, hne⟩ ho hf
  unfold InitBuys InitRanges at hb
  unfold openFirst
  cases hk : s.kind with
  | constantInterval w =>
    rw [hk] at hb hs hne
    obtain ⟨_, ⟨r, hc, e⟩, hb⟩ := hb
    cases e
    obtain rfl := centred_unique hr.pos hc (around_centred hr hr.lo hr.hi hs)
    exact unchecked_back (s := { s with kind := .constantInterval w, tickLower := (s.around s.pool.tick w).1, tickUpper := (s.around s.pool.tick w).2 })
      ⟨hst.own, hst.carried⟩ hb ho hf (hne (.inl ⟨w, rfl⟩))
  | aroundPrice w =>
    rw [hk] at hb hs hne
    obtain ⟨_, ⟨r, hc, e⟩, hb⟩ := hb
    cases e
    obtain rfl := centred_unique hr.pos hc (around_centred hr hr.lo hr.hi hs)
    exact unchecked_back hst hb ho hf (hne (.inr ⟨w, rfl⟩))
  | twoInterval a b =>
    rw [hk] at hb hs
    obtain ⟨r, c, f, h1, h2, h3, hb⟩ := hb
    obtain rfl := centred_unique hr.pos h1 (around_centred hr hr.lo hr.hi hs)
    obtain rfl := nextUp_unique hr.pos h2 (next_ok hr).1
    obtain rfl := nextDown_unique hr.pos h3 (next_ok hr).2
    exact (setTwo_does m s a b).bwd p0 done ps y hst hb ho hf
  | aroundAverage w n =>
    rw [hk] at hb hs
    obtain ⟨r, ⟨avg, t, r1, h1, h2, h3, e⟩, hb⟩ := hb
    cases e
    dsimp only
    rw [averageTicks_back hr hs h1 h2 h3, Except_bind_ok]
    exact (mintAll_does m s r.1 r.2).bwd p0 done ps y hst hb ho hf
  | bollinger n k =>
    rw [hk] at hb hs
    obtain ⟨r, ⟨r1, h1, e⟩, hb⟩ := hb
    cases e
    dsimp only
    rw [bollingerTicks_back hs h1, Except_bind_ok]
    exact (mintAll_does m s r.1 r.2).bwd p0 done ps y hst hb ho hf
  | bollingerFillUp n k =>
    rw [hk] at hb hs
    obtain ⟨r, ⟨r1, h1, e⟩, hb⟩ := hb
    cases e
    dsimp only
    rw [bollingerTicks_back hs h1, Except_bind_ok]
    exact (mintAll_does m s r.1 r.2).bwd p0 done ps y hst hb ho hf
  | volatilitySized n k =>
    rw [hk] at hb hs
    obtain ⟨r, ⟨vol, r1, h1, h2, e⟩, hb⟩ := hb
    cases e
    dsimp only
    rw [volatilityTicks_back hs h1 h2, Except_bind_ok]
    exact (mintAll_does m s r.1 r.2).bwd p0 done ps y hst hb ho hf
  | fillUp w =>
    rw [hk] at hb hs
    obtain ⟨r, hc, hb⟩ := hb
    obtain rfl := centred_unique hr.pos hc (around_centred hr hr.lo hr.hi hs)
    exact fill_returns m hr _ p0 done ps y hst hb ho hf
  | limitOrder w =>
    rw [hk] at hb hs
    obtain ⟨r, c, f, h1, h2, h3, hb⟩ := hb
    obtain rfl := centred_unique hr.pos h1 (around_centred hr hr.lo hr.hi hs)
    obtain rfl := nextUp_unique hr.pos h2 (next_ok hr).1
    obtain rfl := nextDown_unique hr.pos h3 (next_ok hr).2
    exact (setLimit_does m s w).bwd p0 done ps y hst hb ho hf
  | swapHalf w => exact absurd hk (hns w)
  | v2 =>
    rw [hk] at hb
    obtain ⟨_, e, hb⟩ := hb
    cases e
    exact (mintAll_does m s _ _).bwd p0 done ps y hst hb ho hf
  | noProvision =>
    rw [hk] at hb
    obtain ⟨rfl, _⟩ := hb
    exact ⟨s, rfl, (List.append_nil _).symm⟩

theorem openAgain_returns {m : List Entry} {s : Strat} (fuel : Nat) (hr : Ready s) (hs : Kind.Sane s.kind)
    (hns : ∀ w, s.kind ≠ .swapHalf w) : Returns m s (s.openAgain fuel) (RebalanceBuys s) := by
  rintro p0 done ps y hst hb ho hf
  unfold RebalanceBuys InitBuys InitRanges at hb
  unfold openAgain
  cases hk : s.kind with
  | constantInterval w =>
    rw [hk] at hb
    exact (mintAll_does m s s.tickLower s.tickUpper).bwd p0 done ps y hst hb ho hf
  | aroundPrice w =>
    rw [hk] at hb hs
    obtain ⟨_, ⟨r, hc, e⟩, hb⟩ := hb
    cases e
    obtain rfl := centred_unique hr.pos hc (around_centred hr hr.lo hr.hi hs)
    exact (mintAll_does m s _ _).bwd p0 done ps y hst hb ho hf
  | twoInterval a b =>
    rw [hk] at hb hs
    obtain ⟨r, c, f, h1, h2, h3, hb⟩ := hb
    obtain rfl := centred_unique hr.pos h1 (around_centred hr hr.lo hr.hi hs)
    obtain rfl := nextUp_unique hr.pos h2 (next_ok hr).1
    obtain rfl := nextDown_unique hr.pos h3 (next_ok hr).2
    exact (setTwo_does m s a b).bwd p0 done ps y hst hb ho hf
  | aroundAverage w n =>
    rw [hk] at hb hs
    obtain ⟨r, ⟨avg, t, r1, h1, h2, h3, e⟩, hb⟩ := hb
    cases e
    dsimp only
    rw [averageTicks_back hr hs h1 h2 h3, Except_bind_ok]
    exact (mintAll_does m s r.1 r.2).bwd p0 done ps y hst hb ho hf
  | bollinger n k =>
    rw [hk] at hb hs
    obtain ⟨r, ⟨r1, h1, e⟩, hb⟩ := hb
    cases e
    dsimp only
    rw [bollingerTicks_back hs h1, Except_bind_ok]
    exact (mintAll_does m s r.1 r.2).bwd p0 done ps y hst hb ho hf
  | bollingerFillUp n k =>
    rw [hk] at hb hs
    obtain ⟨r, h1, hb⟩ := hb
    dsimp only
    unfold setBollingerFill
    rw [bollingerTicks_back hs h1, Except_bind_ok]
    by_cases hc : r.1 ≤ s.pool.tick ∧ s.pool.tick ≤ r.2
    · rw [if_pos hc] at hb
      obtain ⟨s', k1, k2⟩ := fill_returns m hr r p0 done ps y hst hb ho hf
      obtain ⟨s1, k3, k4⟩ := bind_ok k1
      refine ⟨s', ?_, k2⟩
      rw [k3, Except_bind_ok, (mintAll_does m s r.1 r.2).tick k3, if_pos hc]
      exact k4
    · rw [if_neg hc] at hb
      obtain ⟨s', k1, k2⟩ := (mintAll_does m s r.1 r.2).bwd p0 done ps y hst hb ho hf
      refine ⟨s', ?_, k2⟩
      rw [k1, Except_bind_ok, (mintAll_does m s r.1 r.2).tick k1, if_neg hc]
      rfl
  | volatilitySized n k =>
    rw [hk] at hb hs
    obtain ⟨r, ⟨vol, r1, h1, h2, e⟩, hb⟩ := hb
    cases e
    dsimp only
    rw [volatilityTicks_back hs h1 h2, Except_bind_ok]
    exact (mintAll_does m s r.1 r.2).bwd p0 done ps y hst hb ho hf
  | fillUp w =>
    rw [hk] at hb hs
    obtain ⟨r, hc, hb⟩ := hb
    obtain rfl := centred_unique hr.pos hc (around_centred hr hr.lo hr.hi hs)
    exact fill_returns m hr _ p0 done ps y hst hb ho hf
  | limitOrder w =>
    rw [hk] at hb hs
    obtain ⟨r, c, f, h1, h2, h3, hb⟩ := hb
    obtain rfl := centred_unique hr.pos h1 (around_centred hr hr.lo hr.hi hs)
    obtain rfl := nextUp_unique hr.pos h2 (next_ok hr).1
    obtain rfl := nextDown_unique hr.pos h3 (next_ok hr).2
    exact (setLimit_does m s w).bwd p0 done ps y hst hb ho hf
  | swapHalf w => exact absurd hk (hns w)
  | v2 =>
    rw [hk] at hb
    obtain ⟨_, e, hb⟩ := hb
    cases e
    exact (mintAll_does m s _ _).bwd p0 done ps y hst hb ho hf
  | noProvision =>
    rw [hk] at hb
    obtain ⟨rfl, _⟩ := hb
    exact ⟨s, rfl, (List.append_nil _).symm⟩

/-! ### Only minting -/

theorem openFirst_minted {s s' : Strat} {fuel : Nat} (hns : ∀ w, s.kind ≠ .swapHalf w) (hx : s.openFirst fuel = .ok s') :
    Minted s s' := by
  unfold openFirst at hx
  cases hk : s.kind with
  | constantInterval w => rw [hk] at hx; dsimp only at hx; have h := mintUnchecked_minted hx; exact h
  | aroundPrice w => rw [hk] at hx; exact mintUnchecked_minted hx
  | twoInterval a b => rw [hk] at hx; exact ((setTwo_does [] s a b).fwd s' hx).2
  | aroundAverage w n => rw [hk] at hx; obtain ⟨r, _, hx⟩ := bind_ok hx; exact mintPosition_minted hx
  | bollinger n k => rw [hk] at hx; obtain ⟨r, _, hx⟩ := bind_ok hx; exact mintPosition_minted hx
  | bollingerFillUp n k => rw [hk] at hx; obtain ⟨r, _, hx⟩ := bind_ok hx; exact mintPosition_minted hx
  | volatilitySized n k => rw [hk] at hx; obtain ⟨r, _, hx⟩ := bind_ok hx; exact mintPosition_minted hx
  | fillUp w =>
    rw [hk] at hx
    dsimp only at hx
    unfold setFill at hx
    dsimp only at hx
    obtain ⟨s1, h1, hx⟩ := bind_ok hx
    exact (mintPosition_minted h1).trans ((fillSide_does [] s1 _ _).fwd s' hx).2
  | limitOrder w => rw [hk] at hx; exact ((setLimit_does [] s w).fwd s' hx).2
  | swapHalf w => exact absurd hk (hns w)
  | v2 => rw [hk] at hx; exact mintPosition_minted hx
  | noProvision => rw [hk] at hx; cases hx; exact Minted.refl s

theorem openAgain_minted {s s' : Strat} {fuel : Nat} (hns : ∀ w, s.kind ≠ .swapHalf w) (hx : s.openAgain fuel = .ok s') :
    Minted s s' := by
  unfold openAgain at hx
  cases hk : s.kind with
  | constantInterval w => rw [hk] at hx; exact mintPosition_minted hx
  | aroundPrice w => rw [hk] at hx; exact mintPosition_minted hx
  | twoInterval a b => rw [hk] at hx; exact ((setTwo_does [] s a b).fwd s' hx).2
  | aroundAverage w n => rw [hk] at hx; obtain ⟨r, _, hx⟩ := bind_ok hx; exact mintPosition_minted hx
  | bollinger n k => rw [hk] at hx; obtain ⟨r, _, hx⟩ := bind_ok hx; exact mintPosition_minted hx
  | bollingerFillUp n k =>
    rw [hk] at hx
    dsimp only at hx
    unfold setBollingerFill at hx
    obtain ⟨r, _, hx⟩ := bind_ok hx
    obtain ⟨s1, h1, hx⟩ := bind_ok hx
    by_cases hc : r.1 ≤ s1.pool.tick ∧ s1.pool.tick ≤ r.2
    · rw [if_pos hc] at hx
      exact (mintPosition_minted h1).trans ((fillSide_does [] s1 _ _).fwd s' hx).2
    · rw [if_neg hc] at hx
      cases hx
      exact mintPosition_minted h1
  | volatilitySized n k => rw [hk] at hx; obtain ⟨r, _, hx⟩ := bind_ok hx; exact mintPosition_minted hx
  | fillUp w =>
    rw [hk] at hx
    dsimp only at hx
    unfold setFill at hx
    dsimp only at hx
    obtain ⟨s1, h1, hx⟩ := bind_ok hx
    exact (mintPosition_minted h1).trans ((fillSide_does [] s1 _ _).fwd s' hx).2
  | limitOrder w => rw [hk] at hx; exact ((setLimit_does [] s w).fwd s' hx).2
  | swapHalf w => exact absurd hk (hns w)
  | v2 => rw [hk] at hx; exact mintPosition_minted hx
  | noProvision => rw [hk] at hx; cases hx; exact Minted.refl s

theorem openFirst_must {s s' : Strat} {fuel : Nat} (hk : MustOpen s.kind) (hx : s.openFirst fuel = .ok s') :
    s'.positions ≠ s.positions := by
  have key : ∀ {t t' : Strat} {l u : Int}, t.mintUnchecked l u = .ok t' → t'.positions ≠ t.positions := by
    intro t t' l u h
    unfold mintUnchecked at h
    obtain ⟨L, _, h⟩ := bind_ok h
    unfold mintAmount at h
    obtain ⟨⟨a0, a1, q⟩, _, h⟩ := bind_ok h
    cases h
    dsimp only
    intro e
    have := congrArg List.length e
    rw [List.length_append, List.length_singleton] at this
    omega
  unfold openFirst at hx
  rcases hk with ⟨w, hk⟩ | ⟨w, hk⟩
  · rw [hk] at hx
    dsimp only at hx
    have h := key hx
    exact h
  · rw [hk] at hx
    exact key hx

end Strat
end Uni
