import Verif.Spec.Market
import Verif.Props.Pool
/-! # Swaps depend on the market only -/
namespace Uni
open U256 Spec TickData TickMath SwapMath FullMath
namespace Spec

theorem SameEnd.bind {α β γ δ : Type} {R : α → β → Prop} {S : γ → δ → Prop} {x : Go α} {y : Go β} {f : α → Go γ} {g : β → Go δ}
    (h : SameEnd R x y) (hf : ∀ a b, R a b → SameEnd S (f a) (g b)) : SameEnd S (x >>= f) (y >>= g) := by
  rcases x with e | a <;> rcases y with e' | b
  · exact h
  · exact h.elim
  · exact h.elim
  · exact hf a b h

theorem SameEnd.of_eq {α : Type} {x y : Go α} (h : x = y) : SameEnd Eq x y := by
  subst h
  rcases x with e | a
  · exact rfl
  · exact rfl

/-- The sums over a ledger depend on the outstanding liquidity only. -/
theorem wsum_ext {h h' : List Entry} (ho : ∀ l u, outstanding h l u = outstanding h' l u) (f : Int → Int → Int) : wsum f h = wsum f h' := by
  have app : ∀ (g : Int → Int → Int) (a b : List Entry), wsum g (a ++ b.map (fun e => ⟨e.lower, e.upper, -e.delta⟩)) = wsum g a - wsum g b := by
    intro g a b
    induction a with
    | nil =>
      induction b with
      | nil => rfl
      | cons e b ih =>
        rw [List.nil_append] at ih
        rw [List.nil_append, List.map_cons, wsum_cons, wsum_cons, ih, wsum_nil]
        push_cast
        ring
    | cons e a ih => rw [List.cons_append, wsum_cons, wsum_cons, ih]; ring
  have hz : ∀ l u, outstanding (h ++ h'.map (fun e => ⟨e.lower, e.upper, -e.delta⟩)) l u = 0 := by
    intro l u
    unfold outstanding
    rw [app]
    have := ho l u
    unfold outstanding at this
    omega
  have := wsum_eq (f := f) (g := fun _ _ => 0) (h := h ++ h'.map (fun e => ⟨e.lower, e.upper, -e.delta⟩))
    (fun l u => le_of_eq (hz l u).symm) (fun e _ hp => by rw [hz] at hp; omega)
  rw [app] at this
  have h0 : ∀ l : List Entry, wsum (fun _ _ => (0 : Int)) l = 0 := by
    intro l
    induction l with
    | nil => rfl
    | cons e l ih => rw [wsum_cons, ih]; ring
  rw [h0] at this
  omega

end Spec
namespace Pool

/-- The stores have the same ticks with the same net liquidity. -/
structure SameTicks (t t' : TickData) : Prop where
  inc : Increasing t.ticks
  inc' : Increasing t'.ticks
  spacing : t.spacing = t'.spacing
  sp : t.spacing ≠ 0
  net : ∀ i, (lookup t.ticks i).map (·.net) = (lookup t'.ticks i).map (·.net)

theorem SameTicks.has {t t' : TickData} (h : SameTicks t t') (i : Int) : Has t i ↔ Has t' i := by
  have := h.net i
  unfold Has
  generalize lookup t.ticks i = a at *
  generalize lookup t'.ticks i = b at *
  rcases a with _ | x <;> rcases b with _ | y <;> simp_all

theorem nil_iff {t : TickData} (hs : Increasing t.ticks) : t.ticks = [] ↔ ∀ i, ¬ Has t i := by
  constructor
  · intro h i
    unfold Has lookup
    rw [h]
    simp
  · intro h
    rcases hl : t.ticks with _ | ⟨x, xs⟩
    · rfl
    · exfalso
      apply h x.index
      unfold Has
      rw [lookup_of_mem hs (by rw [hl]; exact List.mem_cons_self)]
      rfl

theorem SameTicks.next {t t' : TickData} (h : SameTicks t t') (tick : Int) (z : Bool) :
    t.nextInitializedTickWithinOneWord tick z = t'.nextInitializedTickWithinOneWord tick z := by
  by_cases he : t.ticks = []
  · have he' : t'.ticks = [] := (nil_iff h.inc').2 (fun i hi => (nil_iff h.inc).1 he i ((h.has i).2 hi))
    rw [next_empty he, next_empty he']
  · have he' : t'.ticks ≠ [] := fun hc => he ((nil_iff h.inc).2 (fun i hi => (nil_iff h.inc').1 hc i ((h.has i).1 hi)))
    have hsp' : t'.spacing ≠ 0 := by rw [← h.spacing]; exact h.sp
    cases z
    · obtain ⟨n, b, e, q1, q2, q3⟩ := next_up h.inc he h.sp tick
      obtain ⟨n', b', e', q1', q2', q3'⟩ := next_up h.inc' he' hsp' tick
      have hw : wordMax t' tick = wordMax t tick := by unfold wordMax; rw [h.spacing]
      rw [hw] at q1' q2'
      rw [e, e']
      cases b <;> cases b'
      · rw [q2 rfl, q2' rfl]
      · exfalso
        obtain ⟨k1, k2, k3⟩ := q1' rfl
        have := q3 n' ((h.has n').2 k1) k2
        have e1 := q2 rfl
        have := this.2 (by omega)
        cases this
      · exfalso
        obtain ⟨k1, k2, k3⟩ := q1 rfl
        have := q3' n ((h.has n).1 k1) k2
        have e1 := q2' rfl
        have := this.2 (by omega)
        cases this
      · obtain ⟨k1, k2, k3⟩ := q1 rfl
        obtain ⟨k1', k2', k3'⟩ := q1' rfl
        have a1 := (q3' n ((h.has n).1 k1) k2).1
        have a2 := (q3 n' ((h.has n').2 k1') k2').1
        rw [show n = n' by omega]
    · obtain ⟨n, b, e, q1, q2, q3⟩ := next_down h.inc he h.sp tick
      obtain ⟨n', b', e', q1', q2', q3'⟩ := next_down h.inc' he' hsp' tick
      have hw : wordMin t' tick = wordMin t tick := by unfold wordMin; rw [h.spacing]
      rw [hw] at q1' q2'
      rw [e, e']
      cases b <;> cases b'
      · rw [q2 rfl, q2' rfl]
      · exfalso
        obtain ⟨k1, k2, k3⟩ := q1' rfl
        have := q3 n' ((h.has n').2 k1) k2
        have e1 := q2 rfl
        have := this.2 (by omega)
        cases this
      · exfalso
        obtain ⟨k1, k2, k3⟩ := q1 rfl
        have := q3' n ((h.has n).1 k1) k2
        have e1 := q2' rfl
        have := this.2 (by omega)
        cases this
      · obtain ⟨k1, k2, k3⟩ := q1 rfl
        obtain ⟨k1', k2', k3'⟩ := q1' rfl
        have a1 := (q3' n ((h.has n).1 k1) k2).1
        have a2 := (q3 n' ((h.has n').2 k1') k2').1
        rw [show n = n' by omega]

theorem SameTicks.cross {t t' : TickData} (h : SameTicks t t') (i : Int) (g0 g1 g0' g1' : U256) :
    SameEnd (fun a b => a.1 = b.1 ∧ SameTicks a.2 b.2) (t.cross i g0 g1) (t'.cross i g0' g1') := by
  have hn := h.net i
  rcases hx : lookup t.ticks i with _ | x <;> rcases hy : lookup t'.ticks i with _ | y
  · rw [cross_none h.inc hx, cross_none h.inc' hy]
    exact rfl
  · rw [hx, hy] at hn; cases hn
  · rw [hx, hy] at hn; cases hn
  · rw [hx, hy] at hn
    have hnet : x.net = y.net := by simpa using hn
    obtain ⟨ts, e1, e2, e3⟩ := cross_some h.inc hx g0 g1
    obtain ⟨ts', e1', e2', e3'⟩ := cross_some h.inc' hy g0' g1'
    rw [e1, e1']
    refine ⟨hnet, e2, e2', h.spacing, h.sp, ?_⟩
    intro j
    dsimp only
    rw [e3 j, e3' j]
    by_cases hj : j = i
    · rw [if_pos hj, if_pos hj]
      simp [hnet]
    · rw [if_neg hj, if_neg hj]
      exact h.net j

/-- The loop states agree except for the growth. -/
structure SameState (s s' : SwapState) : Prop where
  remaining : s.remaining = s'.remaining
  calculated : s.calculated = s'.calculated
  price : s.price = s'.price
  tick : s.tick = s'.tick
  liquidity : s.liquidity = s'.liquidity
  ticks : SameTicks s.ticks s'.ticks

theorem accrue_same (fee L g g' : U256) : SameEnd (fun _ _ => True) (accrue fee L g) (accrue fee L g') := by
  unfold accrue
  by_cases hs : sign L > 0
  · rw [if_pos hs, if_pos hs]
    exact SameEnd.bind (SameEnd.of_eq rfl) (fun a b _ => trivial)
  · rw [if_neg hs, if_neg hs]
    exact trivial

theorem step_same {p q : Pool} (hfee : p.fee = q.fee) {z ein : Bool} {limit : U256} {s s' : SwapState} (h : SameState s s') :
    SameEnd SameState (swapStep p z ein limit s) (swapStep q z ein limit s') := by
  unfold swapStep
  rw [h.ticks.next, h.price, h.tick, h.liquidity, h.remaining, h.calculated, hfee]
  refine SameEnd.bind (SameEnd.of_eq rfl) ?_
  rintro n _ rfl
  refine SameEnd.bind (SameEnd.of_eq rfl) ?_
  rintro pn _ rfl
  refine SameEnd.bind (SameEnd.of_eq rfl) ?_
  rintro st _ rfl
  refine SameEnd.bind (accrue_same _ _ _ _) ?_
  intro g g' _
  unfold finishStep
  dsimp only
  by_cases h1 : cmp st.next pn = 0
  · rw [if_pos h1, if_pos h1]
    refine SameEnd.bind (R := fun a b => a.1 = b.1 ∧ SameTicks a.2 b.2) ?_ ?_
    · unfold crossTick
      by_cases hb : n.2 = true
      · rw [if_pos hb, if_pos hb]
        refine SameEnd.bind (h.ticks.cross _ _ _ _ _) ?_
        rintro ⟨a, t⟩ ⟨b, t'⟩ ⟨e, ht⟩
        dsimp only at e ht
        subst e
        exact ⟨rfl, ht⟩
      · rw [if_neg hb, if_neg hb]
        exact ⟨rfl, h.ticks⟩
    · rintro ⟨a, t⟩ ⟨b, t'⟩ ⟨e, ht⟩
      dsimp only at e ht
      subst e
      exact ⟨rfl, rfl, rfl, rfl, rfl, ht⟩
  · rw [if_neg h1, if_neg h1, h.price]
    generalize cmp st.next s'.price = c
    by_cases h2 : c = 0
    · rw [if_neg (not_not.2 h2), if_neg (not_not.2 h2)]
      exact ⟨rfl, rfl, rfl, rfl, rfl, h.ticks⟩
    · rw [if_pos h2, if_pos h2]
      refine SameEnd.bind (SameEnd.of_eq rfl) ?_
      rintro t _ rfl
      exact ⟨rfl, rfl, rfl, rfl, rfl, h.ticks⟩

theorem loop_same {p q : Pool} (hfee : p.fee = q.fee) {z ein : Bool} {limit : U256} (fuel : Nat) {s s' : SwapState} (h : SameState s s') :
    SameEnd SameState (swapLoop p z ein limit fuel s) (swapLoop q z ein limit fuel s') := by
  induction fuel generalizing s s' with
  | zero => exact rfl
  | succ n ih =>
    unfold swapLoop
    have hr : running limit s = running limit s' := by unfold running; rw [h.remaining, h.price]
    rw [hr]
    by_cases hc : running limit s' = true
    · rw [if_pos hc, if_pos hc]
      exact SameEnd.bind (step_same hfee h) (fun a b hab => ih hab)
    · rw [if_neg hc, if_neg hc]
      exact h

theorem reachable_spacing {h : List Entry} {p : Pool} (hr : Reachable h p) : p.spacing = Cons.tickSpaces p.fee := by
  obtain ⟨a, b, fee, price, p0, hf, hn, hr⟩ := hr
  have h1 := (reaches_inv (new_inv hf hn).1 hr).2
  have h2 : p0.spacing = Cons.tickSpaces p0.fee := by
    unfold Pool.new at hn
    obtain ⟨_, _, hn⟩ := bind_ok hn
    obtain ⟨t, _, hn⟩ := bind_ok hn
    cases hn
    rfl
  rw [h1.1, h1.2.1]
  exact h2

theorem market_ticks {h h' : List Entry} {p q : Pool} (hi : Inv h p) (hi' : Inv h' q) (hsp : p.spacing = q.spacing)
    (ho : ∀ l u, outstanding h l u = outstanding h' l u) : SameTicks p.ticks q.ticks := by
  refine ⟨hi.ticks.inc, hi'.ticks.inc, by rw [hi.spacing, hi'.spacing, hsp], by rw [hi.spacing]; have := hi.sp_pos; omega, ?_⟩
  intro i
  have hg : grossAt h i = grossAt h' i := wsum_ext ho _
  have hn : netAt h i = netAt h' i := wsum_ext ho _
  rcases hx : lookup p.ticks.ticks i with _ | x <;> rcases hy : lookup q.ticks.ticks i with _ | y
  · rfl
  · have := hi.ticks.none i hx
    have := (hi'.ticks.some i y hy).2.2
    omega
  · have := hi'.ticks.none i hy
    have := (hi.ticks.some i x hx).2.2
    omega
  · have h1 := (hi.ticks.some i x hx).2.1
    have h2 := (hi'.ticks.some i y hy).2.1
    have : x.net = y.net := toInt_inj.1 (by omega)
    simp [this]

theorem swap_same {h h' : List Entry} {p q : Pool} (hr : Reachable h p) (hr' : Reachable h' q) (hs : SameMarket h h' p q)
    (fuel : Nat) (z : Bool) (amount limit : U256) :
    SameEnd (fun r r' => r.1 = r'.1 ∧ r.2.1 = r'.2.1 ∧ r.2.2.liquidity = r'.2.2.liquidity ∧ SameMarket h h' r.2.2 r'.2.2)
      (p.swap fuel z amount limit) (q.swap fuel z amount limit) := by
  have hi := Props.reachable_inv hr
  have hi' := Props.reachable_inv hr'
  have hsp : p.spacing = q.spacing := by rw [reachable_spacing hr, reachable_spacing hr', hs.fee]
  have ht := market_ticks hi hi' hsp hs.ranges
  have hl : p.liquidity = q.liquidity := by
    apply ext_toNat
    have h1 := hi.liq
    have h2 := hi'.liq
    have h3 : active h p.tick = active h' q.tick := by rw [hs.tick]; exact wsum_ext hs.ranges _
    omega
  unfold swap
  refine SameEnd.bind (SameEnd.of_eq rfl) ?_
  intro _ _ _
  dsimp only
  have hlim : limitOk p z (effLimit z limit) = limitOk q z (effLimit z limit) := by unfold limitOk; rw [hs.price]
  rw [hlim]
  refine SameEnd.bind (SameEnd.of_eq rfl) ?_
  intro _ _ _
  have h0 : SameState (initState p z amount) (initState q z amount) := ⟨rfl, rfl, hs.price, hs.tick, hl, ht⟩
  refine SameEnd.bind (loop_same hs.fee fuel h0) ?_
  intro s s' h1
  refine ⟨?_, ?_, h1.liquidity, hs.fee, h1.price, h1.tick, hs.ranges⟩
  · unfold swapResult
    dsimp only
    rw [h1.remaining, h1.calculated]
  · unfold swapResult
    dsimp only
    rw [h1.remaining, h1.calculated]

end Pool
end Uni
