import Verif.Props.Pool
import Verif.Proofs.Monotone
/-! # Downward swaps and the ends of words at or below tick zero -/
namespace Uni
open U256 Spec TickData TickMath SwapMath FullMath SqrtPriceMath LiquidityAmounts
namespace Pool

/-- A step that does not move the price and reaches its target leaves the remaining amount as it is. -/
theorem rem_same {p : Pool} {h : List Entry} {sp : Int} {z ein : Bool} {limit : U256} {s s1 : SwapState} {st : Step} {target : U256}
    (hs : SInv h sp z ein limit s) (hf : StepFacts p h z ein limit s s1 st target) (hR : RemFacts ein s s1 st target)
    (hpeq : s1.price.toNat = s.price.toNat) (hteq : s1.price.toNat = target.toNat) : s1.remaining.toInt = s.remaining.toInt := by
  have hin : st.amountIn.toNat = 0 := by
    rw [hf.spec.input, ← hf.price, hpeq]
    cases decide (target.toNat ≤ s.price.toNat)
    · rw [inAmount_f, amount1Up_self]
    · rw [inAmount_t, amount0Up_self]
  have hout : Spec.outAmount (decide (target.toNat ≤ s.price.toNat)) s.price.toNat st.next.toNat s.liquidity.toNat = 0 := by
    rw [← hf.price, hpeq]
    cases decide (target.toNat ≤ s.price.toNat)
    · rw [outAmount_f, amount0Down_self]
    · rw [outAmount_t, amount1Down_self]
  cases ein
  · have h3 := hR.remOut rfl
    have h4 := hs.remOut rfl
    by_cases h0 : s.remaining.toInt = 0
    · have h5 := hf.spec.outputIn (by omega)
      rw [hout] at h5
      omega
    · have h5 := hf.spec.outputOut (by omega)
      rw [hout] at h5
      omega
  · have h3 := hR.remIn rfl
    have h5 := hf.spec.feeExact (Or.inr (by rw [← hf.price]; exact hteq))
    rw [hin, Nat.zero_mul, ceilDiv_zero] at h5
    omega

/-- The price limit does not matter to a step that cannot get there. -/
theorem step_above {p : Pool} {h : List Entry} {sp : Int} {ein : Bool} {limit b : U256} {s : SwapState} {k : Int} (hi : LInv h sp s)
    {i : Int} (hg : grossAt h i ≠ 0)
    (hk : k ≤ 0) (hk2 : -887272 ≤ 256 * k * sp) (hb : b.toNat = ratioN (256 * k * sp)) (hlt : limit.toNat < b.toNat)
    (ht : 256 * k * sp ≤ s.tick) : swapStep p true ein limit s = swapStep p true ein b s := by
  have hpos : 0 < s.ticks.spacing := by rw [hi.spacing]; exact hi.sp_pos
  have hneg : 256 * k * sp ≤ 0 := Int.mul_nonpos_of_nonpos_of_nonneg (by omega) (le_of_lt hi.sp_pos)
  obtain ⟨n, d, h1, q1, q2, _⟩ := next_down hi.ticks.inc (nonempty_of_gross hi.ticks hg) (by omega) s.tick
  have hw := le_wordMin (t := s.ticks) hpos (tick := s.tick) (k := k) (by rw [hi.spacing]; exact ht)
  rw [hi.spacing] at hw
  have hn : 256 * k * sp ≤ n := by
    cases d
    · rw [q2 rfl]; exact hw
    · have := (q1 rfl).2.2; omega
  have hcl := clampTick_eq n
  obtain ⟨pn, h2, hpn⟩ := getSqrtRatioAtTick_spec (clampTick n) (by omega) (by omega)
  have hge : b.toNat ≤ pn.toNat := by rw [hb, hpn]; exact ratioN_le hk2 (by omega) (by omega)
  have e : ∀ x : U256, x.toNat ≤ b.toNat → pickTarget true pn x = pn := by
    intro x hx
    unfold pickTarget
    rw [if_pos rfl, if_neg (fun hc => by have := (cmp_lt0 _ _).1 hc; omega)]
  unfold swapStep
  rw [h1, Except_bind_ok, Except_bind_ok]
  dsimp only
  rw [h2, Except_bind_ok, Except_bind_ok, e limit (by omega), e b (le_refl _)]

theorem sinv_limit {h : List Entry} {sp : Int} {ein : Bool} {limit b : U256} {s : SwapState} (hs : SInv h sp true ein b s)
    (h1 : limit.toNat ≤ b.toNat) (h2 : ratioN (-887272) < limit.toNat) : SInv h sp true ein limit s :=
  ⟨hs.inv, fun _ => ⟨by have := (hs.down rfl).1; omega, h2⟩, (by intro h; cases h), hs.rem, hs.remIn, hs.remOut, hs.clear⟩

/-- A downward swap does what the swap limited to the end of a word at or below tick zero does, and runs forever if that
leaves anything to do. -/
theorem loop_barrier {p : Pool} {h : List Entry} {sp : Int} {ein : Bool} {limit b : U256} (hf0 : 0 ≤ p.fee) (hf1 : p.fee < 1000000)
    (hsp : 1 < sp) {i : Int} (hg : grossAt h i ≠ 0) {k : Int} (hk : k ≤ 0) (hk2 : -887272 ≤ 256 * k * sp)
    (hb : b.toNat = ratioN (256 * k * sp)) (hlt : limit.toNat < b.toNat) (hl : ratioN (-887272) < limit.toNat) (fuel : Nat) :
    ∀ s : SwapState, SInv h sp true ein b s → Falling sp true s →
      swapLoop p true ein limit fuel s =
        (swapLoop p true ein b fuel s >>= fun s' => if s'.remaining.toInt = 0 then .ok s' else .error .fuel) := by
  have hneg : 256 * k * sp ≤ 0 := Int.mul_nonpos_of_nonpos_of_nonneg (by omega) (by omega)
  induction fuel with
  | zero => intro s _ _; rfl
  | succ n ih =>
    intro s hs hfall
    have hs' := sinv_limit hs hlt.le hl
    have hge := (hs.down rfl).1
    by_cases h0 : s.remaining.toInt = 0
    · have r1 : running limit s = false := Bool.eq_false_iff.2 fun hc => (running_iff.1 hc).1 h0
      have r2 : running b s = false := Bool.eq_false_iff.2 fun hc => (running_iff.1 hc).1 h0
      rw [loop_stop r1 (by omega), loop_stop r2 (by omega), Except_bind_ok, if_pos h0]
    have r1 : running limit s = true := running_iff.2 ⟨h0, by omega⟩
    by_cases hp : s.price.toNat = b.toNat
    · have r2 : running b s = false := Bool.eq_false_iff.2 fun hc => (running_iff.1 hc).2 hp
      rw [loop_stop r2 (by omega), Except_bind_ok, if_neg h0]
      rcases hfall.2 with hgood | hst
      · have hphi := hs.inv.phi
        have hplo := hs.inv.plo
        have htlo := hs.inv.tlo
        have hthi := hs.inv.thi
        have t1 : 256 * k * sp ≤ s.tick + 1 := by
          by_contra hc
          have := ratioN_lt (s := s.tick + 1) (t := 256 * k * sp) (by omega) (by omega) (by omega)
          omega
        have t2 : s.tick ≤ 256 * k * sp := by
          by_contra hc
          have := ratioN_lt (s := 256 * k * sp) (t := s.tick) (by omega) (by omega) (by omega)
          omega
        have t3 : s.tick = 256 * k * sp := by
          by_contra hc
          exact hgood ⟨k, hk, by omega, by omega⟩
        have h96 : b.toNat ≤ 2 ^ 96 := by
          rw [hb, ← ratioN_zero]
          exact ratioN_le hk2 hneg (by norm_num)
        rcases step_ok hs' hf0 hf1 (nonempty_of_gross hs.inv.ticks hg) with ⟨s1, h1⟩ | ⟨_, _, h2, _⟩
        · obtain ⟨st, target, hs1, hf, hR⟩ := step_inv hs' hf0 hf1 r1 h1
          obtain ⟨d1, d2⟩ := falling_step hs' hf ⟨rfl, Or.inl hgood⟩
          have h1b := h1
          rw [step_above hs.inv hg hk hk2 hb hlt (by omega)] at h1b
          obtain ⟨n', d, pn, q1, q2, q3⟩ := hf.tgt
          have hge2 : b.toNat ≤ target.toNat := by
            have hpos : 0 < s.ticks.spacing := by rw [hs.inv.spacing]; exact hs.inv.sp_pos
            obtain ⟨m, d', e1, w1, w2, _⟩ := next_down hs.inv.ticks.inc (nonempty_of_gross hs.inv.ticks hg) (by omega) s.tick
            rw [q1] at e1
            obtain ⟨rfl, rfl⟩ : n' = m ∧ d = d' := by cases e1; exact ⟨rfl, rfl⟩
            have hw := le_wordMin (t := s.ticks) hpos (tick := s.tick) (k := k) (by rw [hs.inv.spacing]; omega)
            rw [hs.inv.spacing] at hw
            have hn : 256 * k * sp ≤ n' := by
              cases d
              · rw [w2 rfl]; exact hw
              · have := (w1 rfl).2.2; omega
            have hcl := clampTick_eq n'
            obtain ⟨_, _, hpn⟩ := getSqrtRatioAtTick_ok q2
            have := ratioN_le (s := 256 * k * sp) (t := clampTick n') hk2 (by omega) (by omega)
            rw [q3, pickTarget_down, hpn, hb]
            omega
          have hbt := hf.spec.between
          rw [← hf.price] at hbt
          have hpeq : s1.price.toNat = s.price.toNat := by omega
          have hrem := rem_same hs' hf hR hpeq (by omega)
          have r3 : running limit s1 = true := running_iff.2 ⟨by omega, by omega⟩
          have hst : Stuck sp s1 := by
            rcases d2.2 with hc | hc
            · exfalso
              rcases step_progress hs' hf hR with h2 | ⟨h2, _⟩ | ⟨_, h2⟩
              · rw [h2] at r3; cases r3
              · cases h2
              · have h3 := h2 hgood
                have h4 := hs1.inv.phi
                have h5 := hs1.inv.tlo
                have : 256 * k * sp ≤ s1.tick + 1 := by
                  by_contra hc
                  have := ratioN_lt (s := s1.tick + 1) (t := 256 * k * sp) (by omega) (by omega) (by omega)
                  omega
                exact hc ⟨k, hk, by omega, by omega⟩
            · exact hc
          rw [swapLoop, if_pos r1, h1, Except_bind_ok]
          exact loop_stuck hf0 hf1 hsp hg n s1 hs1 hst r3
        · omega
      · exact loop_stuck hf0 hf1 hsp hg (n + 1) s hs' hst r1
    · have r2 : running b s = true := running_iff.2 ⟨h0, hp⟩
      by_cases hst : Stuck sp s
      · rw [loop_stuck hf0 hf1 hsp hg (n + 1) s hs' hst r1, loop_stuck hf0 hf1 hsp hg (n + 1) s hs hst r2]
        rfl
      have hgood : Good sp s.tick := by
        rcases hfall.2 with h | h
        · exact h
        · exact absurd h hst
      have hphi := hs.inv.phi
      have htlo := hs.inv.tlo
      have ht : 256 * k * sp ≤ s.tick := by
        by_contra hc
        have := ratioN_le (s := s.tick + 1) (t := 256 * k * sp) (by omega) (by omega) (by omega)
        omega
      rw [swapLoop, swapLoop, if_pos r1, if_pos r2, step_above hs.inv hg hk hk2 hb hlt ht]
      cases h1 : swapStep p true ein b s with
      | error e => rfl
      | ok s1 =>
        obtain ⟨st, target, hs1, hf, hR⟩ := step_inv hs hf0 hf1 r2 h1
        rw [Except_bind_ok, Except_bind_ok]
        exact ih s1 hs1 (falling_step hs hf hfall).2

/-- More iterations do not change a result that has been reached. -/
theorem loop_fuel {p : Pool} {z ein : Bool} {limit : U256} (f : Nat) : ∀ {f' : Nat} (s : SwapState), f ≤ f' →
    swapLoop p z ein limit f s = .error .fuel ∨ swapLoop p z ein limit f' s = swapLoop p z ein limit f s := by
  induction f with
  | zero => intro f' s _; exact Or.inl rfl
  | succ n ih =>
    intro f' s hf
    obtain ⟨m, rfl⟩ : ∃ m, f' = m + 1 := ⟨f' - 1, by omega⟩
    unfold swapLoop
    by_cases hr : running limit s = true
    · rw [if_pos hr, if_pos hr]
      cases h1 : swapStep p z ein limit s with
      | error e => exact Or.inr rfl
      | ok s1 =>
        rw [Except_bind_ok, Except_bind_ok]
        exact ih s1 (by omega)
    · rw [if_neg hr, if_neg hr]
      exact Or.inr rfl

theorem swap_fuel {p : Pool} {z : Bool} {amount limit : U256} {f f' : Nat} (hf : f ≤ f') :
    p.swap f z amount limit = .error .fuel ∨ p.swap f' z amount limit = p.swap f z amount limit := by
  unfold Pool.swap
  cases invariant (!amount.isZero) with
  | error e => exact Or.inr rfl
  | ok _ =>
    rw [Except_bind_ok, Except_bind_ok]
    dsimp only
    cases invariant (limitOk p z (effLimit z limit)) with
    | error e => exact Or.inr rfl
    | ok _ =>
      rw [Except_bind_ok, Except_bind_ok]
      rcases loop_fuel f (p := p) (z := z) (ein := decide (amount.sign ≥ 0)) (limit := effLimit z limit) (initState p z amount) hf with h | h
      · left; rw [h]; rfl
      · right; rw [h]

theorem finish_rest {p : Pool} {z b : Bool} {n : Int} {pn R : U256} {s0 t0 s s' : SwapState} (h0 : s0.price = t0.price)
    (hx : finishStep p z b n pn s0 s = .ok s') : finishStep p z b n pn t0 { s with remaining := R } = .ok { s' with remaining := R } := by
  unfold finishStep at hx ⊢
  dsimp only at hx ⊢
  rw [← h0]
  by_cases h1 : cmp s.price pn = 0
  · rw [if_pos h1] at hx ⊢
    obtain ⟨c, h2, h3⟩ := bind_ok hx
    rw [h2, Except_bind_ok]
    cases h3
    rfl
  · rw [if_neg h1] at hx ⊢
    by_cases h2 : cmp s.price s0.price ≠ 0
    · rw [if_pos h2] at hx ⊢
      obtain ⟨c, h3, h4⟩ := bind_ok hx
      rw [h3, Except_bind_ok]
      cases h4
      rfl
    · rw [if_neg h2] at hx ⊢
      cases hx
      rfl

theorem finish_rem {p : Pool} {z b : Bool} {n : Int} {pn : U256} {s0 s s' : SwapState}
    (hx : finishStep p z b n pn s0 s = .ok s') : s'.remaining = s.remaining := by
  have h := finish_rest (R := s.remaining) (t0 := s0) rfl hx
  rw [show ({ s with remaining := s.remaining } : SwapState) = s from rfl, hx] at h
  injection h with h
  rw [h]

/-- Two iterations that differ only in the remaining amount and make the same step. -/
theorem step_rest {p : Pool} {z ein : Bool} {limit : U256} {s t s' t' : SwapState} {x y : Step} {T T' : U256} {h : List Entry}
    (hv : t = { s with remaining := t.remaining }) (hx : swapStep p z ein limit s = .ok s') (hy : swapStep p z ein limit t = .ok t')
    (hf : StepFacts p h z ein limit s s' x T) (hf' : StepFacts p h z ein limit t t' y T') :
    T = T' ∧ (x = y → t' = { s' with remaining := t'.remaining }) := by
  obtain ⟨n, b, pn, a1, a2, a3⟩ := hf.tgt
  obtain ⟨n', b', pn', b1, b2, b3⟩ := hf'.tgt
  obtain ⟨m, c, q, u, g, c1, c2, c3, c4, c5⟩ := swapStep_inv hx
  obtain ⟨m', c', q', u', g', d1, d2, d3, d4, d5⟩ := swapStep_inv hy
  rw [a1] at c1
  cases c1
  rw [a2] at c2
  cases c2
  rw [← a3, hf.step] at c3
  cases c3
  rw [b1] at d1
  cases d1
  rw [b2] at d2
  cases d2
  rw [← b3, hf'.step] at d3
  cases d3
  have e1 : t.ticks = s.ticks := by rw [hv]
  have e2 : t.tick = s.tick := by rw [hv]
  have e3 : t.liquidity = s.liquidity := by rw [hv]
  have e4 : t.growth = s.growth := by rw [hv]
  have e5 : t.calculated = s.calculated := by rw [hv]
  have e6 : t.price = s.price := by rw [hv]
  rw [e1, e2, a1] at b1
  cases b1
  rw [a2] at b2
  cases b2
  refine ⟨by rw [a3, b3], fun hn => ?_⟩
  subst hn
  rw [e3, e4, c4] at d4
  cases d4
  have k := finish_rest (R := t'.remaining) (t0 := t) e6.symm c5
  have k2 := finish_rem d5
  dsimp only at k k2
  rw [k2] at k
  have k3 : ∀ R, ({ t with price := x.next, remaining := R, calculated := if ein then sub t.calculated x.amountOut else add t.calculated (add x.amountIn x.fee), growth := g } : SwapState) =
      { s with price := x.next, remaining := R, calculated := if ein then sub s.calculated x.amountOut else add s.calculated (add x.amountIn x.fee), growth := g } := by
    intro R
    rw [e5]
    cases s
    cases t
    dsimp only at *
    subst e1 e2 e3
    rfl
  rw [k3, k] at d5
  injection d5 with d5
  rw [k2, d5]

/-- A run that is left with something at its limit does what every run with more to do does. -/
theorem loop_rest {p : Pool} {h : List Entry} {sp : Int} {z ein : Bool} {limit : U256} (hf0 : 0 ≤ p.fee) (hf1 : p.fee < 1000000)
    (fuel fuel' : Nat) {s t s' t' : SwapState} (hs : SInv h sp z ein limit s) (ht : SInv h sp z ein limit t)
    (hv : t = { s with remaining := t.remaining })
    (hin : ein = true → s.remaining.toInt ≤ t.remaining.toInt) (hout : ein = false → t.remaining.toInt ≤ s.remaining.toInt)
    (hx : swapLoop p z ein limit fuel s = .ok s') (hy : swapLoop p z ein limit fuel' t = .ok t') (h0 : s'.remaining.toInt ≠ 0) :
    t' = { s' with remaining := t'.remaining } ∧
      t.remaining.toInt - t'.remaining.toInt = s.remaining.toInt - s'.remaining.toInt := by
  induction fuel generalizing s t fuel' with
  | zero => cases hx
  | succ k ih =>
    have e3 : t.liquidity = s.liquidity := by rw [hv]
    have e6 : t.price = s.price := by rw [hv]
    by_cases hr : running limit s = true
    · unfold swapLoop at hx
      rw [if_pos hr] at hx
      obtain ⟨s1, hx1, hx2⟩ := bind_ok hx
      obtain ⟨hr0, hrl⟩ := running_iff.1 hr
      have hr' : running limit t = true := by
        rw [running_iff, e6]
        refine ⟨?_, hrl⟩
        cases ein
        · have := hout rfl
          have := hs.remOut rfl
          omega
        · have := hin rfl
          have := hs.remIn rfl
          omega
      cases fuel' with
      | zero => cases hy
      | succ k' =>
        unfold swapLoop at hy
        rw [if_pos hr'] at hy
        obtain ⟨t1, hy1, hy2⟩ := bind_ok hy
        obtain ⟨x, T, hs1, hf, hR⟩ := step_inv hs hf0 hf1 hr hx1
        obtain ⟨y, T', ht1, hf', hR'⟩ := step_inv ht hf0 hf1 hr' hy1
        obtain ⟨hT, hview⟩ := step_rest hv hx1 hy1 hf hf'
        subst hT
        have sp1 := hf.spec
        have sp2 := hf'.spec
        rw [e6, e3] at sp2
        have hC : 0 < s.price.toNat := by have := hs.inv.priceOk.lo; omega
        have hT0 : 0 < T.toNat := by
          cases z
          · have := (hf.up rfl).1; omega
          · have h1 := hf.down rfl
            have h2 := (hs.down rfl).2
            omega
        have hfee : p.fee.toNat < 1000000 := by omega
        have key : (x.next = y.next ∧ y.amountIn.toNat = x.amountIn.toNat ∧ y.amountOut.toNat = x.amountOut.toNat ∧ y.fee.toNat = x.fee.toNat) ∨
            s1.remaining.toInt = 0 := by
          cases ein
          · have hneg : s.remaining.toInt < 0 := by have := hs.remOut rfl; omega
            have hm := step_mono_out sp1 sp2 hneg (hout rfl) hfee hC hT0
            by_cases hc : (outAmount (decide (T.toNat ≤ s.price.toNat)) s.price.toNat T.toNat s.liquidity.toNat : Int) ≤ -s.remaining.toInt
            · obtain ⟨e1, e2, e3⟩ := hm.1 hc
              exact Or.inl ⟨ext_toNat (e1.trans e2.symm), e3⟩
            · obtain ⟨e1, e2⟩ := hm.2 (by omega)
              have := hR.remOut rfl
              exact Or.inr (by omega)
          · have hpos := hs.remIn rfl
            have hle := hin rfl
            have hm := step_mono_in sp1 sp2 hpos hle hfee hC hT0
              (fun he => by
                have hst := hf'.step
                rw [e6, e3] at hst
                rw [next_det hpos (by omega) hs.rem ht.rem hf0 hf1 hf.step hst he])
            by_cases hc : x.next.toNat = T.toNat
            · obtain ⟨e1, e3⟩ := hm.1 hc
              exact Or.inl ⟨ext_toNat (hc.trans e1.symm), e3⟩
            · exact Or.inr (hR.done (by rw [hf.price]; exact hc))
        rcases key with ⟨e0, e1, e2, e3⟩ | e0
        · have hxy : x = y := by
            cases x
            cases y
            dsimp only at *
            rw [e0, ext_toNat e1, ext_toNat e2, ext_toNat e3]
          obtain ⟨q1, q2⟩ := ih k' hs1 ht1 (hview hxy)
            (by
              intro he
              have a1 := hR.remIn he
              have a2 := hR'.remIn he
              have := hin he
              omega)
            (by
              intro he
              have a1 := hR.remOut he
              have a2 := hR'.remOut he
              have := hout he
              omega) hx2 hy2
          refine ⟨q1, ?_⟩
          cases ein
          · have a1 := hR.remOut rfl
            have a2 := hR'.remOut rfl
            omega
          · have a1 := hR.remIn rfl
            have a2 := hR'.remIn rfl
            omega
        · have hstop : s' = s1 := by
            apply loop_halt (Bool.eq_false_iff.2 ?_) hx2
            rw [Ne, running_iff]
            exact fun hc => hc.1 e0
          rw [hstop] at h0
          exact absurd e0 h0
    · have hr' := Bool.eq_false_iff.2 hr
      have hstop := loop_halt hr' hx
      subst hstop
      rcases not_running hr' with e | e
      · exact absurd e h0
      · have hr2 : running limit t = false := by
          rw [Bool.eq_false_iff, Ne, running_iff, e6]
          exact fun hc => hc.2 e
        have := loop_halt hr2 hy
        subst this
        exact ⟨hv, by omega⟩

/-- An input that pays for the whole way and its fee is enough after the fee. -/
theorem budget_reach {r i fee : Nat} (hf : fee < 1000000) (h : i + ceilDiv (i * fee) (1000000 - fee) ≤ r) :
    i ≤ r * (1000000 - fee) / 1000000 := by
  rw [Nat.le_div_iff_mul_le (by norm_num)]
  have h1 : i * fee ≤ ceilDiv (i * fee) (1000000 - fee) * (1000000 - fee) := by
    have := (ceilDiv_le_iff (n := i * fee) (d := 1000000 - fee) (k := ceilDiv (i * fee) (1000000 - fee)) (by omega)).1 (le_refl _)
    exact this
  have h2 : (i + ceilDiv (i * fee) (1000000 - fee)) * (1000000 - fee) ≤ r * (1000000 - fee) := Nat.mul_le_mul_right _ h
  have h3 : i * (1000000 - fee) + i * fee = i * 1000000 := by
    rw [← Nat.mul_add]
    congr 1
    omega
  rw [Nat.add_mul] at h2
  omega

/-- A sale of token0 from a tick at which the search is broken: one iteration decides. -/
theorem loop_broken {p : Pool} {h : List Entry} {sp : Int} {ein : Bool} {limit : U256} (hf0 : 0 ≤ p.fee) (hf1 : p.fee < 1000000)
    (hsp : 1 < sp) {i : Int} (hg : grossAt h i ≠ 0) {k : Int} (hk : k ≤ 0) {s : SwapState} (hs : SInv h sp true ein limit s)
    (h1 : 256 * k * sp - sp < s.tick) (h2 : s.tick < 256 * k * sp) (hr : running limit s = true) :
    ∃ s1 st target, swapStep p true ein limit s = .ok s1 ∧ StepFacts p h true ein limit s s1 st target ∧ RemFacts ein s s1 st target ∧
      target.toNat = ratioN (256 * k * sp) ∧ s.price.toNat ≤ target.toNat ∧
      (s1.remaining.toInt = 0 → ∀ fuel, swapLoop p true ein limit (fuel + 2) s = .ok s1) ∧
      (s1.remaining.toInt ≠ 0 → ∀ fuel, swapLoop p true ein limit fuel s = .error .fuel) := by
  have hpos : 0 < s.ticks.spacing := by rw [hs.inv.spacing]; omega
  have hbad : ¬ Good sp s.tick := fun hc => hc ⟨k, hk, h1, h2⟩
  have hw : wordMin s.ticks s.tick = 256 * k * sp := by
    have := wordMin_eq (t := s.ticks) hpos (tick := s.tick) (k := k) hk (by rw [hs.inv.spacing]; exact h1) (by rw [hs.inv.spacing]; exact h2)
    rw [hs.inv.spacing] at this
    exact this
  rcases step_ok hs hf0 hf1 (nonempty_of_gross hs.inv.ticks hg) with ⟨s1, hx⟩ | ⟨_, _, _, hc⟩
  · obtain ⟨st, target, hs1, hf, hR⟩ := step_inv hs hf0 hf1 hr hx
    obtain ⟨b1, b2, b3, b4⟩ := hf.bad rfl (by omega)
    rw [hw] at b3 b4
    refine ⟨s1, st, target, hx, hf, hR, b4, b1, fun h0 fuel => ?_, fun h0 fuel => ?_⟩
    · have r1 : running limit s1 = false := Bool.eq_false_iff.2 fun hc => (running_iff.1 hc).1 h0
      rw [swapLoop, if_pos hr, hx, Except_bind_ok]
      exact loop_stop r1 (by omega)
    · have hpr : s1.price.toNat = target.toNat := by
        by_contra hc
        exact h0 (hR.done hc)
      have hlo := (hs.down rfl).1
      have hbt := hf.spec.between
      have r1 : running limit s1 = true := by
        refine running_iff.2 ⟨h0, ?_⟩
        have := (running_iff.1 hr).2
        omega
      have hphi := hs1.inv.phi
      have htlo := hs1.inv.tlo
      have hneg : 256 * k * sp ≤ 0 := Int.mul_nonpos_of_nonpos_of_nonneg (by omega) (by omega)
      have t1 : 256 * k * sp ≤ s1.tick + 1 := by
        by_contra hc
        have := ratioN_lt (s := s1.tick + 1) (t := 256 * k * sp) (by omega) (by omega) (by omega)
        omega
      have hst : Stuck sp s1 := ⟨k, hk, by omega, by rw [hpr, b4]⟩
      cases fuel with
      | zero => rfl
      | succ n =>
        rw [swapLoop, if_pos hr, hx, Except_bind_ok]
        exact loop_stuck hf0 hf1 hsp hg n s1 hs1 hst r1
  · exact absurd hc hbad

end Pool
end Uni
