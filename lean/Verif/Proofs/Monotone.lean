import Verif.Proofs.Market
import Verif.Proofs.SwapPath
/-! # A larger trade moves the price further, costs more and pays more -/
namespace Uni
open U256 Spec TickData TickMath FullMath SwapMath LiquidityAmounts
namespace Pool

theorem ceilDiv_frac_mono {a b c d : Nat} (hb : 0 < b) (hd : 0 < d) (h : a * d ≤ c * b) : Spec.ceilDiv a b ≤ Spec.ceilDiv c d := by
  rw [ceilDiv_le_iff hb]
  have h1 := le_ceilDiv_mul (n := c) hd
  generalize Spec.ceilDiv c d = k at *
  have h2 : a * d ≤ k * b * d := le_trans h (le_trans (Nat.mul_le_mul_right b h1) (le_of_eq (by ring)))
  exact Nat.le_of_mul_le_mul_right h2 hd

theorem div_frac_mono {a b c d : Nat} (hb : 0 < b) (hd : 0 < d) (h : a * d ≤ c * b) : a / b ≤ c / d := by
  rw [Nat.le_div_iff_mul_le hd]
  have h1 := Nat.div_mul_le_self a b
  generalize a / b = k at *
  have h2 : k * d * b ≤ c * b := le_trans (le_of_eq (by ring)) (le_trans (Nat.mul_le_mul_right d h1) h)
  exact Nat.le_of_mul_le_mul_right h2 hb

/-- `n'` is at least as far from `C` as `n`, in the same direction. -/
def Reach (C n n' : Nat) : Prop := (C ≤ n ∧ n ≤ n') ∨ (n' ≤ n ∧ n ≤ C)

theorem reach_dist {C n n' : Nat} (h : Reach C n n') : dist C n ≤ dist C n' := by
  unfold dist
  unfold Reach at h
  omega

theorem reach_frac {C n n' : Nat} (h : Reach C n n') : dist C n * (C * n') ≤ dist C n' * (C * n) := by
  have : dist C n * n' ≤ dist C n' * n := by
    rcases h with ⟨h1, h2⟩ | ⟨h1, h2⟩
    · obtain ⟨a, rfl⟩ := Nat.exists_eq_add_of_le h1
      obtain ⟨b, rfl⟩ := Nat.exists_eq_add_of_le h2
      rw [show dist C (C + a) = a by unfold dist; omega, show dist C (C + a + b) = a + b by unfold dist; omega]
      nlinarith [Nat.zero_le (a * b), Nat.zero_le (b * C)]
    · obtain ⟨a, rfl⟩ := Nat.exists_eq_add_of_le h1
      obtain ⟨b, rfl⟩ := Nat.exists_eq_add_of_le h2
      rw [show dist (n' + a + b) (n' + a) = b by unfold dist; omega, show dist (n' + a + b) n' = a + b by unfold dist; omega]
      nlinarith [Nat.zero_le (a * b), Nat.zero_le (a * n'), Nat.zero_le (a * a)]
  calc dist C n * (C * n') = C * (dist C n * n') := by ring
    _ ≤ C * (dist C n' * n) := Nat.mul_le_mul_left _ this
    _ = _ := by ring

theorem in_mono (d : Bool) {C n n' L : Nat} (hC : 0 < C) (hn : 0 < n) (hn' : 0 < n') (h : Reach C n n') :
    inAmount d C n L ≤ inAmount d C n' L := by
  cases d
  · rw [inAmount_f, inAmount_f]
    unfold amount1Up
    exact ceilDiv_frac_mono (by norm_num) (by norm_num) (Nat.mul_le_mul_right _ (Nat.mul_le_mul_left _ (reach_dist h)))
  · rw [inAmount_t, inAmount_t]
    unfold amount0Up
    refine ceilDiv_frac_mono (Nat.mul_pos hC hn) (Nat.mul_pos hC hn') ?_
    rw [Nat.mul_assoc, Nat.mul_assoc _ (dist C n')]
    exact Nat.mul_le_mul_left _ (reach_frac h)

theorem out_mono (d : Bool) {C n n' L : Nat} (hC : 0 < C) (hn : 0 < n) (hn' : 0 < n') (h : Reach C n n') :
    outAmount d C n L ≤ outAmount d C n' L := by
  cases d
  · rw [outAmount_f, outAmount_f]
    unfold amount0Down
    refine div_frac_mono (Nat.mul_pos hC hn) (Nat.mul_pos hC hn') ?_
    rw [Nat.mul_assoc, Nat.mul_assoc _ (dist C n')]
    exact Nat.mul_le_mul_left _ (reach_frac h)
  · rw [outAmount_t, outAmount_t]
    unfold amount1Down
    exact Nat.div_le_div_right (Nat.mul_le_mul_left _ (reach_dist h))

/-! ### One step -/

/-- Two steps with the same input after fees move to the same price. -/
theorem next_det {c t L a b : U256} {fee : Int} {x y : Step} (ha0 : 0 ≤ a.toInt) (hb0 : 0 ≤ b.toInt)
    (ha : a.toInt < 2 ^ 160) (hb : b.toInt < 2 ^ 160) (h0 : 0 ≤ fee) (h1 : fee < 1000000)
    (hx : computeSwapStep c t L a fee = .ok x) (hy : computeSwapStep c t L b fee = .ok y)
    (he : a.toInt * (1000000 - fee.toNat : Nat) / 1000000 = b.toInt * (1000000 - fee.toNat : Nat) / 1000000) : x.next = y.next := by
  have ea := toNat_of_nonneg ha0
  have eb := toNat_of_nonneg hb0
  have he' : a.toNat * (1000000 - fee.toNat) / 1000000 = b.toNat * (1000000 - fee.toNat) / 1000000 := by
    rw [← ea, ← eb] at he
    exact_mod_cast he
  unfold computeSwapStep at hx hy
  rw [sign_decide, decide_eq_true ha0] at hx
  rw [sign_decide, decide_eq_true hb0] at hy
  dsimp only at hx hy
  obtain ⟨u, u1, hx⟩ := bind_ok hx
  obtain ⟨v, v1, hy⟩ := bind_ok hy
  have hu : u = v := by
    unfold stepPrice at u1 v1
    rw [if_pos rfl, lessFee_spec (by omega) h0 h1] at u1 v1
    rw [he'] at u1
    rw [u1] at v1
    cases v1
    rfl
  have hx' : x.next = u.1 := by
    obtain ⟨w, w1, hx⟩ := bind_ok hx
    split at hx
    · cases hx; rfl
    · obtain ⟨g, g1, hx⟩ := bind_ok hx
      cases hx; rfl
  have hy' : y.next = v.1 := by
    obtain ⟨w, w1, hy⟩ := bind_ok hy
    split at hy
    · cases hy; rfl
    · obtain ⟨g, g1, hy⟩ := bind_ok hy
      cases hy; rfl
  rw [hx', hy', hu]

/-- Two steps of exact input, the second with at least as much left to spend. -/
theorem step_mono_in {C T L fee n i o f n' i' o' f' : Nat} {r r' : Int} (hs : Spec.SwapStep C T L r fee n i o f)
    (hs' : Spec.SwapStep C T L r' fee n' i' o' f') (hr : 0 ≤ r) (hrr : r ≤ r') (hfee : fee < 1000000) (hC : 0 < C) (hT : 0 < T)
    (hdet : r * (1000000 - fee : Nat) / 1000000 = r' * (1000000 - fee : Nat) / 1000000 → n = n') :
    (n = T → n' = T ∧ i' = i ∧ o' = o ∧ f' = f) ∧
    (n ≠ T → i + f ≤ i' + f' ∧ o ≤ o' ∧ Reach C n n') := by
  have hm : (0 : Int) ≤ ((1000000 - fee : Nat) : Int) := Int.natCast_nonneg _
  have hfm : ((1000000 - fee : Nat) : Int) + fee = 1000000 := by omega
  -- what is spent fits into the budget after fees
  have hile : (i : Int) ≤ r * (1000000 - fee : Nat) / 1000000 := by
    rw [Int.le_ediv_iff_mul_le (by norm_num)]
    have h1 := hs.feeRate
    have h2 := hs.budget hr
    have h1' : (i : Int) * fee ≤ f * (1000000 - fee : Nat) := by exact_mod_cast h1
    push_cast at h2
    generalize ((1000000 - fee : Nat) : Int) = m at *
    nlinarith
  have hmono : r * (1000000 - fee : Nat) / 1000000 ≤ r' * (1000000 - fee : Nat) / 1000000 :=
    Int.ediv_le_ediv (by norm_num) (Int.mul_le_mul_of_nonneg_right hrr hm)
  constructor
  · intro hn
    have h1 : n' = T := by
      apply hs'.reachIn (by omega)
      have := hs.input
      rw [hn] at this
      rw [← this]
      omega
    have h2 : i' = i := by rw [hs'.input, hs.input, h1, hn]
    have h3 : o' = o := by rw [hs'.outputIn (by omega), hs.outputIn hr, h1, hn]
    have h4 : f' = f := by rw [hs'.feeExact (Or.inr h1), hs.feeExact (Or.inr hn), h2]
    exact ⟨h1, h2, h3, h4⟩
  · intro hn
    have hb := hs.between
    have hb' := hs'.between
    have hreach : Reach C n n' := by
      unfold Reach
      by_contra hc
      have hne : n ≠ n' := by
        intro he
        subst he
        omega
      have hn' : n' ≠ T := by
        intro he
        subst he
        omega
      have h1 := hs'.farIn (by omega) hn' n (by omega)
      rw [← hs.input] at h1
      exact hne (hdet (by omega))
    refine ⟨?_, ?_, hreach⟩
    · have h1 := hs.fullIn hr hn
      by_cases hn' : n' = T
      · have h2 : ¬ (inAmount (decide (T ≤ C)) C T L : Int) ≤ r * (1000000 - fee : Nat) / 1000000 :=
          fun hc => hn (hs.reachIn hr hc)
        have h3 := hs'.input
        rw [hn'] at h3
        rw [← h3, Int.le_ediv_iff_mul_le (by norm_num), not_le] at h2
        have h4 := hs'.feeRate
        have h4' : (i' : Int) * fee ≤ f' * (1000000 - fee : Nat) := by exact_mod_cast h4
        have hmp : (0 : Int) < ((1000000 - fee : Nat) : Int) := by omega
        have : (r : Int) < i' + f' := by
          generalize ((1000000 - fee : Nat) : Int) = m at *
          by_contra hc
          rw [not_lt] at hc
          nlinarith
        omega
      · have h2 := hs'.fullIn (by omega) hn'
        omega
    · rw [hs.outputIn hr, hs'.outputIn (by omega)]
      exact out_mono _ hC (by omega) (by omega) hreach

/-- Two steps of exact output, the second with at least as much left to deliver. -/
theorem step_mono_out {C T L fee n i o f n' i' o' f' : Nat} {r r' : Int} (hs : Spec.SwapStep C T L r fee n i o f)
    (hs' : Spec.SwapStep C T L r' fee n' i' o' f') (hr : r < 0) (hrr : r' ≤ r) (hfee : fee < 1000000) (hC : 0 < C) (hT : 0 < T) :
    ((outAmount (decide (T ≤ C)) C T L : Int) ≤ -r → n = T ∧ n' = T ∧ i' = i ∧ o' = o ∧ f' = f) ∧
    (-r < (outAmount (decide (T ≤ C)) C T L : Int) → (o : Int) = -r ∧ i + f ≤ i' + f' ∧ o ≤ o' ∧ Reach C n n') := by
  have hb := hs.between
  have hb' := hs'.between
  constructor
  · intro h
    have h1 : n = T := hs.reachOut hr h
    have h2 : n' = T := hs'.reachOut (by omega) (by omega)
    have h3 : i' = i := by rw [hs'.input, hs.input, h1, h2]
    have h4 : f' = f := by rw [hs'.feeExact (Or.inl (by omega)), hs.feeExact (Or.inl hr), h3]
    have h5 := hs.outputOut hr
    have h6 := hs'.outputOut (by omega)
    rw [h1] at h5
    rw [h2] at h6
    exact ⟨h1, h2, h3, by omega, h4⟩
  · intro h
    have ho : (o : Int) = -r := by
      by_cases hn : n = T
      · have h5 := hs.outputOut hr
        rw [hn] at h5
        omega
      · exact hs.fullOut hr hn
    have ho' : -r ≤ (o' : Int) := by
      by_cases hn : n' = T
      · have h5 := hs'.outputOut (by omega)
        rw [hn] at h5
        omega
      · have := hs'.fullOut (by omega) hn
        omega
    have hreach : Reach C n n' := by
      unfold Reach
      by_contra hc
      have h1 := hs.farOut hr h n' (by omega)
      have h2 := hs'.outputOut (by omega)
      omega
    have hi : i ≤ i' := by
      rw [hs.input, hs'.input]
      exact in_mono _ hC (by omega) (by omega) hreach
    have hf : f ≤ f' := by
      rw [hs.feeExact (Or.inl hr), hs'.feeExact (Or.inl (by omega))]
      exact ceilDiv_frac_mono (by omega) (by omega) (Nat.mul_le_mul_right _ (Nat.mul_le_mul_right _ hi))
    exact ⟨ho, by omega, by omega, hreach⟩

/-! ### The loop -/

/-- The loop states agree except for the amounts and the growth. -/
structure View (s s' : SwapState) : Prop where
  price : s.price = s'.price
  tick : s.tick = s'.tick
  liquidity : s.liquidity = s'.liquidity
  ticks : SameTicks s.ticks s'.ticks

theorem finish_view {p p' : Pool} {z b : Bool} {n : Int} {pn : U256} {s0 t0 s t s' t' : SwapState} (h : View s t) (h0 : s0.price = t0.price)
    (hx : finishStep p z b n pn s0 s = .ok s') (hy : finishStep p' z b n pn t0 t = .ok t') : View s' t' := by
  have key : SameEnd View (finishStep p z b n pn s0 s) (finishStep p' z b n pn t0 t) := by
    unfold finishStep
    rw [h.price, h0]
    by_cases h1 : cmp t.price pn = 0
    · rw [if_pos h1, if_pos h1]
      refine SameEnd.bind (R := fun a b => a.1 = b.1 ∧ SameTicks a.2 b.2) ?_ ?_
      · unfold crossTick
        by_cases hb : b = true
        · rw [if_pos hb, if_pos hb]
          refine SameEnd.bind (h.ticks.cross _ _ _ _ _) ?_
          rintro ⟨a, t⟩ ⟨b, t'⟩ ⟨e, ht⟩
          dsimp only at e ht
          subst e
          rw [h.liquidity]
          exact ⟨rfl, ht⟩
        · rw [if_neg hb, if_neg hb]
          exact ⟨h.liquidity, h.ticks⟩
      · rintro ⟨a, t⟩ ⟨b, t'⟩ ⟨e, ht⟩
        dsimp only at e ht
        subst e
        exact ⟨rfl, rfl, rfl, ht⟩
    · rw [if_neg h1, if_neg h1]
      generalize cmp t.price t0.price = c
      by_cases h2 : c = 0
      · rw [if_neg (not_not.2 h2), if_neg (not_not.2 h2)]
        exact h
      · rw [if_pos h2, if_pos h2]
        refine SameEnd.bind (SameEnd.of_eq rfl) ?_
        rintro t _ rfl
        exact ⟨rfl, rfl, h.liquidity, h.ticks⟩
  rw [hx, hy] at key
  exact key

/-- Two iterations from the same place have the same target; if they move to the same price they end in the same place. -/
theorem step_view {p p' : Pool} {h : List Entry} {z ein : Bool} {limit : U256} {s t s' t' : SwapState} {x y : Step} {T T' : U256}
    (hv : View s t) (hx : swapStep p z ein limit s = .ok s') (hy : swapStep p' z ein limit t = .ok t')
    (hf : StepFacts p h z ein limit s s' x T) (hf' : StepFacts p' h z ein limit t t' y T') :
    T = T' ∧ (x.next = y.next → View s' t') := by
  obtain ⟨n, b, pn, a1, a2, a3⟩ := hf.tgt
  obtain ⟨n', b', pn', b1, b2, b3⟩ := hf'.tgt
  obtain ⟨m, c, q, u, g, c1, c2, c3, c4, c5⟩ := swapStep_inv hx
  obtain ⟨m', c', q', u', g', d1, d2, d3, d4, d5⟩ := swapStep_inv hy
  rw [a1] at c1
  cases c1
  rw [a2] at c2
  cases c2
  rw [← a3, hf.step] at c3
  cases c3
  rw [b1] at d1
  cases d1
  rw [b2] at d2
  cases d2
  rw [← b3, hf'.step] at d3
  cases d3
  rw [hv.ticks.next, hv.tick, b1] at a1
  cases a1
  rw [b2] at a2
  cases a2
  refine ⟨by rw [a3, b3], fun hn => ?_⟩
  refine finish_view ?_ hv.price c5 d5
  exact ⟨hn, hv.tick, hv.liquidity, hv.ticks⟩

/-- The price moves up (or down) along the run. -/
def Going (up : Bool) (sp : Int) (z : Bool) (s : SwapState) : Prop := if up then Rising sp z s else Falling sp z s
def Ahead (up : Bool) (a b : Nat) : Prop := if up then a ≤ b else b ≤ a

theorem run_going {p : Pool} {h : List Entry} {sp : Int} {z ein : Bool} {limit : U256} {s0 s : SwapState} {i o f : Nat} {up : Bool}
    (hr : Run p h sp z ein limit s0 s i o f) (h0 : Going up sp z s0) : Going up sp z s ∧ Ahead up s0.price.toNat s.price.toNat := by
  unfold Going Ahead at *
  cases up
  · rw [if_neg (by decide)] at h0 ⊢
    have := run_fall hr h0
    exact ⟨this.1, by rw [if_neg (by decide)]; exact this.2.1⟩
  · rw [if_pos rfl] at h0 ⊢
    have := run_rise hr h0
    exact ⟨this.1, by rw [if_pos rfl]; exact this.2.1⟩

theorem loop_halt {p : Pool} {z ein : Bool} {limit : U256} {fuel : Nat} {s s' : SwapState} (hr : running limit s = false)
    (hx : swapLoop p z ein limit fuel s = .ok s') : s' = s := by
  cases fuel with
  | zero => cases hx
  | succ n =>
    unfold swapLoop at hx
    rw [hr, if_neg (by decide)] at hx
    cases hx
    rfl

/-- The run with more to spend, or more to deliver, goes at least as far, and has at least as much left.  The pools may differ in
their fee growth. -/
theorem loop_mono {p p' : Pool} {h : List Entry} {sp : Int} {z ein up : Bool} {limit : U256} (hfe : p.fee = p'.fee) (hf0 : 0 ≤ p.fee) (hf1 : p.fee < 1000000)
    (fuel fuel' : Nat) {s t s' t' : SwapState} (hs : SInv h sp z ein limit s) (ht : SInv h sp z ein limit t) (hv : View s t)
    (hin : ein = true → s.remaining.toInt ≤ t.remaining.toInt) (hout : ein = false → t.remaining.toInt ≤ s.remaining.toInt)
    (hg : Going up sp z s) (hg' : Going up sp z t)
    (hx : swapLoop p z ein limit fuel s = .ok s') (hy : swapLoop p' z ein limit fuel' t = .ok t') :
    ∃ i o f i' o' f', Run p h sp z ein limit s s' i o f ∧ Run p' h sp z ein limit t t' i' o' f' ∧
      i + f ≤ i' + f' ∧ o ≤ o' ∧ Ahead up s'.price.toNat t'.price.toNat ∧
      (ein = true → s'.remaining.toInt ≤ t'.remaining.toInt) ∧ (ein = false → t'.remaining.toInt ≤ s'.remaining.toInt) := by
  have hf0' : 0 ≤ p'.fee := by rw [← hfe]; exact hf0
  have hf1' : p'.fee < 1000000 := by rw [← hfe]; exact hf1
  induction fuel generalizing s t fuel' with
  | zero => cases hx
  | succ k ih =>
    by_cases hr : running limit s = true
    · have hx0 := hx
      unfold swapLoop at hx
      rw [if_pos hr] at hx
      obtain ⟨s1, hx1, hx2⟩ := bind_ok hx
      obtain ⟨hr0, hrl⟩ := running_iff.1 hr
      have hr' : running limit t = true := by
        rw [running_iff, ← hv.price]
        refine ⟨?_, hrl⟩
        cases ein
        · have := hout rfl
          have := hs.remOut rfl
          omega
        · have := hin rfl
          have := hs.remIn rfl
          omega
      cases fuel' with
      | zero => cases hy
      | succ k' =>
        unfold swapLoop at hy
        rw [if_pos hr'] at hy
        obtain ⟨t1, hy1, hy2⟩ := bind_ok hy
        obtain ⟨x, T, hs1, hf, hR⟩ := step_inv hs hf0 hf1 hr hx1
        obtain ⟨y, T', ht1, hf', hR'⟩ := step_inv ht hf0' hf1' hr' hy1
        obtain ⟨hT, hview⟩ := step_view hv hx1 hy1 hf hf'
        subst hT
        have run1 := Run.step Run.refl hs hr hf hR hs1
        have run1' := Run.step Run.refl ht hr' hf' hR' ht1
        have sp1 := hf.spec
        have sp2 := hf'.spec
        rw [← hv.price, ← hv.liquidity, ← hfe] at sp2
        have hC : 0 < s.price.toNat := by have := hs.inv.priceOk.lo; omega
        have hT0 : 0 < T.toNat := by
          cases z
          · have := (hf.up rfl).1; omega
          · have h1 := hf.down rfl
            have h2 := (hs.down rfl).2
            omega
        have hfee : p.fee.toNat < 1000000 := by omega
        -- after equal steps, go on; otherwise the smaller run is over
        have key : (x.next = y.next ∧ y.amountIn.toNat = x.amountIn.toNat ∧ y.amountOut.toNat = x.amountOut.toNat ∧ y.fee.toNat = x.fee.toNat) ∨
            (s1.remaining.toInt = 0 ∧ x.amountIn.toNat + x.fee.toNat ≤ y.amountIn.toNat + y.fee.toNat ∧
              x.amountOut.toNat ≤ y.amountOut.toNat ∧ Reach s.price.toNat x.next.toNat y.next.toNat) := by
          cases ein
          · have hneg : s.remaining.toInt < 0 := by have := hs.remOut rfl; omega
            have hm := step_mono_out sp1 sp2 hneg (hout rfl) hfee hC hT0
            by_cases hc : (outAmount (decide (T.toNat ≤ s.price.toNat)) s.price.toNat T.toNat s.liquidity.toNat : Int) ≤ -s.remaining.toInt
            · obtain ⟨e1, e2, e3⟩ := hm.1 hc
              exact Or.inl ⟨ext_toNat (e1.trans e2.symm), e3⟩
            · obtain ⟨e1, e2⟩ := hm.2 (by omega)
              have := hR.remOut rfl
              exact Or.inr ⟨by omega, e2⟩
          · have hpos := hs.remIn rfl
            have hle := hin rfl
            have hm := step_mono_in sp1 sp2 hpos hle hfee hC hT0
              (fun he => by
                have hst := hf'.step
                rw [← hv.price, ← hv.liquidity, ← hfe] at hst
                rw [next_det hpos (by omega) hs.rem ht.rem hf0 hf1 hf.step hst he])
            by_cases hc : x.next.toNat = T.toNat
            · obtain ⟨e1, e3⟩ := hm.1 hc
              exact Or.inl ⟨ext_toNat (hc.trans e1.symm), e3⟩
            · refine Or.inr ⟨hR.done (by rw [hf.price]; exact hc), hm.2 hc⟩
        rcases key with ⟨e0, e1, e2, e3⟩ | ⟨e0, e1, e2, e3⟩
        · obtain ⟨i, o, f, i', o', f', ra, rb, q1, q2, q3, q4⟩ := ih k' hs1 ht1 (hview e0)
            (by
              intro he
              have a1 := hR.remIn he
              have a2 := hR'.remIn he
              have := hin he
              omega)
            (by
              intro he
              have a1 := hR.remOut he
              have a2 := hR'.remOut he
              have := hout he
              omega)
            (run_going run1 hg).1 (run_going run1' hg').1 hx2 hy2
          exact ⟨_, _, _, _, _, _, Run.trans run1 ra, Run.trans run1' rb, by omega, by omega, q3, q4⟩
        · have hstop : s' = s1 := by
            apply loop_halt (Bool.eq_false_iff.2 ?_) hx2
            rw [Ne, running_iff]
            exact fun hc => hc.1 e0
          subst hstop
          obtain ⟨⟨i', o', f', rb⟩, ht', _⟩ := loop_run ht1 hf0' hf1' hy2
          refine ⟨_, _, _, _, _, _, run1, Run.trans run1' rb, by omega, by omega, ?_, ?_, ?_⟩
          rotate_left
          · intro he; rw [e0]; exact ht'.remIn he
          · intro he; rw [e0]; exact ht'.remOut he
          have g1 := (run_going run1 hg).2
          have g2 := (run_going rb (run_going run1' hg').1).2
          have g3 := (run_going run1' hg').2
          rw [hf.price] at g1 ⊢
          rw [hf'.price] at g2 g3
          rw [← hv.price] at g3
          unfold Ahead Reach at *
          cases up
          · rw [if_neg (by decide)] at g1 g2 g3 ⊢; omega
          · rw [if_pos rfl] at g1 g2 g3 ⊢; omega
    · have hr' := Bool.eq_false_iff.2 hr
      have hstop := loop_halt hr' hx
      subst hstop
      obtain ⟨⟨i', o', f', rb⟩, ht', _⟩ := loop_run ht hf0' hf1' hy
      have g2 := (run_going rb hg').2
      rw [← hv.price] at g2
      refine ⟨0, 0, 0, i', o', f', Run.refl, rb, by omega, by omega, g2, ?_⟩
      rcases not_running hr' with h0 | h0
      · rw [h0]
        exact ⟨ht'.remIn, ht'.remOut⟩
      · have hr2 : running limit t = false := by
          rw [Bool.eq_false_iff, Ne, running_iff, ← hv.price]
          exact fun hc => hc.2 h0
        have := loop_halt hr2 hy
        subst this
        exact ⟨hin, hout⟩

/-- Two swaps in the same mode and direction on the same pool, the second for at least as much. -/
theorem swap_mono {h : List Entry} {p : Pool} (hi : Inv h p) {fuel fuel' : Nat} {z : Bool} {a b limit : U256} {r r' : U256 × U256 × Pool}
    (hc : z = true → ClearAbove p.spacing p.tick h)
    (hab : (0 < a.toInt ∧ a.toInt ≤ b.toInt ∧ b.toInt < 2 ^ 160) ∨ (b.toInt ≤ a.toInt ∧ a.toInt < 0))
    (hx : p.swap fuel z a limit = .ok r) (hy : p.swap fuel' z b limit = .ok r') :
    sold z r ≤ sold z r' ∧ bought z r' ≤ bought z r ∧
      ∃ up, Ahead up p.price.toNat r.2.2.price.toNat ∧ Ahead up r.2.2.price.toNat r'.2.2.price.toNat := by
  obtain ⟨r0, r1, p'⟩ := r
  obtain ⟨u0, u1, q'⟩ := r'
  obtain ⟨_, h2, s, h3, h4, h5⟩ := swap_eq hx
  obtain ⟨_, _, t, k3, k4, k5⟩ := swap_eq hy
  have h6 := init_sinv hi (amount := a) (by omega) h2 hc
  have k6 := init_sinv hi (amount := b) (by omega) h2 hc
  have hsame : decide (0 ≤ b.toInt) = decide (0 ≤ a.toInt) := by
    rw [decide_eq_decide]; omega
  rw [hsame] at k3 k6
  obtain ⟨up, hg⟩ : ∃ up, ∀ x : U256, Going up p.spacing z (initState p z x) := by
    cases z
    · exact ⟨true, fun _ => Or.inl rfl⟩
    · by_cases hgd : Good p.spacing p.tick
      · exact ⟨false, fun _ => ⟨rfl, Or.inl hgd⟩⟩
      · exact ⟨true, fun _ => Or.inr ⟨rfl, hgd⟩⟩
  have hv : View (initState p z a) (initState p z b) :=
    ⟨rfl, rfl, rfl, hi.ticks.inc, hi.ticks.inc, rfl, by show p.ticks.spacing ≠ 0; have := hi.sp_pos; have := hi.spacing; omega, fun _ => rfl⟩
  obtain ⟨i, o, f, i', o', f', ra, rb, q1, q2, q3, _⟩ := loop_mono rfl hi.fee0 hi.fee1 fuel fuel' h6 k6 hv
    (by
      intro he
      have := of_decide_eq_true he
      show a.toInt ≤ b.toInt
      omega)
    (by
      intro he
      have := of_decide_eq_false he
      show b.toInt ≤ a.toInt
      omega) (hg a) (hg b) h3 k3
  obtain ⟨_, h7, _⟩ := loop_run h6 hi.fee0 hi.fee1 h3
  obtain ⟨_, k7, _⟩ := loop_run k6 hi.fee0 hi.fee1 k3
  obtain ⟨a1, a2⟩ := swap_amounts hi h6 ra h7 (p' := p') h4
  rw [← hsame] at k6 rb k7
  obtain ⟨b1, b2⟩ := swap_amounts hi k6 rb k7 (p' := q') k4
  rw [a1, a2, b1, b2]
  subst h5 k5
  exact ⟨by omega, by omega, up, (run_going ra (hg a)).2, q3⟩

end Pool
end Uni
