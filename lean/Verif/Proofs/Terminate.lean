import Verif.Proofs.Swap
/-! # Termination and absence of panics of the swap loop -/
namespace Uni
open U256 Spec TickData TickMath SwapMath FullMath SqrtPriceMath LiquidityAmounts
namespace Pool

theorem inAmount_le (z : Bool) {p q L : Nat} (hp0 : 2 ^ 32 ≤ p) (hq0 : 2 ^ 32 ≤ q) (hp : p < 2 ^ 160) (hq : q < 2 ^ 160) :
    Spec.inAmount z p q L ≤ L * 2 ^ 64 := by
  cases z
  · rw [inAmount_f]
    unfold Spec.amount1Up
    rw [ceilDiv_le_iff (by norm_num)]
    have h1 : Spec.dist p q ≤ 2 ^ 160 := by unfold Spec.dist; omega
    calc L * Spec.dist p q ≤ L * 2 ^ 160 := Nat.mul_le_mul_left _ h1
      _ = L * 2 ^ 64 * 2 ^ 96 := by ring
  · rw [inAmount_t]
    unfold Spec.amount0Up
    rw [ceilDiv_le_iff (Nat.mul_pos (by omega) (by omega))]
    have h1 : Spec.dist p q ≤ max p q := by unfold Spec.dist; omega
    have h2 : 2 ^ 32 * max p q ≤ p * q := by
      rcases le_total p q with h | h
      · rw [max_eq_right h]; exact Nat.mul_le_mul_right _ hp0
      · rw [max_eq_left h, Nat.mul_comm p]; exact Nat.mul_le_mul_right _ hq0
    calc L * 2 ^ 96 * Spec.dist p q ≤ L * 2 ^ 96 * max p q := Nat.mul_le_mul_left _ h1
      _ = L * 2 ^ 64 * (2 ^ 32 * max p q) := by ring
      _ ≤ L * 2 ^ 64 * (p * q) := Nat.mul_le_mul_left _ h2

theorem accrue_ok {fee L g : U256} (hL : L.toNat < 2 ^ 128) (hf : fee.toNat ≤ 2 ^ 160 ∨ fee.toNat ≤ L.toNat * 2 ^ 84) :
    ∃ g', accrue fee L g = .ok g' := by
  unfold accrue
  by_cases hs : L.sign > 0
  · rw [if_pos hs]
    have hL0 : L.toNat ≠ 0 := by
      intro h0
      rw [sign_eq_toInt, toInt_eq_zero.2 h0] at hs
      exact absurd hs (by decide)
    have hq : Cons.q128.toNat = 2 ^ 128 := by decide +kernel
    have : ∃ r, mulDiv fee Cons.q128 L = .ok r := by
      refine ⟨ofNat (fee.toNat * Cons.q128.toNat / L.toNat), (mulDiv_ok_iff _ _ _ _).2 ⟨?_, rfl⟩⟩
      by_cases h0 : fee.toNat * Cons.q128.toNat = 0
      · exact Or.inl h0
      right
      have hf0 : fee.toNat ≠ 0 := fun h => h0 (by rw [h, Nat.zero_mul])
      rw [hq]
      have w1 : Spec.words L.toNat ≤ 2 := words_le (by omega)
      have w2 : Spec.words (fee.toNat * 2 ^ 128) ≠ 0 := by
        intro h
        have := lt_words (fee.toNat * 2 ^ 128)
        rw [h] at this
        omega
      unfold Panics
      rintro (h | h | h)
      · exact hL0 h
      · omega
      · have hfl := toNat_lt fee
        have w3 : Spec.words (fee.toNat * 2 ^ 128) ≤ 6 := words_le (by omega)
        by_cases hb : fee.toNat < 2 ^ 192
        · have w4 : Spec.words (fee.toNat * 2 ^ 128) ≤ 5 := words_le (by omega)
          have w5 : Spec.words L.toNat ≠ 0 := by
            intro h5
            have := lt_words L.toNat
            rw [h5] at this
            omega
          omega
        · have hL1 : 2 ^ 64 ≤ L.toNat := by omega
          have w5 : ¬ Spec.words L.toNat ≤ 1 := by
            intro h5
            have h6 := lt_words L.toNat
            have h7 : (2 : Nat) ^ (64 * Spec.words L.toNat) ≤ 2 ^ 64 := Nat.pow_le_pow_right (by norm_num) (by omega)
            omega
          omega
    obtain ⟨r, hr⟩ := this
    rw [hr]
    exact ⟨_, rfl⟩
  · rw [if_neg hs]
    exact ⟨g, rfl⟩

theorem not_stepPanic_self {c t L : Nat} (h : c ≤ t) : ¬ StepPanic c t L := by
  rintro ⟨h1, q, h2, h3, _, h4, _⟩
  have : q = c := by omega
  subst this
  unfold inner0 Spec.dist at h4
  simp [ceilDiv_zero] at h4

theorem min_sqrt_le : (4295128739 : Nat) = ratioN (-887272) := ratioN_min.symm

/-- An iteration does not panic unless the amount computation does, and that needs a price of at least `2^128`. -/
theorem step_ok {p : Pool} {h : List Entry} {sp : Int} {z ein : Bool} {limit : U256} {s : SwapState}
    (hs : SInv h sp z ein limit s) (hf0 : 0 ≤ p.fee) (hf1 : p.fee < 1000000)
    (hne : s.ticks.ticks ≠ []) :
    (∃ s', swapStep p z ein limit s = .ok s') ∨
    (swapStep p z ein limit s = .error .panic ∧ z = true ∧ 2 ^ 128 ≤ s.price.toNat ∧ Good sp s.tick) := by
  have hi := hs.inv
  have hsp : 0 < s.ticks.spacing := by rw [hi.spacing]; exact hi.sp_pos
  have htlo := hi.tlo
  have hthi := hi.thi
  have hphi := hi.phi
  have hplo := hi.plo
  have hpo := hi.priceOk
  have hpm := hi.pmax
  have h160 := ratioN_lt160 (t := 887272) (by norm_num) (le_refl _)
  have hr32 := ratioN_ge (t := -887272) (le_refl _) (by norm_num)
  -- the next tick
  have hnext : ∃ n b, s.ticks.nextInitializedTickWithinOneWord s.tick z = .ok (n, b) ∧ (b = true → Has s.ticks n) ∧
      (z = false → s.tick < n) ∧ (z = true → n < 887272) ∧
      (z = true → ¬ Good sp s.tick → s.tick < n) := by
    cases z
    · obtain ⟨n, b, h1, q1, q2, _⟩ := next_up hi.ticks.inc hne (by omega) s.tick
      refine ⟨n, b, h1, fun hb => (q1 hb).1, fun _ => ?_, (by intro h; cases h), (by intro h; cases h)⟩
      cases b
      · rw [q2 rfl]; exact lt_wordMax hsp _
      · exact (q1 rfl).2.1
    · obtain ⟨n, b, h1, q1, q2, _⟩ := next_down hi.ticks.inc hne (by omega) s.tick
      refine ⟨n, b, h1, fun hb => (q1 hb).1, (by intro h; cases h), fun _ => ?_, fun _ hb => ?_⟩
      rotate_left
      · rw [← hi.spacing, good_iff hsp] at hb
        cases b
        · rw [q2 rfl]; omega
        · have := q1 rfl; omega
      cases b
      · rw [q2 rfl]
        by_cases hg : wordMin s.ticks s.tick ≤ s.tick
        · omega
        · obtain ⟨k, k1, k2, k3⟩ := (wordMin_gt_iff hsp s.tick).1 (by omega)
          rw [wordMin_eq hsp k1 k2 k3]
          have : 256 * k * s.ticks.spacing ≤ 0 := Int.mul_nonpos_of_nonpos_of_nonneg (by omega) (le_of_lt hsp)
          omega
      · have := (q1 rfl).2.1
        omega
  obtain ⟨n, b, h1, hb, hup, hdn, hbad⟩ := hnext
  have hcl := clampTick_eq n
  obtain ⟨pn, h2, hpn⟩ := getSqrtRatioAtTick_spec (clampTick n) (by omega) (by omega)
  have hpn1 : ratioN (-887272) ≤ pn.toNat := by rw [hpn]; exact ratioN_le (by omega) (by omega) (by omega)
  have hpn2 : pn.toNat ≤ ratioN 887272 := by rw [hpn]; exact ratioN_le (by omega) (by omega) (by omega)
  have hT : ratioN (-887272) ≤ (pickTarget z pn limit).toNat ∧ (pickTarget z pn limit).toNat < ratioN 887272 ∧
      (z = false → s.price.toNat ≤ (pickTarget z pn limit).toNat ∧ (pickTarget z pn limit).toNat ≤ limit.toNat) := by
    cases z
    · rw [pickTarget_up]
      have := hs.up rfl
      have := hup rfl
      have h3 : ratioN (s.tick + 1) ≤ pn.toNat := by rw [hpn]; exact ratioN_le (by omega) (by omega) (by omega)
      have h4 := ratioN_le (s := -887272) (t := s.tick) (le_refl _) hi.tlo (by omega)
      refine ⟨by omega, by omega, fun _ => by omega⟩
    · rw [pickTarget_down]
      have := hs.down rfl
      have := hdn rfl
      have h3 : pn.toNat < ratioN 887272 := by rw [hpn]; exact ratioN_lt (by omega) (by omega) (by omega)
      exact ⟨by omega, by omega, by intro h; cases h⟩
  obtain ⟨hT1, hT2, hT3⟩ := hT
  have hpoT : PriceOk (pickTarget z pn limit) := ⟨by omega, by omega⟩
  rcases computeSwapStep_spec hpo hpoT hi.liq_lt hs.rem hf0 hf1 with ⟨hpanic, hpe⟩ | ⟨st, h3, hspec⟩
  · right
    have hz : z = true := by
      cases z
      · exact absurd hpanic (not_stepPanic_self (hT3 rfl).1)
      · rfl
    refine ⟨?_, hz, ?_, ?_⟩
    · unfold swapStep
      rw [h1, Except_bind_ok]
      dsimp only
      rw [h2, Except_bind_ok, hpe]
      rfl
    · by_contra hc
      exact not_stepPanic (Or.inl (by omega)) hpanic
    · by_contra hc
      have h3 := hbad hz hc
      have h4 : ratioN (s.tick + 1) ≤ pn.toNat := by rw [hpn]; exact ratioN_le (by omega) (by omega) (by omega)
      subst hz
      have h5 := pickTarget_down pn limit
      exact not_stepPanic_self (by omega) hpanic
  left
  have hbt := hspec.between
  have hpon : PriceOk st.next := ⟨by have := hpo.lo; have := hpoT.lo; omega, by have := hpo.hi; have := hpoT.hi; omega⟩
  have hin := inAmount_le (decide ((pickTarget z pn limit).toNat ≤ s.price.toNat)) (L := s.liquidity.toNat) hpo.lo hpon.lo hpo.hi hpon.hi
  rw [← hspec.input] at hin
  have hfee : st.fee.toNat ≤ 2 ^ 160 ∨ st.fee.toNat ≤ s.liquidity.toNat * 2 ^ 84 := by
    have hrem := hs.rem
    by_cases h0 : 0 ≤ s.remaining.toInt
    · have := hspec.budget h0; omega
    · right
      rw [hspec.feeExact (Or.inl (by omega)), ceilDiv_le_iff (by omega)]
      have h5 : st.amountIn.toNat * p.fee.toNat ≤ s.liquidity.toNat * 2 ^ 64 * 1000000 := Nat.mul_le_mul hin (by omega)
      have h6 : s.liquidity.toNat * 2 ^ 64 * 1000000 ≤ s.liquidity.toNat * 2 ^ 84 := by
        rw [Nat.mul_assoc]; exact Nat.mul_le_mul_left _ (by norm_num)
      exact le_trans h5 (le_trans h6 (Nat.le_mul_of_pos_right _ (by omega)))
  obtain ⟨g, h4⟩ := accrue_ok (g := s.growth) hi.liq_lt hfee
  unfold swapStep
  rw [h1, Except_bind_ok]
  dsimp only
  rw [h2, Except_bind_ok, h3, Except_bind_ok, h4, Except_bind_ok]
  unfold finishStep
  dsimp only
  by_cases c1 : cmp st.next pn = 0
  · rw [if_pos c1]
    unfold crossTick
    cases b
    · rw [if_neg (by decide), Except_bind_ok]
      exact ⟨_, rfl⟩
    · rw [if_pos rfl]
      obtain ⟨x, hx⟩ := Option.isSome_iff_exists.1 (hb rfl)
      have hcn : clampTick n = n := by
        by_contra hc
        have hnx := (cmp_eq0 _ _).1 c1
        have : clampTick n = -887272 ∨ clampTick n = 887272 := by omega
        rcases this with h | h
        · rw [h] at hpn
          cases z
          · have := hup rfl
            omega
          · have hl := hs.down rfl
            have := pickTarget_down pn limit
            omega
        · rw [h] at hpn
          omega
      rw [hcn]
      obtain ⟨ts', d1, _⟩ := cross_some hi.ticks.inc hx (if z = true then g else p.growth0) (if z = true then p.growth1 else g)
      rw [d1, Except_bind_ok]
      exact ⟨_, rfl⟩
  · rw [if_neg c1]
    by_cases c2 : cmp st.next s.price ≠ 0
    · rw [if_pos c2]
      have hlt : st.next.toNat < ratioN 887272 := by
        omega
      have hge : ratioN (-887272) ≤ st.next.toNat := by
        have := ratioN_le (s := -887272) (t := s.tick) (le_refl _) hi.tlo (by omega)
        omega
      rw [ratioN_max] at hlt
      rw [ratioN_min] at hge
      obtain ⟨t, ht, _⟩ := getTickAtSqrtRatio_spec st.next hge hlt
      rw [ht, Except_bind_ok]
      exact ⟨_, rfl⟩
    · rw [if_neg c2]
      exact ⟨_, rfl⟩

theorem nonempty_of_gross {h : List Entry} {t : TickData} (ht : TicksOk h t) {i : Int} (hg : grossAt h i ≠ 0) : t.ticks ≠ [] := by
  intro hc
  have h1 := ht.none i
  rw [hc] at h1
  exact hg (h1 rfl)

/-- After an iteration the loop ends, or the tick has moved (unless the search is broken at this tick). -/
theorem step_progress {p : Pool} {h : List Entry} {sp : Int} {z ein : Bool} {limit : U256} {s s' : SwapState} {st : Step} {target : U256}
    (hs : SInv h sp z ein limit s) (hf : StepFacts p h z ein limit s s' st target) (hR : RemFacts ein s s' st target) :
    running limit s' = false ∨ (z = false ∧ s.tick < s'.tick) ∨ (z = true ∧ (Good sp s.tick → s'.tick < s.tick)) := by
  by_cases h1 : s'.price.toNat = target.toNat
  · rcases hf.reach h1 with h2 | h2 | ⟨h2, h3⟩
    · left
      rw [Bool.eq_false_iff]
      intro hc
      exact (running_iff.1 hc).2 h2
    · exact Or.inr (Or.inl h2)
    · refine Or.inr (Or.inr ⟨h2, fun hg => h3 ?_⟩)
      have hpos : 0 < s.ticks.spacing := by rw [hs.inv.spacing]; exact hs.inv.sp_pos
      rw [← hs.inv.spacing, good_iff hpos] at hg
      exact hg
  · left
    rw [Bool.eq_false_iff]
    intro hc
    exact (running_iff.1 hc).1 (hR.done h1)

theorem loop_stop {p : Pool} {z ein : Bool} {limit : U256} {s : SwapState} {fuel : Nat} (h : running limit s = false) (hf : 0 < fuel) :
    swapLoop p z ein limit fuel s = .ok s := by
  obtain ⟨n, rfl⟩ := Nat.exists_eq_succ_of_ne_zero (Nat.pos_iff_ne_zero.1 hf)
  unfold swapLoop
  rw [if_neg (by rw [h]; decide)]

/-- Upward swaps end after at most as many iterations as there are ticks above. -/
theorem loop_up {p : Pool} {h : List Entry} {sp : Int} {ein : Bool} {limit : U256} (hf0 : 0 ≤ p.fee) (hf1 : p.fee < 1000000)
    {i : Int} (hg : grossAt h i ≠ 0) (fuel : Nat) (s : SwapState) (hs : SInv h sp false ein limit s)
    (hfuel : (887272 - s.tick).toNat + 2 ≤ fuel) : ∃ s', swapLoop p false ein limit fuel s = .ok s' := by
  induction fuel generalizing s with
  | zero => omega
  | succ n ih =>
    by_cases hr : running limit s = true
    · rcases step_ok hs hf0 hf1 (nonempty_of_gross hs.inv.ticks hg) with ⟨s1, h1⟩ | ⟨_, hz, _⟩
      · obtain ⟨st, target, hs1, hf, hR⟩ := step_inv hs hf0 hf1 hr h1
        have hnext : ∃ s', swapLoop p false ein limit n s1 = .ok s' := by
          rcases step_progress hs hf hR with h2 | ⟨_, h2⟩ | ⟨h2, _⟩
          · exact ⟨s1, loop_stop h2 (by omega)⟩
          · have := hs.inv.thi
            exact ih s1 hs1 (by omega)
          · cases h2
        obtain ⟨s', hs'⟩ := hnext
        refine ⟨s', ?_⟩
        unfold swapLoop
        rw [if_pos hr, h1, Except_bind_ok, hs']
      · cases hz
    · exact ⟨s, loop_stop (Bool.eq_false_iff.2 hr) (by omega)⟩

/-- Downward swaps that need not pass the end of a word at or below tick zero end. -/
theorem loop_down {p : Pool} {h : List Entry} {sp : Int} {ein : Bool} {limit : U256} (hf0 : 0 ≤ p.fee) (hf1 : p.fee < 1000000)
    {i : Int} (hg : grossAt h i ≠ 0) (fuel : Nat) (s : SwapState) (hs : SInv h sp true ein limit s) (hgood : Good sp s.tick)
    (hk : ∀ k : Int, k ≤ 0 → -887272 ≤ 256 * k * sp → limit.toNat < ratioN (256 * k * sp) → s.price.toNat < ratioN (256 * k * sp))
    (hfuel : (s.tick + 887272).toNat + 2 ≤ fuel) :
    (∃ s', swapLoop p true ein limit fuel s = .ok s') ∨ (swapLoop p true ein limit fuel s = .error .panic ∧ 2 ^ 128 ≤ s.price.toNat) := by
  induction fuel generalizing s with
  | zero => omega
  | succ n ih =>
    by_cases hr : running limit s = true
    · rcases step_ok hs hf0 hf1 (nonempty_of_gross hs.inv.ticks hg) with ⟨s1, h1⟩ | ⟨h1, _, h2, _⟩
      · obtain ⟨st, target, hs1, hf, hR⟩ := step_inv hs hf0 hf1 hr h1
        obtain ⟨hfall, hfall2⟩ := falling_step hs hf ⟨rfl, Or.inl hgood⟩
        have hle : s1.price.toNat ≤ s.price.toNat := by
          have := hf.spec.between
          rw [hf.price]; omega
        have hnext : (∃ s', swapLoop p true ein limit n s1 = .ok s') ∨ (swapLoop p true ein limit n s1 = .error .panic ∧ 2 ^ 128 ≤ s.price.toNat) := by
          by_cases hr1 : running limit s1 = true
          · have hg1 : Good sp s1.tick := by
              rcases hfall2.2 with hc | ⟨k, k1, k2, k3⟩
              · exact hc
              · exfalso
                have hl := (hs1.down rfl).1
                have hne := (running_iff.1 hr1).2
                have := hs1.inv.tlo
                have := hk k k1 (by omega) (by omega)
                omega
            rcases step_progress hs hf hR with h2 | ⟨h2, _⟩ | ⟨_, h2⟩
            · rw [h2] at hr1; cases hr1
            · cases h2
            · have := hs1.inv.tlo
              have := h2 hgood
              rcases ih s1 hs1 hg1 (fun k k1 k2 k3 => lt_of_le_of_lt hle (hk k k1 k2 k3)) (by omega) with h3 | ⟨h3, h4⟩
              · exact Or.inl h3
              · exact Or.inr ⟨h3, by omega⟩
          · exact Or.inl ⟨s1, loop_stop (Bool.eq_false_iff.2 hr1) (by omega)⟩
        have he : swapLoop p true ein limit (n + 1) s = swapLoop p true ein limit n s1 := by
          rw [swapLoop, if_pos hr, h1, Except_bind_ok]
        rw [he]
        exact hnext
      · right
        refine ⟨?_, h2⟩
        rw [swapLoop, if_pos hr, h1]
        rfl
    · exact Or.inl ⟨s, loop_stop (Bool.eq_false_iff.2 hr) (by omega)⟩

theorem stuck_bad {sp : Int} (hsp : 1 < sp) {s : SwapState} (h : Stuck sp s) : ¬ Good sp s.tick := by
  obtain ⟨k, k1, k2, k3⟩ := h
  unfold Good
  rw [not_not]
  exact ⟨k, k1, by omega, by omega⟩

/-- At the end of a word at or below tick zero a downward swap with anything left to do runs forever. -/
theorem loop_stuck {p : Pool} {h : List Entry} {sp : Int} {ein : Bool} {limit : U256} (hf0 : 0 ≤ p.fee) (hf1 : p.fee < 1000000)
    (hsp : 1 < sp) {i : Int} (hg : grossAt h i ≠ 0) (fuel : Nat) (s : SwapState) (hs : SInv h sp true ein limit s)
    (hst : Stuck sp s) (hr : running limit s = true) : swapLoop p true ein limit fuel s = .error .fuel := by
  induction fuel generalizing s with
  | zero => rfl
  | succ n ih =>
    rcases step_ok hs hf0 hf1 (nonempty_of_gross hs.inv.ticks hg) with ⟨s1, h1⟩ | ⟨_, _, _, h2⟩
    · obtain ⟨st, target, hs1, hf, hR⟩ := step_inv hs hf0 hf1 hr h1
      have hbad := stuck_bad hsp hst
      obtain ⟨ha, hb⟩ := falling_step hs hf ⟨rfl, Or.inr hst⟩
      obtain ⟨hc, hd⟩ := rising_step hs hf (Or.inr ⟨rfl, hbad⟩)
      have hbt := hf.spec.between
      rw [← hf.price] at hbt
      have hpeq : s1.price.toNat = s.price.toNat := by omega
      have hteq : s1.price.toNat = target.toNat := by omega
      rw [swapLoop, if_pos hr, h1, Except_bind_ok]
      have hr0 := running_iff.1 hr
      have hr1 : running limit s1 = true := by
        rw [running_iff]
        refine ⟨?_, by omega⟩
        have hin : st.amountIn.toNat = 0 := by
          rw [hf.spec.input, ← hf.price, hpeq]
          cases decide (target.toNat ≤ s.price.toNat)
          · rw [inAmount_f, amount1Up_self]
          · rw [inAmount_t, amount0Up_self]
        have hout : Spec.outAmount (decide (target.toNat ≤ s.price.toNat)) s.price.toNat st.next.toNat s.liquidity.toNat = 0 := by
          rw [← hf.price, hpeq]
          cases decide (target.toNat ≤ s.price.toNat)
          · rw [outAmount_f, amount0Down_self]
          · rw [outAmount_t, amount1Down_self]
        cases ein
        · have h3 := hR.remOut rfl
          have h4 := hs.remOut rfl
          have h5 := hf.spec.outputOut (by omega)
          rw [hout] at h5
          omega
        · have h3 := hR.remIn rfl
          have h5 := hf.spec.feeExact (Or.inr (by rw [← hf.price]; exact hteq))
          rw [hin, Nat.zero_mul, ceilDiv_zero] at h5
          omega
      have hst1 : Stuck sp s1 := by
        rcases hb.2 with hc | hc
        · rcases hd with hd | ⟨_, hd⟩
          · cases hd
          · exact absurd hc hd
        · exact hc
      exact ih s1 hs1 hst1 hr1
    · exact absurd h2 (stuck_bad hsp hst)

/-- A returning downward swap never passes the end of a word at or below tick zero. -/
theorem run_barrier {p : Pool} {h : List Entry} {sp : Int} {ein : Bool} {limit : U256} {s0 s : SwapState} {i o f : Nat}
    (hsp : 1 < sp) (hr : Run p h sp true ein limit s0 s i o f) (hs0 : SInv h sp true ein limit s0)
    {k : Int} (hk : k ≤ 0) (hk2 : -887272 ≤ 256 * k * sp) (h0 : ratioN (256 * k * sp) ≤ s0.price.toNat) :
    ratioN (256 * k * sp) ≤ s.price.toNat ∧
      (256 * k * sp ≤ s.tick ∨ (s.tick = 256 * k * sp - 1 ∧ s.price.toNat = ratioN (256 * k * sp))) := by
  have hneg : 256 * k * sp ≤ 0 := Int.mul_nonpos_of_nonpos_of_nonneg (by omega) (by omega)
  have start : ∀ t : SwapState, SInv h sp true ein limit t → ratioN (256 * k * sp) ≤ t.price.toNat →
      (256 * k * sp ≤ t.tick ∨ (t.tick = 256 * k * sp - 1 ∧ t.price.toNat = ratioN (256 * k * sp))) := by
    intro t ht hp
    by_cases hc : 256 * k * sp ≤ t.tick
    · exact Or.inl hc
    · right
      have h1 := ht.inv.phi
      have h2 := ht.inv.tlo
      have h3 : 256 * k * sp = t.tick + 1 := by
        by_contra hc2
        have := ratioN_lt (s := t.tick + 1) (t := 256 * k * sp) (by omega) (by omega) (by omega)
        omega
      rw [← h3] at h1
      omega
  induction hr with
  | refl => exact ⟨h0, start _ hs0 h0⟩
  | step hr hs hrun hf hR hs' ih =>
    obtain ⟨h1, h2⟩ := ih
    rename_i s s' i o f st target
    have hpos : 0 < s.ticks.spacing := by rw [hs.inv.spacing]; exact hs.inv.sp_pos
    have key : ratioN (256 * k * sp) ≤ s'.price.toNat := by
      rcases h2 with h2 | ⟨h2, h3⟩
      · by_cases hg : Good sp s.tick
        · have hw : wordMin s.ticks s.tick ≤ s.tick := by rw [← hs.inv.spacing, good_iff hpos] at hg; exact hg
          have hwl := le_wordMin (t := s.ticks) hpos (tick := s.tick) (k := k) (by rw [hs.inv.spacing]; exact h2)
          rw [hs.inv.spacing] at hwl
          rcases hf.good rfl hw with ⟨g1, g2⟩ | ⟨g1, g2⟩
          · have := hs'.inv.plo
            have := ratioN_le (s := 256 * k * sp) (t := s'.tick) hk2 (by omega) (by have := hs'.inv.thi; omega)
            omega
          · rw [g2]
            exact ratioN_le hk2 (by omega) (by have := hs.inv.thi; omega)
        · have := (rising_step hs hf (Or.inr ⟨rfl, hg⟩)).1
          have := hf.spec.between
          rw [hf.price]; omega
      · have := (rising_step hs hf (Or.inr ⟨rfl, stuck_bad hsp ⟨k, hk, h2, h3⟩⟩)).1
        have := hf.spec.between
        rw [hf.price]; omega
    exact ⟨key, start _ hs' key⟩

end Pool
end Uni
