import Verif.Spec.Depth
import Verif.Spec.Split
import Verif.Proofs.Local
import Verif.Proofs.Split
/-! # A swap in a deeper market -/
namespace Uni
open U256 Spec TickData TickMath FullMath SwapMath
namespace Spec

theorem wsum_outstanding_le {h h' : List Entry} {f : Int → Int → Int} (hf : ∀ l u, 0 ≤ f l u)
    (ho : ∀ l u, outstanding h l u ≤ outstanding h' l u) : wsum f h ≤ wsum f h' := by
  have a := wsum_ranges f ((h ++ h').map (fun e => (e.lower, e.upper))).toFinset h
    (fun e he => List.mem_toFinset.2 (List.mem_map.2 ⟨e, List.mem_append_left _ he, rfl⟩))
  have b := wsum_ranges f ((h ++ h').map (fun e => (e.lower, e.upper))).toFinset h'
    (fun e he => List.mem_toFinset.2 (List.mem_map.2 ⟨e, List.mem_append_right _ he, rfl⟩))
  rw [a, b]
  exact Finset.sum_le_sum (fun x _ => Int.mul_le_mul_of_nonneg_left (ho _ _) (hf _ _))

theorem active_le {h h' : List Entry} (ho : ∀ l u, outstanding h l u ≤ outstanding h' l u) (t : Int) : active h t ≤ active h' t := by
  refine wsum_outstanding_le (fun l u => ?_) ho
  split <;> omega

theorem gross_le {h h' : List Entry} (ho : ∀ l u, outstanding h l u ≤ outstanding h' l u) (t : Int) : grossAt h t ≤ grossAt h' t := by
  refine wsum_outstanding_le (fun l u => ?_) ho
  split <;> split <;> omega

end Spec
namespace Pool

theorem in_liquidity (d : Bool) {C n L L' : Nat} (hC : 0 < C) (hn : 0 < n) (h : L ≤ L') : inAmount d C n L ≤ inAmount d C n L' := by
  cases d
  · rw [inAmount_f, inAmount_f]
    unfold amount1Up
    exact ceilDiv_frac_mono (by norm_num) (by norm_num) (Nat.mul_le_mul_right _ (Nat.mul_le_mul_right _ h))
  · rw [inAmount_t, inAmount_t]
    unfold amount0Up
    exact ceilDiv_frac_mono (Nat.mul_pos hC hn) (Nat.mul_pos hC hn)
      (Nat.mul_le_mul_right _ (Nat.mul_le_mul_right _ (Nat.mul_le_mul_right _ h)))

/-! ### The amounts -/

/-- Of two swaps that had `ra` or less at the price `A`, one has come to the price `C` and has `rc` left; it has spent at
least the input that the other, with liquidity `L`, would need to get there. -/
def Behind (z : Bool) (rate A C L : Nat) (ra rc : Int) : Prop :=
  ∃ I F : Nat, inAmount z A C L ≤ I ∧ I * rate ≤ F * (1000000 - rate) ∧ rc + I + F ≤ ra ∧ 0 ≤ rc

theorem behind_refl {z : Bool} {rate A L : Nat} {ra rc : Int} (h : rc ≤ ra) (h0 : 0 ≤ rc) : Behind z rate A A L ra rc :=
  ⟨0, 0, by rw [(inOut_self z A L).1], by omega, by push_cast; omega, h0⟩

/-- The step from `C` to `n` is in direction `z`, or does not move. -/
theorem step_dir {C T L fee n i o f : Nat} {r : Int} {z : Bool} (hs : Spec.SwapStep C T L r fee n i o f)
    (hz : if z then T ≤ C else C ≤ T) : i = inAmount z C n L ∧ (decide (T ≤ C) = z ∨ (T = C ∧ n = C)) := by
  have hb := hs.between
  have key : decide (T ≤ C) = z ∨ (T = C ∧ n = C) := by
    cases z
    · rw [if_neg (by decide)] at hz
      by_cases hc : T ≤ C
      · right; omega
      · left; exact decide_eq_false hc
    · rw [if_pos rfl] at hz
      left; exact decide_eq_true hz
  refine ⟨?_, key⟩
  have := hs.input
  rcases key with k | ⟨_, k⟩
  · rw [k] at this; exact this
  · rw [k, (inOut_self _ _ _).1] at this
    rw [k, (inOut_self _ _ _).1]
    exact this

theorem behind_step {z : Bool} {rate A C L L' T n i o f : Nat} {ra rc : Int} (hb : Behind z rate A C L ra rc)
    (hs : Spec.SwapStep C T L' rc rate n i o f) (hz : if z then T ≤ C else C ≤ T) (hL : L ≤ L') (hA : 0 < A) (hC : 0 < C) (hn : 0 < n)
    (hr : Reach A C n) : Behind z rate A n L ra (rc - (i + f : Nat)) := by
  obtain ⟨I, F, h1, h2, h3, h4⟩ := hb
  have h5 := (step_dir hs hz).1
  have h6 := hs.budget h4
  refine ⟨I + i, F + f, ?_, ?_, ?_, by omega⟩
  · have := in_split z (L := L) hA hC hn hr
    have := in_liquidity z hC hn hL
    omega
  · have := hs.feeRate
    rw [Nat.add_mul, Nat.add_mul]
    omega
  · push_cast; push_cast at h6; omega

theorem behind_afford {z : Bool} {rate A C L : Nat} {ra rc : Int} (hfee : rate < 1000000) (hb : Behind z rate A C L ra rc) :
    (inAmount z A C L : Int) ≤ ra * (1000000 - rate : Nat) / 1000000 := by
  obtain ⟨I, F, h1, h2, h3, h4⟩ := hb
  have hfm : ((1000000 - rate : Nat) : Int) + rate = 1000000 := by omega
  have h1' : (inAmount z A C L : Int) ≤ I := by exact_mod_cast h1
  refine le_trans h1' ?_
  rw [Int.le_ediv_iff_mul_le (by norm_num)]
  have h2' : (I : Int) * rate ≤ F * (1000000 - rate : Nat) := by exact_mod_cast h2
  have h0 : (0 : Int) ≤ ((1000000 - rate : Nat) : Int) := Int.natCast_nonneg _
  generalize ((1000000 - rate : Nat) : Int) = m at *
  nlinarith

/-- If the one has come to the target of the other's step, the other gets there too, and has no less left. -/
theorem behind_reach {z : Bool} {rate A L T n i o f : Nat} {ra rc : Int} (hfee : rate < 1000000) (hb : Behind z rate A T L ra rc)
    (hs : Spec.SwapStep A T L ra rate n i o f) (hz : if z then T ≤ A else A ≤ T) : n = T ∧ rc ≤ ra - (i + f : Nat) := by
  have h1 := behind_afford hfee hb
  obtain ⟨I, F, k1, k2, k3, k4⟩ := hb
  have h0 : 0 ≤ ra := by omega
  obtain ⟨h2, h3⟩ := step_dir hs hz
  have h4 : n = T := by
    rcases h3 with h3 | ⟨h3, h3'⟩
    · exact hs.reachIn h0 (by rw [h3]; exact h1)
    · omega
  refine ⟨h4, ?_⟩
  have h5 := hs.feeExact (Or.inr h4)
  rw [h4] at h2
  have h6 : f ≤ F := by
    rw [h5, ceilDiv_le_iff (by omega)]
    refine le_trans (Nat.mul_le_mul_right _ ?_) k2
    omega
  push_cast
  omega

/-- The other gets at least as far as the one. -/
theorem behind_far {z : Bool} {rate A C L T n i o f : Nat} {ra rc : Int} (hfee : rate < 1000000) (hb : Behind z rate A C L ra rc)
    (hs : Spec.SwapStep A T L ra rate n i o f) (hz : if z then T ≤ A else A ≤ T) (hr : Reach A C T)
    (hsm : z = true → L * 2 ^ 96 + ra * (1000000 - rate : Nat) / 1000000 * A < 2 ^ 256) : Within z n C := by
  have h1 := behind_afford hfee hb
  obtain ⟨I, F, k1, k2, k3, k4⟩ := hb
  obtain ⟨h2, h3⟩ := step_dir hs hz
  have hbt := hs.between
  by_contra hw
  rw [← past_not] at hw
  have hne : n ≠ T := by
    unfold Past Reach at *
    cases z
    · simp at hw hz; omega
    · simp at hw hz; omega
  have h4 : decide (T ≤ A) = z := by
    rcases h3 with h3 | h3
    · exact h3
    · omega
  have h5 := hs.farInStrict (by omega) hne (fun hc => hsm (by rw [← h4]; exact decide_eq_true hc)) C (by
    unfold Past Reach at *
    cases z
    · simp at hw hz; omega
    · simp at hw hz; omega)
  rw [h4] at h5
  omega

/-! ### The search -/

/-- Where the tick of the one may be while the other is on its way from its tick to the tick `n`. -/
def Midway (sp : Int) (z : Bool) (n a c : Int) : Prop :=
  c = a ∨ (if z then Good sp a ∧ n ≤ c ∧ c ≤ a else a ≤ c ∧ c < n ∧ ¬ Skips sp c)

theorem next_finer {t t' : TickData} (hi : Increasing t.ticks) (hi' : Increasing t'.ticks) (hsp : 0 < t.spacing)
    (hss : t'.spacing = t.spacing) (hh : ∀ j, Has t j → Has t' j) {z b b' : Bool} {a c n n' : Int}
    (hx : t.nextInitializedTickWithinOneWord a z = .ok (n, b)) (hy : t'.nextInitializedTickWithinOneWord c z = .ok (n', b'))
    (hm : Midway t.spacing z n a c) :
    if z then (n ≤ n' ∧ n' ≤ c ∧ Good t.spacing a) ∨ (n = n' ∧ c = a) else n' ≤ n ∧ c < n' := by
  have hne : t.ticks ≠ [] := by
    intro hc; rw [next_empty hc] at hx; cases hx
  have hne' : t'.ticks ≠ [] := by
    intro hc; rw [next_empty hc] at hy; cases hy
  have hsp' : 0 < t'.spacing := by omega
  cases z
  · rw [if_neg (by decide)]
    obtain ⟨m, d, e, q1, q2, q3⟩ := next_up hi hne (by omega) a
    rw [hx] at e
    cases e
    obtain ⟨m', d', e', r1, r2, r3⟩ := next_up hi' hne' (by omega) c
    rw [hy] at e'
    cases e'
    have hw : ∀ x, wordMax t' x = wordMax t x := by intro x; unfold wordMax; rw [hss]
    have hlt := lt_wordMax hsp' c
    have hc : c < n' := by
      cases b'
      · rw [r2 rfl]; exact hlt
      · exact (r1 rfl).2.1
    refine ⟨?_, hc⟩
    have hle : n' ≤ wordMax t c := by
      rw [← hw]
      cases b'
      · rw [r2 rfl]
      · exact (r1 rfl).2.2
    have hcn : c < n := by
      unfold Midway at hm
      rcases hm with rfl | hm
      · cases b
        · rw [q2 rfl]; exact lt_wordMax hsp _
        · exact (q1 rfl).2.1
      · rw [if_neg (by decide)] at hm; omega
    cases b
    · have e := q2 rfl
      unfold Midway at hm
      rcases hm with rfl | hm
      · omega
      · rw [if_neg (by decide)] at hm
        have := wordMax_same hsp hm.1 (by omega) hm.2.2
        omega
    · exact (r3 n (hh n (q1 rfl).1) hcn).1
  · rw [if_pos rfl]
    obtain ⟨m, d, e, q1, q2, q3⟩ := next_down hi hne (by omega) a
    rw [hx] at e
    cases e
    obtain ⟨m', d', e', r1, r2, r3⟩ := next_down hi' hne' (by omega) c
    rw [hy] at e'
    cases e'
    have hw : ∀ x, wordMin t' x = wordMin t x := by intro x; unfold wordMin; rw [hss]
    by_cases hg : Good t.spacing a
    · left
      have hg' := (good_iff hsp a).1 hg
      have hwn : wordMin t a ≤ n := by
        cases b
        · rw [q2 rfl]
        · exact (q1 rfl).2.2
      have hna : n ≤ a := by
        cases b
        · rw [q2 rfl]; exact hg'
        · exact (q1 rfl).2.1
      have hm' : n ≤ c ∧ c ≤ a := by
        unfold Midway at hm
        rcases hm with rfl | hm
        · omega
        · rw [if_pos rfl] at hm; omega
      have hwc := wordMin_same hsp hm'.2 (by omega)
      have hge : wordMin t c ≤ n' := by
        rw [← hw]
        cases b'
        · rw [r2 rfl]
        · exact (r1 rfl).2.2
      refine ⟨?_, ?_, hg⟩
      · cases b
        · rw [q2 rfl]; omega
        · exact (r3 n (hh n (q1 rfl).1) hm'.1).1
      · cases b'
        · rw [r2 rfl, hw]; omega
        · exact (r1 rfl).2.1
    · right
      have hg' : a < wordMin t a := by
        rw [good_iff hsp] at hg; omega
      have hca : c = a := by
        unfold Midway at hm
        rcases hm with rfl | hm
        · rfl
        · rw [if_pos rfl] at hm; exact absurd hm.1 hg
      subst hca
      refine ⟨?_, rfl⟩
      have e1 : n = wordMin t c := by
        cases b
        · exact q2 rfl
        · have := q1 rfl; omega
      have e2 : n' = wordMin t' c := by
        cases b'
        · exact r2 rfl
        · have := r1 rfl
          rw [hw] at this
          omega
      rw [e1, e2, hw]

/-- The tick after a step that ends at the price of the tick searched for. -/
theorem step_tick {p : Pool} {z ein : Bool} {limit : U256} {s s' : SwapState} {n : Int} {b : Bool} {pn : U256}
    (hx : swapStep p z ein limit s = .ok s') (h1 : s.ticks.nextInitializedTickWithinOneWord s.tick z = .ok (n, b))
    (h2 : getSqrtRatioAtTick (clampTick n) = .ok pn) (h3 : s'.price.toNat = pn.toNat) :
    s'.tick = if z then clampTick n - 1 else clampTick n := by
  obtain ⟨m, c, r, u, v, c1, c2, c3, c4, c5⟩ := swapStep_inv hx
  rw [h1] at c1
  cases c1
  rw [h2] at c2
  cases c2
  rcases finishStep_inv c5 with ⟨d1, d2, d3⟩ | ⟨d1, d2, d, d3, d4⟩ | ⟨d1, d2, u, d3, d4⟩ | ⟨d1, d2, d3⟩
  · rw [d3]
  · rw [d4]
  · rw [d4] at h3
    exact absurd h3 d1
  · rw [d3] at h3
    exact absurd h3 d1

theorem ratioN_inj {a b : Int} (ha : -887272 ≤ a) (ha' : a ≤ 887272) (hb : -887272 ≤ b) (hb' : b ≤ 887272) (h : ratioN a = ratioN b) : a = b := by
  rcases lt_trichotomy a b with hc | hc | hc
  · have := ratioN_lt (s := a) (t := b) ha hc hb'; omega
  · exact hc
  · have := ratioN_lt (s := b) (t := a) hb hc ha'; omega

theorem wordMax_spacing (t : TickData) (tick : Int) : t.spacing ∣ wordMax t tick := by
  refine ⟨((Int.tdiv tick t.spacing + 1) / 256 + 1) * 256 - 1, ?_⟩
  unfold wordMax
  ring

/-- The targets of the two steps, and the ticks afterwards. -/
theorem step_pair {p q : Pool} {h h' : List Entry} {sp : Int} {z ein : Bool} {limit : U256} {s s1 t t1 : SwapState} {x y : Step} {T T' : U256}
    (hs : SInv h sp z ein limit s) (ht : SInv h' sp z ein limit t) (hgross : ∀ j, grossAt h j ≠ 0 → grossAt h' j ≠ 0)
    (hskip : z = false → ∀ j, grossAt h' j ≠ 0 → ¬ Skips sp j)
    (hx : swapStep p z ein limit s = .ok s1) (hy : swapStep q z ein limit t = .ok t1)
    (hf : StepFacts p h z ein limit s s1 x T) (hf' : StepFacts q h' z ein limit t t1 y T') (hg' : Going (!z) sp z t)
    (hm : ∀ n b, s.ticks.nextInitializedTickWithinOneWord s.tick z = .ok (n, b) → Midway sp z n s.tick t.tick) :
    (if z then T.toNat ≤ T'.toNat ∧ T'.toNat ≤ t.price.toNat else t.price.toNat ≤ T'.toNat ∧ T'.toNat ≤ T.toNat) ∧
    (t1.price.toNat = T'.toNat → t1.price.toNat ≠ limit.toNat →
      (T'.toNat ≠ T.toNat → ∀ n b, s.ticks.nextInitializedTickWithinOneWord s.tick z = .ok (n, b) → Midway sp z n s.tick t1.tick) ∧
      (T'.toNat = T.toNat → s1.price.toNat = T.toNat → s1.tick = t1.tick)) ∧
    active h t.tick = active h s.tick := by
  obtain ⟨n, b, pn, a1, a2, a3⟩ := hf.tgt
  obtain ⟨n', b', pn', b1, b2, b3⟩ := hf'.tgt
  have hsp := hs.inv.spacing
  have hsp' := ht.inv.spacing
  have hpos : 0 < s.ticks.spacing := by rw [hsp]; exact hs.inv.sp_pos
  have hmid := hm n b a1
  have hfin := next_finer hs.inv.ticks.inc ht.inv.ticks.inc hpos (by rw [hsp, hsp'])
    (fun j hj => ht.inv.ticks.has.2 (hgross j (hs.inv.ticks.has.1 hj))) a1 b1 (by rw [hsp]; exact hmid)
  rw [hsp] at hfin
  obtain ⟨g1, g2, hpn⟩ := getSqrtRatioAtTick_ok a2
  obtain ⟨g1', g2', hpn'⟩ := getSqrtRatioAtTick_ok b2
  have hcl := clampTick_eq n
  have hcl' := clampTick_eq n'
  have htlo := ht.inv.tlo
  have hthi := ht.inv.thi
  have hstlo := hs.inv.tlo
  have hsthi := hs.inv.thi
  have hne : s.ticks.ticks ≠ [] := by
    intro hc; rw [next_empty hc] at a1; cases a1
  have hne' : t.ticks.ticks ≠ [] := by
    intro hc; rw [next_empty hc] at b1; cases b1
  cases z
  · rw [if_neg (by decide)] at hfin ⊢
    have hT := pickTarget_up pn limit
    rw [← a3] at hT
    have hT' := pickTarget_up pn' limit
    rw [← b3] at hT'
    have hup' := hf'.up rfl
    have hlim := (hs.up rfl).2
    have hle : pn'.toNat ≤ pn.toNat := by
      rw [hpn, hpn']
      exact ratioN_le (by omega) (by omega) (by omega)
    obtain ⟨m, d, e, q1, q2, q3⟩ := next_up hs.inv.ticks.inc hne (by omega) s.tick
    rw [a1] at e
    cases e
    obtain ⟨m', d', e', r1, r2, r3⟩ := next_up ht.inv.ticks.inc hne' (by rw [hsp']; have := hs.inv.sp_pos; omega) t.tick
    rw [b1] at e'
    cases e'
    have hac : s.tick ≤ t.tick := by
      unfold Midway at hmid
      rw [if_neg (by decide)] at hmid
      omega
    have hcn : t.tick < n := by
      unfold Midway at hmid
      rw [if_neg (by decide)] at hmid
      rcases hmid with hc | hc
      · rw [hc]
        cases b
        · rw [q2 rfl]; exact lt_wordMax hpos _
        · exact (q1 rfl).2.1
      · exact hc.2.1
    refine ⟨⟨hup'.1, by omega⟩, ?_, ?_⟩
    · intro e1 e2
      have e3 : t1.price.toNat = pn'.toNat := by omega
      have tt := step_tick hy b1 b2 e3
      rw [if_neg (by decide)] at tt
      have hn' : clampTick n' = n' := by
        by_contra hc
        have : clampTick n' = 887272 := by omega
        rw [this] at hpn'
        omega
      constructor
      · intro hne n0 b0 h0
        rw [a1] at h0
        cases h0
        right
        rw [if_neg (by decide), tt, hn']
        refine ⟨by omega, ?_, ?_⟩
        · by_contra hc
          have : clampTick n = clampTick n' := by omega
          rw [this] at hpn
          omega
        · cases b'
          · rintro ⟨_, k2, _⟩
            apply k2
            rw [r2 rfl, ← hsp']
            exact wordMax_spacing _ _
          · exact hskip rfl n' (ht.inv.ticks.has.1 (r1 rfl).1)
      · intro heq hs1
        have e4 : s1.price.toNat = pn.toNat := by omega
        have ss := step_tick hx a1 a2 e4
        rw [if_neg (by decide)] at ss
        rw [ss, tt]
        exact ratioN_inj g1 g2 g1' g2' (by omega)
    · refine hs.inv.cov.active_const hac (fun j j1 j2 => ?_)
      by_contra hc
      have := (q3 j (hs.inv.ticks.has.2 hc) (by omega)).1
      omega
  · rw [if_pos rfl] at hfin ⊢
    have hT := pickTarget_down pn limit
    rw [← a3] at hT
    have hT' := pickTarget_down pn' limit
    rw [← b3] at hT'
    have hfall := falling_step ht hf' hg'
    have hlim := (hs.down rfl).2
    have hle : pn.toNat ≤ pn'.toNat := by
      rw [hpn, hpn']
      exact ratioN_le (by omega) (by omega) (by omega)
    obtain ⟨m, d, e, q1, q2, q3⟩ := next_down hs.inv.ticks.inc hne (by omega) s.tick
    rw [a1] at e
    cases e
    have hac : t.tick ≤ s.tick := by
      unfold Midway at hmid
      rw [if_pos rfl] at hmid
      omega
    refine ⟨⟨by omega, hfall.1⟩, ?_, ?_⟩
    · intro e1 e2
      have e3 : t1.price.toNat = pn'.toNat := by omega
      have tt := step_tick hy b1 b2 e3
      rw [if_pos rfl] at tt
      constructor
      · intro hne n0 b0 h0
        rw [a1] at h0
        cases h0
        rcases hfin with ⟨k1, k2, k3⟩ | ⟨k1, _⟩
        · have hlt : clampTick n < clampTick n' := by
            by_contra hc
            have : clampTick n = clampTick n' := by omega
            rw [this] at hpn
            omega
          right
          rw [if_pos rfl, tt]
          exact ⟨k3, by omega, by omega⟩
        · rw [k1] at hpn
          omega
      · intro heq hs1
        have e4 : s1.price.toNat = pn.toNat := by omega
        have ss := step_tick hx a1 a2 e4
        rw [if_pos rfl] at ss
        rw [ss, tt, ratioN_inj g1 g2 g1' g2' (by omega)]
    · rcases hfin with ⟨k1, k2, _⟩ | ⟨_, k2⟩
      · refine (hs.inv.cov.active_const hac (fun j j1 j2 => ?_)).symm
        by_contra hc
        have := (q3 j (hs.inv.ticks.has.2 hc) (by omega)).1
        omega
      · rw [k2]

/-! ### The loop -/

theorem within_self (z : Bool) (P : Nat) : Within z P P := by
  unfold Within
  cases z <;> simp

theorem within_ahead {z : Bool} {P Q R : Nat} (h : Ahead (!z) P Q) (hw : Within z P R) : Within z Q R := by
  unfold Ahead Within at *
  cases z
  · simp at h hw ⊢; omega
  · simp at h hw ⊢; omega

theorem loop_deep {p q : Pool} {h h' : List Entry} {sp : Int} {z : Bool} {limit : U256} (hfee : p.fee = q.fee)
    (hf0 : 0 ≤ p.fee) (hf1 : p.fee < 1000000) (ho : ∀ l u, outstanding h l u ≤ outstanding h' l u)
    (hskip : z = false → ∀ j, grossAt h' j ≠ 0 → ¬ Skips sp j) (fuel' : Nat) :
    ∀ (fuel : Nat) {s s1 t s' t' : SwapState} {x : Step} {T : U256} (_ : SInv h sp z true limit s) (_ : SInv h' sp z true limit t)
    (_ : Going (!z) sp z s) (_ : Going (!z) sp z t) (_ : running limit s = true)
    (_ : z = true → s.remaining.toInt * s.price.toNat < 2 ^ 255)
    (_ : swapStep p z true limit s = .ok s1) (_ : SInv h sp z true limit s1) (_ : StepFacts p h z true limit s s1 x T)
    (_ : RemFacts true s s1 x T) (_ : swapLoop p z true limit fuel s1 = .ok s')
    (_ : swapLoop q z true limit fuel' t = .ok t')
    (_ : running limit t = true → ∀ n b, s.ticks.nextInitializedTickWithinOneWord s.tick z = .ok (n, b) → Midway sp z n s.tick t.tick)
    (_ : Reach s.price.toNat t.price.toNat T.toNat)
    (_ : Behind z p.fee.toNat s.price.toNat t.price.toNat s.liquidity.toNat s.remaining.toInt t.remaining.toInt),
    Within z s'.price.toNat t'.price.toNat ∧ t'.remaining.toInt ≤ s'.remaining.toInt := by
  have hf0' : 0 ≤ q.fee := by rw [← hfee]; exact hf0
  have hf1' : q.fee < 1000000 := by rw [← hfee]; exact hf1
  induction fuel' with
  | zero => intro fuel s s1 t s' t' x T _ _ _ _ _ _ _ _ _ _ _ hy; cases hy
  | succ k ih =>
    intro fuel s s1 t s' t' x T hs ht hg hg' hr hsm hx1 hs1 hf hR hx2 hy hm hreach hb
    have run1 := Run.step Run.refl hs hr hf hR hs1
    obtain ⟨g1, g2⟩ := run_going run1 hg
    obtain ⟨⟨_, _, _, rx⟩, hs', _⟩ := loop_run hs1 hf0 hf1 hx2
    have hend := (run_going rx g1).2
    have hdir : if z then T.toNat ≤ s.price.toNat else s.price.toNat ≤ T.toNat := by
      cases z
      · exact (hf.up rfl).1
      · exact (falling_step hs hf hg).1
    have hfn : p.fee.toNat < 1000000 := by omega
    by_cases hrt : running limit t = true
    · unfold swapLoop at hy
      rw [if_pos hrt] at hy
      obtain ⟨t1, hy1, hy2⟩ := bind_ok hy
      obtain ⟨y, T', ht1, hf', hR'⟩ := step_inv ht hf0' hf1' hrt hy1
      have run1' := Run.step Run.refl ht hrt hf' hR' ht1
      obtain ⟨g1', g2'⟩ := run_going run1' hg'
      obtain ⟨d1, d2, d3⟩ := step_pair hs ht (fun j hj => by
        have h1 := gross_le ho j
        have h2 := hs.inv.cov.gross_nonneg j
        omega) hskip hx1 hy1 hf hf' hg' (hm hrt)
      have hL : s.liquidity.toNat ≤ t.liquidity.toNat := by
        have h1 := hs.inv.liq
        have h2 := ht.inv.liq
        have h3 := active_le ho t.tick
        omega
      have hA : 0 < s.price.toNat := by have := hs.inv.priceOk.lo; omega
      have hC : 0 < t.price.toNat := by have := ht.inv.priceOk.lo; omega
      have hC1 : 0 < t1.price.toNat := by have := ht1.inv.priceOk.lo; omega
      have hbt := hf'.spec.between
      rw [← hf'.price] at hbt
      have hdir' : if z then T'.toNat ≤ t.price.toNat else t.price.toNat ≤ T'.toNat := by
        cases z
        · exact d1.1
        · exact d1.2
      have hr1 : Reach s.price.toNat t.price.toNat t1.price.toNat ∧ Reach s.price.toNat t1.price.toNat T.toNat := by
        unfold Reach at *
        cases z
        · simp at d1 hdir hdir'; omega
        · simp at d1 hdir hdir'; omega
      have hsp := hf'.spec
      rw [← hfee, ← hf'.price] at hsp
      have hb1 := behind_step hb hsp hdir' hL hA hC hC1 hr1.1
      have hrem : t.remaining.toInt - (y.amountIn.toNat + y.fee.toNat : Nat) = t1.remaining.toInt := by
        rw [hR'.remIn rfl]; push_cast; rfl
      rw [hrem] at hb1
      by_cases hT : t1.price.toNat = T.toNat
      · -- both have come to the same price
        rw [hT] at hb1
        obtain ⟨e1, e2⟩ := behind_reach hfn hb1 hf.spec hdir
        rw [← hf.price] at e1
        have hle : t1.remaining.toInt ≤ s1.remaining.toInt := by
          rw [hR.remIn rfl]; push_cast at e2; omega
        by_cases hrt1 : running limit t1 = true
        · obtain ⟨u1, u2⟩ := running_iff.1 hrt1
          have h0 := ht1.remIn rfl
          have hrs1 : running limit s1 = true := running_iff.2 ⟨by omega, by omega⟩
          have hTT : T'.toNat = T.toNat ∧ t1.price.toNat = T'.toNat := by
            cases z
            · simp at d1 hdir'; omega
            · simp at d1 hdir'; omega
          have htick := (d2 hTT.2 u2).2 hTT.1 e1
          cases fuel with
          | zero => cases hx2
          | succ fuel =>
            unfold swapLoop at hx2
            rw [if_pos hrs1] at hx2
            obtain ⟨s2, hx3, hx4⟩ := bind_ok hx2
            obtain ⟨x', T2, hs2, hf2, hR2⟩ := step_inv hs1 hf0 hf1 hrs1 hx3
            have hp1 : t1.price.toNat = s1.price.toNat := by omega
            refine ih fuel hs1 ht1 g1 g1' hrs1 ?_ hx3 hs2 hf2 hR2 hx4 hy2 ?_ ?_ ?_
            · intro hz
              have h1 := hsm hz
              have h2 := hR.remIn rfl
              have h3 := hs1.remIn rfl
              have h4 : s1.price.toNat ≤ s.price.toNat := by
                subst hz
                exact g2
              have h5 : s1.remaining.toInt * (s1.price.toNat : Int) ≤ s.remaining.toInt * s.price.toNat :=
                Int.mul_le_mul (by omega) (by exact_mod_cast h4) (by omega) (hs.remIn rfl)
              omega
            · intro _ n b _
              exact Or.inl htick.symm
            · rw [hp1]
              have hdir2 : if z then T2.toNat ≤ s1.price.toNat else s1.price.toNat ≤ T2.toNat := by
                cases z
                · exact (hf2.up rfl).1
                · exact (falling_step hs1 hf2 g1).1
              unfold Reach
              cases z
              · simp at hdir2; omega
              · simp at hdir2; omega
            · rw [hp1]
              exact behind_refl hle h0
        · rw [loop_halt (Bool.eq_false_iff.2 hrt1) hy2]
          refine ⟨?_, ?_⟩
          · rw [hT, ← e1]
            exact within_ahead hend (within_self z _)
          · rcases not_running (Bool.eq_false_iff.2 hrt1) with c | c
            · rw [c]; exact hs'.remIn rfl
            · have : running limit s1 = false := by
                rw [Bool.eq_false_iff]
                intro hc
                exact (running_iff.1 hc).2 (by omega)
              rw [loop_halt this hx2]
              exact hle
      · refine ih fuel hs ht1 hg g1' hr hsm hx1 hs1 hf hR hx2 hy2 ?_ hr1.2 hb1
        intro hrt1 n b hn
        obtain ⟨u1, u2⟩ := running_iff.1 hrt1
        have hreached : t1.price.toNat = T'.toNat := by
          by_contra hc
          exact u1 (hR'.done hc)
        exact (d2 hreached u2).1 (by omega) n b hn
    · rw [loop_halt (Bool.eq_false_iff.2 hrt) hy]
      have hw := behind_far hfn hb hf.spec hdir hreach (by
        intro hz
        have h1 := hsm hz
        have h2 := hs.inv.liq_lt
        have hrem := hs.remIn rfl
        have h3 : s.remaining.toInt * ((1000000 - p.fee.toNat : Nat) : Int) / 1000000 ≤ s.remaining.toInt := by
          apply Int.ediv_le_of_le_mul (by norm_num)
          apply Int.mul_le_mul_of_nonneg_left _ hrem
          omega
        have h4 : s.remaining.toInt * ((1000000 - p.fee.toNat : Nat) : Int) / 1000000 * (s.price.toNat : Int) ≤ s.remaining.toInt * s.price.toNat :=
          Int.mul_le_mul_of_nonneg_right h3 (by omega)
        generalize s.remaining.toInt * ((1000000 - p.fee.toNat : Nat) : Int) / 1000000 * (s.price.toNat : Int) = A at *
        have h5 : ((s.liquidity.toNat : Int)) * 2 ^ 96 < 2 ^ 224 := by
          have : (s.liquidity.toNat : Int) < 2 ^ 128 := by exact_mod_cast h2
          omega
        omega)
      rw [← hf.price] at hw
      refine ⟨within_ahead hend hw, ?_⟩
      rcases not_running (Bool.eq_false_iff.2 hrt) with c | c
      · rw [c]; exact hs'.remIn rfl
      · -- at the limit, which is then also the target of the other
        have hT : t.price.toNat = T.toNat := by
          unfold Reach at hreach
          cases z
          · have := hf.up rfl; omega
          · have h1 := hf.down rfl
            simp at hdir
            omega
        rw [hT] at hb
        obtain ⟨e1, e2⟩ := behind_reach hfn hb hf.spec hdir
        rw [← hf.price] at e1
        have : running limit s1 = false := by
          rw [Bool.eq_false_iff]
          intro hc
          exact (running_iff.1 hc).2 (by omega)
        rw [loop_halt this hx2, hR.remIn rfl]
        push_cast at e2
        omega

/-! ### The swap -/

theorem swap_deep {h h' : List Entry} {p q : Pool} (hr : Reachable h p) (hr' : Reachable h' q) {z : Bool}
    (hd : Deeper h h' p q) {fuel fuel' : Nat} {amount limit : U256} {r r' : U256 × U256 × Pool} (h0 : 0 < amount.toInt)
    (ha : amount.toInt < 2 ^ 160) (hgood : z = true → ¬ SearchBroken p.spacing p.tick)
    (hsmall : z = true → amount.toInt * p.price.toNat < 2 ^ 255)
    (hskip : z = false → ∀ j, grossAt h' j ≠ 0 → ¬ Skips q.spacing j)
    (hx : p.swap fuel z amount limit = .ok r) (hy : q.swap fuel' z amount limit = .ok r') :
    Within z r.2.2.price.toNat r'.2.2.price.toNat ∧ sold z r ≤ sold z r' := by
  have hi := Props.reachable_inv hr
  have hi' := Props.reachable_inv hr'
  have hsp : p.spacing = q.spacing := by rw [reachable_spacing hr, reachable_spacing hr', hd.fee]
  obtain ⟨r0, r1, p'⟩ := r
  obtain ⟨u0, u1, q'⟩ := r'
  obtain ⟨hne, h2, s, h3, h4, h5⟩ := swap_eq hx
  obtain ⟨_, k2, t, k3, k4, k5⟩ := swap_eq hy
  have hgood' : z = true → ¬ SearchBroken q.spacing q.tick := by rw [← hsp, ← hd.tick]; exact hgood
  have h6 := init_sinv hi (amount := amount) ha h2 (fun hz => clear_good (hgood hz))
  have k6 := init_sinv hi' (amount := amount) ha k2 (fun hz => clear_good (hgood' hz))
  rw [← hsp] at k6 hskip
  have hein : decide (0 ≤ amount.toInt) = true := decide_eq_true (by omega)
  rw [hein] at h3 h6 k3 k6
  have hg : Going (!z) p.spacing z (initState p z amount) := by
    cases z
    · exact Or.inl rfl
    · exact ⟨rfl, Or.inl (hgood rfl)⟩
  have hg' : Going (!z) p.spacing z (initState q z amount) := by
    cases z
    · exact Or.inl rfl
    · refine ⟨rfl, Or.inl ?_⟩
      rw [hsp]
      exact hgood' rfl
  have es : p'.price = s.price := by rw [h5]; rfl
  have et : q'.price = t.price := by rw [k5]; rfl
  obtain ⟨_, i6, _⟩ := loop_run h6 hi.fee0 hi.fee1 h3
  obtain ⟨_, j6, _⟩ := loop_run k6 hi'.fee0 hi'.fee1 k3
  have hsold : ∀ {v : SwapState} {x y : U256} {w : Pool}, SInv h p.spacing z true (effLimit z limit) v ∨ SInv h' p.spacing z true (effLimit z limit) v →
      (x, y) = swapResult z (decide (0 ≤ amount.toInt)) amount v → sold z (x, y, w) = amount.toInt - v.remaining.toInt := by
    intro v x y w hv he
    have h1 : 0 ≤ v.remaining.toInt ∧ v.remaining.toInt < 2 ^ 160 := by
      rcases hv with hv | hv
      · exact ⟨hv.remIn rfl, hv.rem⟩
      · exact ⟨hv.remIn rfl, hv.rem⟩
    rw [hein] at he
    unfold swapResult at he
    unfold sold
    cases z
    · cases he
      exact toInt_sub_of (by omega) (by omega)
    · cases he
      exact toInt_sub_of (by omega) (by omega)
  rw [hsold (Or.inl i6) h4, hsold (Or.inr j6) k4]
  suffices hs : Within z s.price.toNat t.price.toNat ∧ t.remaining.toInt ≤ s.remaining.toInt by
    dsimp only
    rw [es, et]
    exact ⟨hs.1, by omega⟩
  have hpr : (initState q z amount).price = (initState p z amount).price := hd.price.symm
  have hrm : (initState q z amount).remaining = (initState p z amount).remaining := rfl
  have htk : (initState q z amount).tick = (initState p z amount).tick := hd.tick.symm
  by_cases hrun : running (effLimit z limit) (initState p z amount) = true
  · cases fuel with
    | zero => cases h3
    | succ fuel =>
      unfold swapLoop at h3
      rw [if_pos hrun] at h3
      obtain ⟨s1, hx1, hx2⟩ := bind_ok h3
      obtain ⟨x, T, hs1, hf, hR⟩ := step_inv h6 hi.fee0 hi.fee1 hrun hx1
      refine loop_deep hd.fee hi.fee0 hi.fee1 hd.ranges hskip fuel' fuel h6 k6 hg hg' hrun hsmall hx1 hs1 hf hR hx2 k3
        (fun _ n b _ => Or.inl htk) ?_ ?_
      · rw [hpr]
        have hdir : if z then T.toNat ≤ (initState p z amount).price.toNat else (initState p z amount).price.toNat ≤ T.toNat := by
          cases z
          · exact (hf.up rfl).1
          · exact (falling_step h6 hf hg).1
        unfold Reach
        cases z
        · simp at hdir; omega
        · simp at hdir; omega
      · rw [hpr, hrm]
        exact behind_refl (le_refl _) (k6.remIn rfl)
  · have e1 := Bool.eq_false_iff.2 hrun
    rw [loop_halt e1 h3, loop_halt (by unfold running at *; rw [hpr, hrm]; exact e1) k3, hpr]
    exact ⟨within_self z _, le_refl _⟩

end Pool
end Uni
