import Verif.Proofs.Monotone
import Verif.Spec.Split
/-! # Splitting a trade -/
namespace Uni
open U256 Spec TickData TickMath FullMath SwapMath LiquidityAmounts
namespace Pool

/-! ### Amounts of consecutive moves -/

theorem reach_add {C n m : Nat} (h : Reach C n m) : dist C m = dist C n + dist n m := by
  unfold dist
  unfold Reach at h
  omega

theorem reach_cross {C n m : Nat} (h : Reach C n m) : dist C m * n = dist C n * m + dist n m * C := by
  rcases h with ⟨h1, h2⟩ | ⟨h1, h2⟩
  · obtain ⟨a, rfl⟩ := Nat.exists_eq_add_of_le h1
    obtain ⟨b, rfl⟩ := Nat.exists_eq_add_of_le h2
    rw [show dist C (C + a) = a by unfold dist; omega, show dist C (C + a + b) = a + b by unfold dist; omega,
      show dist (C + a) (C + a + b) = b by unfold dist; omega]
    ring
  · obtain ⟨a, rfl⟩ := Nat.exists_eq_add_of_le h1
    obtain ⟨b, rfl⟩ := Nat.exists_eq_add_of_le h2
    rw [show dist (m + a + b) (m + a) = b by unfold dist; omega, show dist (m + a + b) m = a + b by unfold dist; omega,
      show dist (m + a) m = a by unfold dist; omega]
    ring

/-- One move needs no more input than the same move in two parts. -/
theorem in_split (d : Bool) {C n m L : Nat} (hC : 0 < C) (hn : 0 < n) (hm : 0 < m) (h : Reach C n m) :
    inAmount d C m L ≤ inAmount d C n L + inAmount d n m L := by
  cases d
  · rw [inAmount_f, inAmount_f, inAmount_f]
    unfold amount1Up
    have h1 := le_ceilDiv_mul (n := L * dist C n) (d := 2 ^ 96) (by norm_num)
    have h2 := le_ceilDiv_mul (n := L * dist n m) (d := 2 ^ 96) (by norm_num)
    rw [ceilDiv_le_iff (by norm_num), reach_add h, Nat.mul_add, Nat.add_mul]
    exact Nat.add_le_add h1 h2
  · rw [inAmount_t, inAmount_t, inAmount_t]
    unfold amount0Up
    have h1 := le_ceilDiv_mul (n := L * 2 ^ 96 * dist C n) (d := C * n) (Nat.mul_pos hC hn)
    have h2 := le_ceilDiv_mul (n := L * 2 ^ 96 * dist n m) (d := n * m) (Nat.mul_pos hn hm)
    rw [ceilDiv_le_iff (Nat.mul_pos hC hm)]
    generalize Spec.ceilDiv (L * 2 ^ 96 * dist C n) (C * n) = x at *
    generalize Spec.ceilDiv (L * 2 ^ 96 * dist n m) (n * m) = y at *
    generalize L * 2 ^ 96 = K at *
    have hx := reach_cross h
    apply Nat.le_of_mul_le_mul_right _ hn
    calc K * dist C m * n = K * (dist C m * n) := by ring
      _ = K * dist C n * m + K * dist n m * C := by rw [hx]; ring
      _ ≤ x * (C * n) * m + y * (n * m) * C := Nat.add_le_add (Nat.mul_le_mul_right _ h1) (Nat.mul_le_mul_right _ h2)
      _ = (x + y) * (C * m) * n := by ring

/-- One move frees at least the output of the same move in two parts. -/
theorem out_split (d : Bool) {C n m L : Nat} (hC : 0 < C) (hn : 0 < n) (hm : 0 < m) (h : Reach C n m) :
    outAmount d C n L + outAmount d n m L ≤ outAmount d C m L := by
  cases d
  · rw [outAmount_f, outAmount_f, outAmount_f]
    unfold amount0Down
    have h1 := Nat.div_mul_le_self (L * 2 ^ 96 * dist C n) (C * n)
    have h2 := Nat.div_mul_le_self (L * 2 ^ 96 * dist n m) (n * m)
    rw [Nat.le_div_iff_mul_le (Nat.mul_pos hC hm)]
    generalize L * 2 ^ 96 * dist C n / (C * n) = x at *
    generalize L * 2 ^ 96 * dist n m / (n * m) = y at *
    generalize L * 2 ^ 96 = K at *
    have hx := reach_cross h
    apply Nat.le_of_mul_le_mul_right _ hn
    calc (x + y) * (C * m) * n = x * (C * n) * m + y * (n * m) * C := by ring
      _ ≤ K * dist C n * m + K * dist n m * C := Nat.add_le_add (Nat.mul_le_mul_right _ h1) (Nat.mul_le_mul_right _ h2)
      _ = K * (dist C m * n) := by rw [hx]; ring
      _ = K * dist C m * n := by ring
  · rw [outAmount_t, outAmount_t, outAmount_t]
    unfold amount1Down
    have h1 := Nat.div_mul_le_self (L * dist C n) (2 ^ 96)
    have h2 := Nat.div_mul_le_self (L * dist n m) (2 ^ 96)
    rw [Nat.le_div_iff_mul_le (by norm_num), reach_add h, Nat.mul_add, Nat.add_mul]
    exact Nat.add_le_add h1 h2

/-- The fee on a sum is no more than fees that are each at least the rate. -/
theorem fee_split {i j k f g fee : Nat} (hfee : fee < 1000000) (hk : k ≤ i + j) (h1 : i * fee ≤ f * (1000000 - fee))
    (h2 : j * fee ≤ g * (1000000 - fee)) : Spec.ceilDiv (k * fee) (1000000 - fee) ≤ f + g := by
  rw [ceilDiv_le_iff (by omega), Nat.add_mul]
  calc k * fee ≤ (i + j) * fee := Nat.mul_le_mul_right _ hk
    _ = i * fee + j * fee := Nat.add_mul _ _ _
    _ ≤ _ := Nat.add_le_add h1 h2

theorem spend_le {C T L fee n i o f : Nat} {r : Int} (hs : Spec.SwapStep C T L r fee n i o f) (hr : 0 ≤ r) (hfee : fee < 1000000) :
    (i : Int) ≤ r * (1000000 - fee : Nat) / 1000000 := by
  have hfm : ((1000000 - fee : Nat) : Int) + fee = 1000000 := by omega
  have hm : (0 : Int) ≤ ((1000000 - fee : Nat) : Int) := Int.natCast_nonneg _
  rw [Int.le_ediv_iff_mul_le (by norm_num)]
  have h1 := hs.feeRate
  have h2 := hs.budget hr
  have h1' : (i : Int) * fee ≤ f * (1000000 - fee : Nat) := by exact_mod_cast h1
  push_cast at h2
  generalize ((1000000 - fee : Nat) : Int) = m at *
  nlinarith

theorem less_split (a b m : Int) : a * m / 1000000 + b * m / 1000000 ≤ (a + b) * m / 1000000 := by
  rw [Int.add_mul]
  omega

/-- A step of exact input in two parts, the first of which ends before the target. -/
theorem step_split_in {C T L fee n i o f m j q g n' i' o' f' : Nat} {r a : Int} (hs : Spec.SwapStep C T L r fee n i o f)
    (hw : Spec.SwapStep n T L a fee m j q g) (hy : Spec.SwapStep C T L (r + a) fee n' i' o' f') (hr : 0 ≤ r) (ha : 0 ≤ a)
    (hfee : fee < 1000000) (hC : 0 < C) (hT : 0 < T) (hn : n ≠ T)
    (hbig : T ≤ C → L * 2 ^ 96 + (r + a) * (1000000 - fee : Nat) / 1000000 * C < 2 ^ 256) :
    (m = T → n' = T ∧ i' + f' ≤ i + f + (j + g) ∧ o + q ≤ o') ∧
    (m ≠ T → o + q ≤ o' ∧ Reach C m n') := by
  have hb := hs.between
  have hb2 := hw.between
  have hb3 := hy.between
  have hd : decide (T ≤ n) = decide (T ≤ C) := by rw [decide_eq_decide]; omega
  have hR : Reach C n m := by unfold Reach; omega
  have hin := in_split (decide (T ≤ C)) (L := L) hC (by omega) (by omega) hR
  have hout := out_split (decide (T ≤ C)) (L := L) hC (by omega) (by omega) hR
  have e1 := hs.input
  have e2 := hw.input
  have e3 := hs.outputIn hr
  have e4 := hw.outputIn ha
  rw [hd] at e2 e4
  rw [← e1, ← e2] at hin
  rw [← e3, ← e4] at hout
  have l1 := spend_le hs hr hfee
  have l2 := spend_le hw ha hfee
  have l3 := less_split r a (1000000 - fee : Nat)
  constructor
  · intro hm
    subst hm
    have h1 : n' = m := hy.reachIn (by omega) (by omega)
    have h2 := hy.input
    rw [h1] at h2
    have h3 := hy.feeExact (Or.inr h1)
    have h4 := fee_split hfee (k := i') (by omega) hs.feeRate hw.feeRate
    have h5 := hy.outputIn (by omega)
    rw [h1] at h5
    exact ⟨h1, by omega, by omega⟩
  · intro hm
    have hR' : Reach C m n' := by
      by_contra hc
      have hn' : n' ≠ T := by
        intro he
        subst he
        unfold Reach at hc
        omega
      have := hy.farInStrict (by omega) hn' hbig m (by unfold Reach at hc; omega)
      omega
    refine ⟨?_, hR'⟩
    rw [hy.outputIn (by omega)]
    exact le_trans hout (out_mono _ hC (by omega) (by omega) hR')

/-- A step of exact output in two parts, the first of which ends before the target. -/
theorem step_split_out {C T L fee n i o f m j q g n' i' o' f' : Nat} {r a : Int} (hs : Spec.SwapStep C T L r fee n i o f)
    (hw : Spec.SwapStep n T L a fee m j q g) (hy : Spec.SwapStep C T L (r + a) fee n' i' o' f') (hr : r < 0) (ha : a < 0)
    (hfee : fee < 1000000) (hC : 0 < C) (hT : 0 < T) (hn : n ≠ T) :
    i' + f' ≤ i + f + (j + g) ∧
    ((n' = T ∧ m = T ∧ q ≤ r + o') ∨ ((o' : Int) = -(r + a) ∧ Reach C n' m)) := by
  have hb := hs.between
  have hb2 := hw.between
  have hb3 := hy.between
  have hd : decide (T ≤ n) = decide (T ≤ C) := by rw [decide_eq_decide]; omega
  have hR : Reach C n m := by unfold Reach; omega
  have hRT : Reach C n T := by unfold Reach; omega
  have hin := in_split (decide (T ≤ C)) (L := L) hC (by omega) (by omega) hR
  have hout := out_split (decide (T ≤ C)) (L := L) hC (by omega) (by omega) hR
  have houtT := out_split (decide (T ≤ C)) (L := L) hC (by omega) (by omega) hRT
  have e1 := hs.input
  have e2 := hw.input
  have e3 := hs.outputOut hr
  have e4 := hw.outputOut ha
  have e5 := hs.fullOut hr hn
  rw [hd] at e2 e4
  rw [← e1, ← e2] at hin
  have e6 := hy.outputOut (by omega)
  have e7 := hy.feeExact (Or.inl (by omega))
  have e8 := hy.input
  have fin : Reach C n' m → i' + f' ≤ i + f + (j + g) := by
    intro hx
    have h1 := in_mono (decide (T ≤ C)) (L := L) hC (by omega) (by omega) hx
    have h4 := fee_split hfee (k := i') (by omega) hs.feeRate hw.feeRate
    omega
  by_cases hc : (outAmount (decide (T ≤ C)) C T L : Int) ≤ -(r + a)
  · have h1 : n' = T := hy.reachOut (by omega) hc
    have h2 : m = T := hw.reachOut ha (by rw [hd]; omega)
    subst h2
    rw [h1] at e6
    refine ⟨fin (by rw [h1]; unfold Reach; omega), Or.inl ⟨h1, rfl, ?_⟩⟩
    omega
  · have h1 : (o' : Int) = -(r + a) := by
      by_cases hn' : n' = T
      · rw [hn'] at e6
        omega
      · exact hy.fullOut (by omega) hn'
    have h2 : Reach C n' m := by
      by_contra hx
      have hm : m ≠ T := by
        intro he
        subst he
        unfold Reach at hx
        omega
      have h3 := hw.fullOut ha hm
      have h4 := hy.farOut (by omega) (by omega) m (by unfold Reach at hx; omega)
      omega
    exact ⟨fin h2, Or.inr ⟨h1, h2⟩⟩

/-! ### The search from inside a segment -/

theorem wordMax_same {t : TickData} (hsp : 0 < t.spacing) {a b : Int} (h1 : a ≤ b) (h2 : b < wordMax t a) (hs : ¬ Skips t.spacing b) :
    wordMax t b = wordMax t a := by
  have hle : Int.tdiv a t.spacing ≤ Int.tdiv b t.spacing := Int.tdiv_le_tdiv hsp h1
  have key : Int.tdiv b t.spacing + 1 < ((Int.tdiv a t.spacing + 1) / 256 + 1) * 256 := by
    have h3 : b < ((((Int.tdiv a t.spacing + 1) / 256 + 1) * 256) - 1) * t.spacing := by
      unfold wordMax at h2
      rw [sub_mul]
      omega
    have hW : (256 : Int) ∣ ((Int.tdiv a t.spacing + 1) / 256 + 1) * 256 := Int.dvd_mul_left _ _
    generalize ((Int.tdiv a t.spacing + 1) / 256 + 1) * 256 = W at *
    have strict : Int.tdiv b t.spacing * t.spacing < (W - 1) * t.spacing → Int.tdiv b t.spacing + 1 < W := by
      intro h
      have := lt_of_mul_lt_mul_right h (le_of_lt hsp)
      omega
    by_cases h0 : 0 ≤ b
    · apply strict
      rw [Int.tdiv_eq_ediv_of_nonneg h0]
      exact lt_of_le_of_lt (Int.ediv_mul_le _ (by omega)) h3
    · by_cases hdv : t.spacing ∣ b
      · apply strict
        rw [Int.tdiv_mul_cancel hdv]
        exact h3
      · have h4 := (tdiv_neg_bounds hsp (show b < 0 by omega)).1
        have h5 := lt_of_mul_lt_mul_right (lt_trans h4 h3) (le_of_lt hsp)
        have h6 : ¬ (256 : Int) ∣ Int.tdiv b t.spacing + 1 := fun hc => hs ⟨by omega, hdv, hc⟩
        rcases Int.lt_or_eq_of_le (show Int.tdiv b t.spacing + 1 ≤ W by omega) with h | h
        · exact h
        · rw [h] at h6
          exact absurd hW h6
  unfold wordMax
  rw [show (Int.tdiv b t.spacing + 1) / 256 = (Int.tdiv a t.spacing + 1) / 256 by omega]

theorem wordMin_same {t : TickData} (hsp : 0 < t.spacing) {a b : Int} (h1 : b ≤ a) (h2 : wordMin t a ≤ b) : wordMin t b = wordMin t a := by
  obtain ⟨q, hq⟩ := wordMin_dvd t a
  have h3 := le_wordMin hsp (tick := b) (k := q) (by rw [← hq]; exact h2)
  rw [← hq] at h3
  have hle : Int.tdiv b t.spacing ≤ Int.tdiv a t.spacing := Int.tdiv_le_tdiv hsp h1
  have h4 : wordMin t b ≤ wordMin t a := by
    unfold wordMin
    exact Int.mul_le_mul_of_nonneg_right (by omega) (le_of_lt hsp)
  omega

theorem next_same_up {t : TickData} (hinc : Increasing t.ticks) (hsp : 0 < t.spacing) {a c n : Int} {b : Bool} (h1 : a ≤ c) (h2 : c < n)
    (hs : ¬ Skips t.spacing c) (hx : t.nextInitializedTickWithinOneWord a false = .ok (n, b)) :
    t.nextInitializedTickWithinOneWord c false = .ok (n, b) := by
  have hne : t.ticks ≠ [] := by
    intro hc; rw [next_empty hc] at hx; cases hx
  obtain ⟨n1, b1, e1, p1, p2, p3⟩ := next_up hinc hne (by omega) a
  obtain ⟨n2, b2, e2, q1, q2, q3⟩ := next_up hinc hne (by omega) c
  rw [hx] at e1
  cases e1
  have hle : n ≤ wordMax t a := by
    cases b
    · rw [p2 rfl]
    · exact (p1 rfl).2.2
  rw [wordMax_same hsp h1 (by omega) hs] at q1 q2
  rw [e2]
  cases b <;> cases b2
  · rw [p2 rfl, q2 rfl]
  · obtain ⟨k1, k2, k3⟩ := q1 rfl
    have := p3 n2 k1 (by omega)
    have e := p2 rfl
    exact absurd (this.2 (by omega)) (by decide)
  · obtain ⟨k1, k2, k3⟩ := p1 rfl
    have := q3 n k1 (by omega)
    have e := q2 rfl
    exact absurd (this.2 (by omega)) (by decide)
  · obtain ⟨k1, k2, k3⟩ := p1 rfl
    obtain ⟨l1, l2, l3⟩ := q1 rfl
    have := (q3 n k1 (by omega)).1
    have := (p3 n2 l1 (by omega)).1
    rw [show n = n2 by omega]

theorem next_same_down {t : TickData} (hinc : Increasing t.ticks) (hsp : 0 < t.spacing) {a c n : Int} {b : Bool} (h1 : c ≤ a) (h2 : n ≤ c)
    (hw : wordMin t a ≤ a) (hx : t.nextInitializedTickWithinOneWord a true = .ok (n, b)) :
    t.nextInitializedTickWithinOneWord c true = .ok (n, b) := by
  have hne : t.ticks ≠ [] := by
    intro hc; rw [next_empty hc] at hx; cases hx
  obtain ⟨n1, b1, e1, p1, p2, p3⟩ := next_down hinc hne (by omega) a
  obtain ⟨n2, b2, e2, q1, q2, q3⟩ := next_down hinc hne (by omega) c
  rw [hx] at e1
  cases e1
  have hle : wordMin t a ≤ n := by
    cases b
    · rw [p2 rfl]
    · exact (p1 rfl).2.2
  rw [wordMin_same hsp h1 (by omega)] at q1 q2
  rw [e2]
  cases b <;> cases b2
  · rw [p2 rfl, q2 rfl]
  · obtain ⟨k1, k2, k3⟩ := q1 rfl
    have := p3 n2 k1 (by omega)
    have e := p2 rfl
    exact absurd (this.2 (by omega)) (by decide)
  · obtain ⟨k1, k2, k3⟩ := p1 rfl
    have := q3 n k1 (by omega)
    have e := q2 rfl
    exact absurd (this.2 (by omega)) (by decide)
  · obtain ⟨k1, k2, k3⟩ := p1 rfl
    obtain ⟨l1, l2, l3⟩ := q1 rfl
    have := (q3 n k1 (by omega)).1
    have := (p3 n2 l1 (by omega)).1
    rw [show n = n2 by omega]

/-- In a broken interval the downward search answers the end of the interval, which lies above. -/
theorem next_same_bad {t : TickData} (hinc : Increasing t.ticks) (hsp : 0 < t.spacing) {a c n : Int} {b : Bool} (h1 : a ≤ c)
    (h2 : c < wordMin t a) (hx : t.nextInitializedTickWithinOneWord a true = .ok (n, b)) :
    t.nextInitializedTickWithinOneWord c true = .ok (n, b) := by
  have hne : t.ticks ≠ [] := by
    intro hc; rw [next_empty hc] at hx; cases hx
  obtain ⟨n1, b1, e1, p1, p2, p3⟩ := next_down hinc hne (by omega) a
  obtain ⟨n2, b2, e2, q1, q2, q3⟩ := next_down hinc hne (by omega) c
  rw [hx] at e1
  cases e1
  obtain ⟨k, k1, k2, k3⟩ := (wordMin_gt_iff hsp a).1 (by omega)
  have hwa := wordMin_eq hsp k1 k2 k3
  have hwc := wordMin_eq hsp (tick := c) k1 (by omega) (by omega)
  rw [e2]
  cases b <;> cases b2
  · rw [p2 rfl, q2 rfl, hwa, hwc]
  · have := q1 rfl
    omega
  · have := p1 rfl
    omega
  · have := q1 rfl
    omega

/-- An iteration that ends before the tick it looks for: the next iteration looks for the same tick. -/
theorem step_mid_off {p : Pool} {h : List Entry} {sp : Int} {z ein : Bool} {limit : U256} {s s1 : SwapState} {x : Step} {T : U256}
    (hs : SInv h sp z ein limit s) (hs1 : SInv h sp z ein limit s1) (hx : swapStep p z ein limit s = .ok s1)
    (hf : StepFacts p h z ein limit s s1 x T) (hoff : ∀ n b pn, s.ticks.nextInitializedTickWithinOneWord s.tick z = .ok (n, b) →
      getSqrtRatioAtTick (clampTick n) = .ok pn → x.next.toNat ≠ pn.toNat) (hk : z = false → ¬ Skips sp s1.tick) :
    s1.liquidity = s.liquidity ∧ s1.ticks = s.ticks ∧
      s.ticks.nextInitializedTickWithinOneWord s1.tick z = s.ticks.nextInitializedTickWithinOneWord s.tick z := by
  obtain ⟨n, b, pn, a1, a2, a3⟩ := hf.tgt
  obtain ⟨m, c, q, u, g, c1, c2, c3, c4, c5⟩ := swapStep_inv hx
  rw [a1] at c1
  cases c1
  rw [a2] at c2
  cases c2
  rw [← a3, hf.step] at c3
  cases c3
  have hsp := hs.inv.spacing
  have hpos : 0 < s.ticks.spacing := by rw [hsp]; exact hs.inv.sp_pos
  have hb := hf.spec.between
  obtain ⟨g1, g2, hpn⟩ := getSqrtRatioAtTick_ok a2
  have hcl := clampTick_eq n
  have hprice := hf.price
  have hplo := hs1.inv.plo
  have hphi := hs1.inv.phi
  have t1 := hs1.inv.tlo
  have t2 := hs1.inv.thi
  have hpne := hoff n b pn a1 a2
  have hsame : s1.liquidity = s.liquidity ∧ s1.ticks = s.ticks := by
    rcases finishStep_inv c5 with ⟨d1, _⟩ | ⟨d1, _⟩ | ⟨d1, d2, t, d3, d4⟩ | ⟨d1, d2, d3⟩
    · exact absurd d1 hpne
    · exact absurd d1 hpne
    · subst d4; exact ⟨rfl, rfl⟩
    · subst d3; exact ⟨rfl, rfl⟩
  refine ⟨hsame.1, hsame.2, ?_⟩
  rw [a1]
  cases z
  · have h1 := hf.up rfl
    have h2 := pickTarget_up pn limit
    rw [← a3] at h2
    have hlt : x.next.toNat < pn.toNat := by omega
    have hc : s1.tick < clampTick n := by
      by_contra hc
      have := ratioN_le (s := clampTick n) (t := s1.tick) (by omega) (by omega) (by omega)
      rw [hprice] at hplo
      omega
    have htick : s.tick ≤ s1.tick := by
      rcases finishStep_inv c5 with ⟨d1, _⟩ | ⟨d1, _⟩ | ⟨d1, d2, t, d3, d4⟩ | ⟨d1, d2, d3⟩
      · exact absurd d1 hpne
      · exact absurd d1 hpne
      · obtain ⟨e1, e2, e3, e4⟩ := getTickAtSqrtRatio_ok d3
        have : s1.tick = t := by rw [d4]
        rw [this]
        by_contra hcc
        have hl := hs.inv.plo
        have := ratioN_le (s := t + 1) (t := s.tick) (by omega) (by omega) (by have := hs.inv.thi; omega)
        change x.next.toNat < _ at e4
        omega
      · rw [d3]
    exact next_same_up hs.inv.ticks.inc hpos htick (by omega) (by rw [hsp]; exact hk rfl) a1
  · by_cases hw : wordMin s.ticks s.tick ≤ s.tick
    · have hT := hf.downGood rfl hw
      have h2 := pickTarget_down pn limit
      rw [← a3] at h2
      have hgt : pn.toNat < x.next.toNat := by omega
      have hl := (hs.down rfl).2
      have hc : clampTick n ≤ s1.tick := by
        rcases finishStep_inv c5 with ⟨d1, _⟩ | ⟨d1, _⟩ | ⟨d1, d2, t, d3, d4⟩ | ⟨d1, d2, d3⟩
        · exact absurd d1 hpne
        · exact absurd d1 hpne
        · obtain ⟨e1, e2, e3, e4⟩ := getTickAtSqrtRatio_ok d3
          have : s1.tick = t := by rw [d4]
          rw [this]
          by_contra hcc
          have := ratioN_le (s := t + 1) (t := clampTick n) (by omega) (by omega) (by omega)
          change x.next.toNat < _ at e4
          omega
        · by_contra hcc
          have hh : s1.tick = s.tick := by rw [d3]
          have := ratioN_le (s := s1.tick + 1) (t := clampTick n) (by omega) (by omega) (by omega)
          rw [hprice] at hphi
          omega
      have htick : s1.tick ≤ s.tick := by
        rcases hf.good rfl hw with ⟨_, h⟩ | ⟨h, _⟩ <;> omega
      by_cases hlo : n ≤ s1.tick
      · exact next_same_down hs.inv.ticks.inc hpos htick hlo hw a1
      · exfalso
        -- only above the largest tick
        omega
    · obtain ⟨_, h2, h3, _⟩ := hf.bad rfl (by omega)
      exact next_same_bad hs.inv.ticks.inc hpos h2 h3 a1

/-- An iteration that ends before its target: the next iteration has the same target. -/
theorem step_mid {p : Pool} {h : List Entry} {sp : Int} {z ein : Bool} {limit : U256} {s s1 : SwapState} {x : Step} {T : U256}
    (hs : SInv h sp z ein limit s) (hs1 : SInv h sp z ein limit s1) (hx : swapStep p z ein limit s = .ok s1)
    (hf : StepFacts p h z ein limit s s1 x T) (hn : x.next.toNat ≠ T.toNat) (hk : z = false → ¬ Skips sp s1.tick) :
    s1.liquidity = s.liquidity ∧ s1.ticks = s.ticks ∧
      s.ticks.nextInitializedTickWithinOneWord s1.tick z = s.ticks.nextInitializedTickWithinOneWord s.tick z := by
  refine step_mid_off hs hs1 hx hf ?_ hk
  intro n' b' pn' b1 b2
  obtain ⟨n, b, pn, a1, a2, a3⟩ := hf.tgt
  rw [a1] at b1
  cases b1
  rw [a2] at b2
  cases b2
  have hb := hf.spec.between
  cases z
  · have h1 := (hf.up rfl)
    have h2 := pickTarget_up pn' limit
    rw [← a3] at h2
    omega
  · have h2 := pickTarget_down pn' limit
    rw [← a3] at h2
    have h3 := (hs.down rfl).1
    by_cases hw : wordMin s.ticks s.tick ≤ s.tick
    · have := hf.downGood rfl hw
      omega
    · have := (hf.bad rfl (by omega)).1
      omega

/-! ### The loop -/

theorem SameTicks.symm {a b : TickData} (h : SameTicks a b) : SameTicks b a :=
  ⟨h.inc', h.inc, h.spacing.symm, by rw [← h.spacing]; exact h.sp, fun i => (h.net i).symm⟩
theorem SameTicks.trans {a b c : TickData} (h : SameTicks a b) (h' : SameTicks b c) : SameTicks a c :=
  ⟨h.inc, h'.inc', h.spacing.trans h'.spacing, h.sp, fun i => (h.net i).trans (h'.net i)⟩
theorem View.symm {a b : SwapState} (h : View a b) : View b a := ⟨h.price.symm, h.tick.symm, h.liquidity.symm, h.ticks.symm⟩
theorem View.trans {a b c : SwapState} (h : View a b) (h' : View b c) : View a c :=
  ⟨h.price.trans h'.price, h.tick.trans h'.tick, h.liquidity.trans h'.liquidity, h.ticks.trans h'.ticks⟩

theorem View.going {a b : SwapState} (h : View a b) {up z : Bool} {sp : Int} (hg : Going up sp z a) : Going up sp z b := by
  unfold Going Rising Falling Stuck at *
  rw [← h.tick, ← h.price]
  exact hg

/-- Two iterations that move to the same new price, from different prices in the same segment, end in the same place. -/
theorem finish_far {p p' : Pool} {z b : Bool} {n : Int} {pn : U256} {s0 t0 s t s' t' : SwapState} (hp : s.price = t.price)
    (hl : s.liquidity = t.liquidity) (ht : SameTicks s.ticks t.ticks) (h1 : s.price.toNat ≠ s0.price.toNat)
    (h2 : t.price.toNat ≠ t0.price.toNat)
    (hx : finishStep p z b n pn s0 s = .ok s') (hy : finishStep p' z b n pn t0 t = .ok t') : View s' t' := by
  have key : SameEnd View (finishStep p z b n pn s0 s) (finishStep p' z b n pn t0 t) := by
    unfold finishStep
    by_cases hc : cmp t.price pn = 0
    · rw [hp, if_pos hc, if_pos hc]
      refine SameEnd.bind (R := fun a b => a.1 = b.1 ∧ SameTicks a.2 b.2) ?_ ?_
      · unfold crossTick
        by_cases hb : b = true
        · rw [if_pos hb, if_pos hb]
          refine SameEnd.bind (ht.cross _ _ _ _ _) ?_
          rintro ⟨a, t⟩ ⟨b, t'⟩ ⟨e, ht⟩
          dsimp only at e ht
          subst e
          rw [hl]
          exact ⟨rfl, ht⟩
        · rw [if_neg hb, if_neg hb]
          exact ⟨hl, ht⟩
      · rintro ⟨a, t⟩ ⟨b, t'⟩ ⟨e, ht⟩
        dsimp only at e ht
        subst e
        exact ⟨rfl, rfl, rfl, ht⟩
    · have hc' : ¬ cmp s.price pn = 0 := by rw [hp]; exact hc
      have e1 : cmp s.price s0.price ≠ 0 := fun he => h1 ((cmp_eq0 _ _).1 he)
      have e2 : cmp t.price t0.price ≠ 0 := fun he => h2 ((cmp_eq0 _ _).1 he)
      rw [if_neg hc', if_neg hc, if_pos e1, if_pos e2, hp]
      refine SameEnd.bind (SameEnd.of_eq rfl) ?_
      rintro t _ rfl
      exact ⟨rfl, rfl, hl, ht⟩
  rw [hx, hy] at key
  exact key

theorem step_view_mid {p p' : Pool} {h : List Entry} {z ein : Bool} {limit : U256} {t w t' w' : SwapState} {y v : Step} {T T' : U256}
    (hnx : w.ticks.nextInitializedTickWithinOneWord w.tick z = t.ticks.nextInitializedTickWithinOneWord t.tick z)
    (hl : t.liquidity = w.liquidity) (hti : SameTicks t.ticks w.ticks)
    (hy : swapStep p z ein limit t = .ok t') (hw : swapStep p' z ein limit w = .ok w')
    (hf : StepFacts p h z ein limit t t' y T) (hf' : StepFacts p' h z ein limit w w' v T') :
    T = T' ∧ (y.next = v.next → y.next.toNat ≠ t.price.toNat → v.next.toNat ≠ w.price.toNat → View t' w') := by
  obtain ⟨n, b, pn, a1, a2, a3⟩ := hf.tgt
  obtain ⟨n', b', pn', b1, b2, b3⟩ := hf'.tgt
  obtain ⟨m, c, q, u, g, c1, c2, c3, c4, c5⟩ := swapStep_inv hy
  obtain ⟨m', c', q', u', g', d1, d2, d3, d4, d5⟩ := swapStep_inv hw
  rw [a1] at c1
  cases c1
  rw [a2] at c2
  cases c2
  rw [← a3, hf.step] at c3
  cases c3
  rw [b1] at d1
  cases d1
  rw [b2] at d2
  cases d2
  rw [← b3, hf'.step] at d3
  cases d3
  rw [hnx, a1] at b1
  cases b1
  rw [a2] at b2
  cases b2
  refine ⟨by rw [a3, b3], fun hn h1 h2 => ?_⟩
  refine finish_far ?_ ?_ ?_ ?_ ?_ c5 d5
  · exact hn
  · exact hl
  · exact hti
  · exact h1
  · exact h2

theorem ahead_reach {up : Bool} {C x y : Nat} (h1 : Ahead up C x) (h2 : Ahead up C y) (h : Reach C x y) : Ahead up x y := by
  unfold Ahead at *
  unfold Reach at h
  cases up
  · rw [if_neg (by decide)] at *; omega
  · rw [if_pos rfl] at *; omega

theorem ahead_trans {up : Bool} {x y z : Nat} (h1 : Ahead up x y) (h2 : Ahead up y z) : Ahead up x z := by
  unfold Ahead at *
  cases up
  · rw [if_neg (by decide)] at *; omega
  · rw [if_pos rfl] at *; omega

theorem big_ok {L C K : Nat} {r : Int} (hL : L < 2 ^ 128) (hC : C < 2 ^ 160) (hK : K ≤ 1000000) (h0 : 0 ≤ r) (h1 : r < 2 ^ 95) :
    (L : Int) * 2 ^ 96 + r * K / 1000000 * C < 2 ^ 256 := by
  have h2 : r * K / 1000000 ≤ r := by
    rw [Int.ediv_le_iff_le_mul (by norm_num)]
    have : r * K ≤ r * 1000000 := Int.mul_le_mul_of_nonneg_left (by omega) h0
    omega
  have h3 : r * K / 1000000 * C ≤ 2 ^ 95 * 2 ^ 160 :=
    mul_le_mul (by omega) (by omega) (by omega) (by norm_num)
  omega

/-- The first run `s`, the second run `w` that goes on where it ends, and the single run `t` for both amounts. -/
theorem split_loop {p p1 : Pool} {h : List Entry} {sp : Int} {z ein up : Bool} {limit : U256} (hfe : p.fee = p1.fee) (hf0 : 0 ≤ p.fee)
    (hf1 : p.fee < 1000000) (fuel fuel' fuel2 : Nat) {s t w s' t' w' : SwapState} (hs : SInv h sp z ein limit s)
    (ht : SInv h sp z ein limit t) (hws : SInv h sp z ein limit w) (hv : View s t) (hv1 : View s' w)
    (hrem : t.remaining.toInt = s.remaining.toInt + w.remaining.toInt) (hw0 : w.remaining.toInt ≠ 0) (hlim : w.price.toNat ≠ limit.toNat)
    (hk : z = false → ¬ Skips sp w.tick) (hbig : z = true → ein = true → t.remaining.toInt < 2 ^ 95)
    (hg : Going up sp z s) (hg' : Going up sp z t)
    (hx : swapLoop p z ein limit fuel s = .ok s') (hy : swapLoop p z ein limit fuel' t = .ok t')
    (hw : swapLoop p1 z ein limit fuel2 w = .ok w') :
    ∃ i1 o1 f1 i2 o2 f2 i o f, Run p h sp z ein limit s s' i1 o1 f1 ∧ Run p1 h sp z ein limit w w' i2 o2 f2 ∧
      Run p h sp z ein limit t t' i o f ∧ w'.remaining.toInt ≤ t'.remaining.toInt ∧
      (ein = true → o1 + o2 ≤ o ∧ Ahead up w'.price.toNat t'.price.toNat) ∧
      (ein = false → i + f ≤ i1 + f1 + (i2 + f2) ∧ Ahead up t'.price.toNat w'.price.toNat) := by
  have hf0' : 0 ≤ p1.fee := by rw [← hfe]; exact hf0
  have hf1' : p1.fee < 1000000 := by rw [← hfe]; exact hf1
  have hfee : p.fee.toNat < 1000000 := by omega
  induction fuel generalizing s t fuel' with
  | zero => cases hx
  | succ k ih =>
    by_cases hr : running limit s = true
    · unfold swapLoop at hx
      rw [if_pos hr] at hx
      obtain ⟨s1, hx1, hx2⟩ := bind_ok hx
      obtain ⟨hr0, hrl⟩ := running_iff.1 hr
      have hr' : running limit t = true := by
        rw [running_iff, ← hv.price]
        refine ⟨?_, hrl⟩
        cases ein
        · have := hws.remOut rfl
          have := hs.remOut rfl
          omega
        · have := hws.remIn rfl
          have := hs.remIn rfl
          omega
      cases fuel' with
      | zero => cases hy
      | succ k' =>
        unfold swapLoop at hy
        rw [if_pos hr'] at hy
        obtain ⟨t1, hy1, hy2⟩ := bind_ok hy
        obtain ⟨x, T, hs1, hf, hR⟩ := step_inv hs hf0 hf1 hr hx1
        obtain ⟨y, T', ht1, hf', hR'⟩ := step_inv ht hf0 hf1 hr' hy1
        obtain ⟨hT, hview⟩ := step_view hv hx1 hy1 hf hf'
        subst hT
        have run1 := Run.step Run.refl hs hr hf hR hs1
        have run1' := Run.step Run.refl ht hr' hf' hR' ht1
        have hg1 := (run_going run1 hg)
        have hg1' := (run_going run1' hg')
        have sp1 := hf.spec
        have sp2 := hf'.spec
        rw [← hv.price, ← hv.liquidity, hrem] at sp2
        have hC : 0 < s.price.toNat := by have := hs.inv.priceOk.lo; omega
        have hT0 : 0 < T.toNat := by
          cases z
          · have := (hf.up rfl).1; omega
          · have h1 := hf.down rfl
            have h2 := (hs.down rfl).2
            omega
        -- the same step: go on
        have cont : x.next = y.next → y.amountIn.toNat = x.amountIn.toNat → y.amountOut.toNat = x.amountOut.toNat → y.fee.toNat = x.fee.toNat →
            ∃ i1 o1 f1 i2 o2 f2 i o f, Run p h sp z ein limit s s' i1 o1 f1 ∧ Run p1 h sp z ein limit w w' i2 o2 f2 ∧
              Run p h sp z ein limit t t' i o f ∧ w'.remaining.toInt ≤ t'.remaining.toInt ∧
              (ein = true → o1 + o2 ≤ o ∧ Ahead up w'.price.toNat t'.price.toNat) ∧
              (ein = false → i + f ≤ i1 + f1 + (i2 + f2) ∧ Ahead up t'.price.toNat w'.price.toNat) := by
          intro e0 e1 e2 e3
          have hrem1 : t1.remaining.toInt = s1.remaining.toInt + w.remaining.toInt := by
            cases ein
            · have a1 := hR.remOut rfl
              have a2 := hR'.remOut rfl
              omega
            · have a1 := hR.remIn rfl
              have a2 := hR'.remIn rfl
              omega
          have hbig1 : z = true → ein = true → t1.remaining.toInt < 2 ^ 95 := by
            intro hz he
            have := hbig hz he
            have := hR'.remIn he
            omega
          obtain ⟨i1, o1, f1, i2, o2, f2, i, o, f, ra, rb, rc, q1, q2, q3⟩ :=
            ih k' hs1 ht1 (hview e0) hrem1 hbig1 hg1.1 hg1'.1 hx2 hy2
          refine ⟨_, _, _, _, _, _, _, _, _, Run.trans run1 ra, rb, Run.trans run1' rc, q1, ?_, ?_⟩
          · intro he
            have := q2 he
            exact ⟨by omega, this.2⟩
          · intro he
            have := q3 he
            exact ⟨by omega, this.2⟩
        have stop : s1.remaining.toInt = 0 → s' = s1 := by
          intro e0
          apply loop_halt (Bool.eq_false_iff.2 ?_) hx2
          rw [Ne, running_iff]
          exact fun hc => hc.1 e0
        -- the second run starts with a step
        have hrw : running limit w = true := running_iff.2 ⟨hw0, hlim⟩
        obtain ⟨k2, w1, hw1, hw2⟩ : ∃ k2 w1, swapStep p1 z ein limit w = .ok w1 ∧ swapLoop p1 z ein limit k2 w1 = .ok w' := by
          cases fuel2 with
          | zero => cases hw
          | succ k2 =>
            unfold swapLoop at hw
            rw [if_pos hrw] at hw
            obtain ⟨w1, hw1, hw2⟩ := bind_ok hw
            exact ⟨k2, w1, hw1, hw2⟩
        obtain ⟨v, T2, hws1, hfw, hRw⟩ := step_inv hws hf0' hf1' hrw hw1
        have run1w := Run.step Run.refl hws hrw hfw hRw hws1
        -- a first run that ends before its target
        have mid : x.next.toNat ≠ T.toNat → s' = s1 → T = T2 ∧ Going up sp z w ∧ w.price = x.next ∧ w.liquidity = s.liquidity ∧
            (y.next.toNat = T.toNat → v.next.toNat = T.toNat → View t1 w1) := by
          intro hn he
          subst he
          have hk' : z = false → ¬ Skips sp s'.tick := by rw [hv1.tick]; exact hk
          obtain ⟨m1, m2, m3⟩ := step_mid hs hs1 hx1 hf hn hk'
          have hti : SameTicks t.ticks w.ticks := by
            refine hv.ticks.symm.trans ?_
            rw [← m2]
            exact hv1.ticks
          have hl : t.liquidity = w.liquidity := by rw [← hv.liquidity, ← m1, hv1.liquidity]
          obtain ⟨e1, e2⟩ := step_view_mid (h := h) (by
            rw [← hv1.ticks.next, m2, ← hv1.tick, m3, hv.ticks.next, hv.tick]) hl hti hy1 hw1 hf' hfw
          have hb := hf.spec.between
          have hp : w.price = x.next := by rw [← hv1.price, hf.price]
          refine ⟨e1, hv1.going hg1.1, hp, by rw [← hv1.liquidity, m1], fun a1 a2 => e2 (ext_toNat (by omega)) ?_ ?_⟩
          · rw [← hv.price]; omega
          · rw [hp]; omega
        cases ein
        · -- exact output
          have hneg : s.remaining.toInt < 0 := by have := hs.remOut rfl; omega
          have hnegw : w.remaining.toInt < 0 := by have := hws.remOut rfl; omega
          have hm := step_mono_out sp1 sp2 hneg (by omega) hfee hC hT0
          by_cases hc : (outAmount (decide (T.toNat ≤ s.price.toNat)) s.price.toNat T.toNat s.liquidity.toNat : Int) ≤ -s.remaining.toInt
          · obtain ⟨e1, e2, e3, e4, e5⟩ := hm.1 hc
            exact cont (ext_toNat (e1.trans e2.symm)) e3 e4 e5
          · obtain ⟨e1, e2, e3, e4⟩ := hm.2 (by omega)
            have r1 := hR.remOut rfl
            have r2 := hR'.remOut rfl
            have hstop := stop (by omega)
            by_cases hn : x.next.toNat = T.toNat
            · have hn' : y.next.toNat = T.toNat := by
                have hb := sp2.between
                unfold Reach at e4
                rw [hn] at e4
                omega
              have hvw : View t1 w := by
                rw [hstop] at hv1
                exact (hview (ext_toNat (hn.trans hn'.symm))).symm.trans hv1
              obtain ⟨i, o, f, i2, o2, f2, rb, rc, q1, q2, q3, q4, q5⟩ := loop_mono (up := up) hfe hf0 hf1 k' fuel2 ht1 hws hvw
                (fun h => absurd h (by decide)) (fun _ => by omega) hg1'.1 (hvw.going hg1'.1) hy2 hw
              have ei : y.amountIn.toNat = x.amountIn.toNat := by rw [sp2.input, sp1.input, hn, hn']
              have ef : y.fee.toNat = x.fee.toNat := by
                rw [sp2.feeExact (Or.inl (by omega)), sp1.feeExact (Or.inl hneg), ei]
              refine ⟨_, _, _, _, _, _, _, _, _, hstop ▸ run1, rc, Run.trans run1' rb, q5 rfl, fun h => absurd h (by decide), fun _ => ⟨by omega, q3⟩⟩
            · obtain ⟨hTT, hgw, hpw, hlw, hvw⟩ := mid hn hstop
              subst hTT
              have sp3 := hfw.spec
              rw [hpw, hlw, ← hfe] at sp3
              obtain ⟨d1, d2⟩ := step_split_out sp1 sp3 sp2 hneg hnegw hfee hC hT0 hn
              have r3 := hRw.remOut rfl
              rcases d2 with ⟨d2, d3, d4⟩ | ⟨d2, d3⟩
              · have hvw' := hvw d2 d3
                obtain ⟨i, o, f, i2, o2, f2, rb, rc, q1, q2, q3, q4, q5⟩ := loop_mono (up := up) hfe hf0 hf1 k' k2 ht1 hws1 hvw'
                  (fun h => absurd h (by decide)) (fun _ => by omega) hg1'.1 (run_going run1w hgw).1 hy2 hw2
                refine ⟨_, _, _, _, _, _, _, _, _, hstop ▸ run1, Run.trans run1w rc, Run.trans run1' rb, q5 rfl,
                  fun h => absurd h (by decide), fun _ => ⟨by omega, q3⟩⟩
              · have hstop' : t' = t1 := by
                  apply loop_halt (Bool.eq_false_iff.2 ?_) hy2
                  rw [Ne, running_iff]
                  exact fun hc => hc.1 (by omega)
                obtain ⟨⟨i2, o2, f2, rc⟩, hw', _⟩ := loop_run hws1 hf0' hf1' hw2
                refine ⟨_, _, _, _, _, _, _, _, _, hstop ▸ run1, Run.trans run1w rc, hstop' ▸ run1', ?_, fun h => absurd h (by decide), fun _ => ⟨by omega, ?_⟩⟩
                · have := hw'.remOut rfl
                  rw [hstop']
                  omega
                · rw [hstop']
                  have g1 := (run_going run1w hgw).2
                  have g2 := (run_going rc (run_going run1w hgw).1).2
                  have g3 := hg1'.2
                  have g4 := hg1.2
                  rw [hfw.price] at g1 g2
                  rw [hf'.price] at g3 ⊢
                  rw [hf.price, ← hpw] at g4
                  rw [← hv.price] at g3
                  exact ahead_trans (ahead_reach g3 (ahead_trans g4 g1) d3) g2
        · -- exact input
          have hpos := hs.remIn rfl
          have hposw := hws.remIn rfl
          have hm := step_mono_in sp1 sp2 hpos (by omega) hfee hC hT0
            (fun he => by
              have hst := hf'.step
              rw [← hv.price, ← hv.liquidity] at hst
              rw [next_det hpos (by have := ht.remIn rfl; omega) hs.rem ht.rem hf0 hf1 hf.step hst (by rw [hrem]; exact he)])
          by_cases hn : x.next.toNat = T.toNat
          · obtain ⟨e1, e3, e4, e5⟩ := hm.1 hn
            exact cont (ext_toNat (hn.trans e1.symm)) e3 e4 e5
          · have hstop := stop (hR.done (by rw [hf.price]; exact hn))
            obtain ⟨hTT, hgw, hpw, hlw, hvw⟩ := mid hn hstop
            subst hTT
            have sp3 := hfw.spec
            rw [hpw, hlw, ← hfe] at sp3
            have hb := sp1.between
            obtain ⟨d1, d2⟩ := step_split_in sp1 sp3 sp2 hpos hposw hfee hC hT0 hn (by
              intro hle
              have hz : z = true := by
                cases z
                · have := (hf.up rfl).1
                  omega
                · rfl
              have := hbig hz rfl
              exact big_ok hs.inv.liq_lt hs.inv.priceOk.hi (by omega) (by omega) (by omega))
            have r1 := hR.remIn rfl
            have r2 := hR'.remIn rfl
            have r3 := hRw.remIn rfl
            by_cases hmT : v.next.toNat = T.toNat
            · obtain ⟨d3, d4, d5⟩ := d1 hmT
              have hvw' := hvw d3 hmT
              have r4 := hR.done (by rw [hf.price]; exact hn)
              obtain ⟨i2, o2, f2, i, o, f, rc, rb, q1, q2, q3, q4, q5⟩ := loop_mono (up := up) hfe.symm hf0' hf1' k2 k' hws1 ht1 hvw'.symm
                (fun _ => by omega) (fun h => absurd h (by decide)) (run_going run1w hgw).1 hg1'.1 hw2 hy2
              refine ⟨_, _, _, _, _, _, _, _, _, hstop ▸ run1, Run.trans run1w rc, Run.trans run1' rb, q4 rfl,
                fun _ => ⟨by omega, q3⟩, fun h => absurd h (by decide)⟩
            · obtain ⟨d3, d4⟩ := d2 hmT
              have r5 := hRw.done (by rw [hfw.price]; exact hmT)
              have hstop' : w' = w1 := by
                apply loop_halt (Bool.eq_false_iff.2 ?_) hw2
                rw [Ne, running_iff]
                exact fun hc => hc.1 r5
              obtain ⟨⟨i, o, f, rb⟩, ht', _⟩ := loop_run ht1 hf0 hf1 hy2
              refine ⟨_, _, _, _, _, _, _, _, _, hstop ▸ run1, hstop' ▸ run1w, Run.trans run1' rb, ?_, fun _ => ⟨by omega, ?_⟩, fun h => absurd h (by decide)⟩
              · rw [hstop', r5]
                exact ht'.remIn rfl
              · rw [hstop']
                have g1 := (run_going run1w hgw).2
                have g2 := (run_going rb hg1'.1).2
                have g3 := hg1'.2
                have g4 := hg1.2
                rw [hfw.price] at g1 ⊢
                rw [hf'.price] at g2 g3
                rw [hf.price, ← hpw] at g4
                rw [← hv.price] at g3
                exact ahead_trans (ahead_reach (ahead_trans g4 g1) g3 d4) g2
    · have hr' := Bool.eq_false_iff.2 hr
      have hstop := loop_halt hr' hx
      subst hstop
      have h0 : s'.remaining.toInt = 0 := by
        rcases not_running hr' with h0 | h0
        · exact h0
        · rw [hv1.price] at h0
          exact absurd h0 hlim
      have hvw : View w t := hv1.symm.trans hv
      cases ein
      · obtain ⟨i, o, f, i2, o2, f2, rb, rc, q1, q2, q3, q4, q5⟩ := loop_mono (up := up) hfe hf0 hf1 fuel' fuel2 ht hws hvw.symm
          (fun h => absurd h (by decide)) (fun _ => by omega) hg' (hv1.going hg) hy hw
        exact ⟨0, 0, 0, _, _, _, _, _, _, Run.refl, rc, rb, q5 rfl, fun h => absurd h (by decide), fun _ => ⟨by omega, q3⟩⟩
      · obtain ⟨i2, o2, f2, i, o, f, rc, rb, q1, q2, q3, q4, q5⟩ := loop_mono (up := up) hfe.symm hf0' hf1' fuel2 fuel' hws ht hvw
          (fun _ => by omega) (fun h => absurd h (by decide)) (hv1.going hg) hg' hw hy
        exact ⟨0, 0, 0, _, _, _, _, _, _, Run.refl, rc, rb, q4 rfl, fun _ => ⟨by omega, q3⟩, fun h => absurd h (by decide)⟩

theorem run_view {p p' : Pool} {h : List Entry} {sp : Int} {z ein : Bool} {limit : U256} {s0 s1 w0 w1 : SwapState} {i o f i' o' f' : Nat} {up : Bool}
    (hr : Run p h sp z ein limit s0 s1 i o f) (hr' : Run p' h sp z ein limit w0 w1 i' o' f') (hv : View s1 w0) (h0 : Going up sp z s0) :
    Ahead up s0.price.toNat w1.price.toNat := by
  obtain ⟨g1, g2⟩ := run_going hr h0
  have g3 := (run_going hr' (hv.going g1)).2
  rw [← hv.price] at g3
  exact ahead_trans g2 g3

/-- A swap in two parts, and in one. -/
theorem swap_split {h : List Entry} {p : Pool} (hi : Inv h p) {fuel1 fuel2 fuel : Nat} {z : Bool} {a1 a2 a limit : U256}
    {r1 r2 r : U256 × U256 × Pool} (hc : z = true → ClearAbove p.spacing p.tick h) (ha : a.toInt = a1.toInt + a2.toInt)
    (hsg : (0 < a1.toInt ∧ 0 < a2.toInt ∧ a.toInt < 2 ^ 160 ∧ (z = true → a.toInt < 2 ^ 95)) ∨ (a1.toInt < 0 ∧ a2.toInt < 0))
    (hk : z = false → ¬ Skips p.spacing r1.2.2.tick)
    (hx1 : p.swap fuel1 z a1 limit = .ok r1) (hx2 : r1.2.2.swap fuel2 z a2 limit = .ok r2) (hx : p.swap fuel z a limit = .ok r) :
    sold z r ≤ sold z r1 + sold z r2 ∧ bought z r ≤ bought z r1 + bought z r2 ∧
      ∃ up, (0 < a1.toInt → Ahead up p.price.toNat r2.2.2.price.toNat ∧ Ahead up r2.2.2.price.toNat r.2.2.price.toNat) ∧
        (a1.toInt < 0 → Ahead up p.price.toNat r.2.2.price.toNat ∧ Ahead up r.2.2.price.toNat r2.2.2.price.toNat) := by
  obtain ⟨u0, u1, p1⟩ := r1
  obtain ⟨v0, v1, p2⟩ := r2
  obtain ⟨w0, w1, p3⟩ := r
  dsimp only at hk hx2
  obtain ⟨_, h2, s, h3, h4, h5⟩ := swap_eq hx1
  obtain ⟨_, l2, w, l3, l4, l5⟩ := swap_eq hx2
  obtain ⟨_, k2, t, k3, k4, k5⟩ := swap_eq hx
  have hi1 := swap_inv hi (by omega) hc hx1
  have hsp1 : p1.spacing = p.spacing := by rw [h5]; rfl
  have hfe1 : p1.fee = p.fee := by rw [h5]; rfl
  have hsame1 : decide (0 ≤ a1.toInt) = decide (0 ≤ a.toInt) := by rw [decide_eq_decide]; omega
  have hsame2 : decide (0 ≤ a2.toInt) = decide (0 ≤ a.toInt) := by rw [decide_eq_decide]; omega
  have h6 := init_sinv hi (amount := a1) (by omega) h2 hc
  have k6 := init_sinv hi (amount := a) (by omega) h2 hc
  rw [hsame1] at h3 h6
  obtain ⟨_, h7, h8⟩ := loop_run h6 hi.fee0 hi.fee1 h3
  have l6 := init_sinv hi1 (amount := a2) (by omega) l2 (by
    intro hz
    rw [hsp1, h5]
    exact h7.clear hz)
  rw [hsame2, hsp1] at l6
  rw [hsame2] at l3
  obtain ⟨_, l7, _⟩ := loop_run l6 (by rw [hfe1]; exact hi.fee0) (by rw [hfe1]; exact hi.fee1) l3
  obtain ⟨_, k7, _⟩ := loop_run k6 hi.fee0 hi.fee1 k3
  obtain ⟨up, hg⟩ : ∃ up, ∀ x : U256, Going up p.spacing z (initState p z x) := by
    cases z
    · exact ⟨true, fun _ => Or.inl rfl⟩
    · by_cases hgd : Good p.spacing p.tick
      · exact ⟨false, fun _ => ⟨rfl, Or.inl hgd⟩⟩
      · exact ⟨true, fun _ => Or.inr ⟨rfl, hgd⟩⟩
  have refl : ∀ {q : Pool}, Inv h q → SameTicks q.ticks q.ticks := fun hq =>
    ⟨hq.ticks.inc, hq.ticks.inc, rfl, by have := hq.sp_pos; have := hq.spacing; omega, fun _ => rfl⟩
  have hv : View (initState p z a1) (initState p z a) := ⟨rfl, rfl, rfl, refl hi⟩
  have hv1 : View s (initState p1 z a2) := by
    have e1 : s.price = p1.price := by rw [h5]; rfl
    have e2 : s.tick = p1.tick := by rw [h5]; rfl
    have e3 : s.liquidity = p1.liquidity := by rw [h5]; rfl
    have e4 : s.ticks = p1.ticks := by rw [h5]; rfl
    exact ⟨e1, e2, e3, by rw [e4]; exact refl hi1⟩
  have hlim : (initState p1 z a2).price.toNat ≠ (effLimit z limit).toNat := by
    obtain ⟨q1, q2⟩ := (limitOk_iff p1 z _).1 l2
    change p1.price.toNat ≠ _
    cases z
    · have := q2 rfl; omega
    · have := q1 rfl; omega
  obtain ⟨i1, o1, f1, i2, o2, f2, i, o, f, ra, rb, rc, q1, q2, q3⟩ := split_loop (up := up) (p1 := p1) hfe1.symm hi.fee0 hi.fee1 fuel1 fuel fuel2 h6 k6 l6 hv hv1 ha
    (by show a2.toInt ≠ 0; omega) hlim hk
    (by
      intro hz he
      have := of_decide_eq_true he
      show a.toInt < _
      rcases hsg with hsg | hsg
      · exact hsg.2.2.2 hz
      · omega) (hg a1) (hg a) h3 k3 l3
  have hs0 : s.remaining.toInt = 0 := by
    rcases not_running h8 with h0 | h0
    · exact h0
    · rw [hv1.price] at h0
      exact absurd h0 hlim
  have m1 := run_rem ra
  have m2 := run_rem rb
  have m3 := run_rem rc
  change (_ → s.remaining.toInt = a1.toInt - _) ∧ (_ → s.remaining.toInt = a1.toInt + _) at m1
  change (_ → w.remaining.toInt = a2.toInt - _) ∧ (_ → w.remaining.toInt = a2.toInt + _) at m2
  change (_ → t.remaining.toInt = a.toInt - _) ∧ (_ → t.remaining.toInt = a.toInt + _) at m3
  have hup1 := run_view ra rb hv1 (hg a1)
  have hup2 := (run_going rc (hg a)).2
  obtain ⟨c1, c2⟩ := swap_amounts hi k6 rc k7 (p' := p3) k4
  have ra' := ra
  rw [← hsame1] at h6 ra' h7
  obtain ⟨c3, c4⟩ := swap_amounts hi h6 ra' h7 (p' := p1) h4
  have rb' := rb
  rw [← hsame2, ← hsp1] at l6 rb' l7
  obtain ⟨c5, c6⟩ := swap_amounts hi1 l6 rb' l7 (p' := p2) l4
  rw [c1, c2, c3, c4, c5, c6]
  have hp2 : p2.price = w.price := by rw [l5]; rfl
  have hp3 : p3.price = t.price := by rw [k5]; rfl
  dsimp only
  rw [hp2, hp3]
  rcases hsg with hsg | hsg
  · have he : decide (0 ≤ a.toInt) = true := decide_eq_true (by omega)
    have d1 := m1.1 he
    have d2 := m2.1 he
    have d3 := m3.1 he
    have d4 := q2 he
    exact ⟨by omega, by omega, up, fun _ => ⟨hup1, d4.2⟩, fun h => by omega⟩
  · have he : decide (0 ≤ a.toInt) = false := decide_eq_false (by omega)
    have d1 := m1.2 he
    have d2 := m2.2 he
    have d3 := m3.2 he
    have d4 := q3 he
    exact ⟨by omega, by omega, up, fun h => by omega, fun _ => ⟨hup2, d4.2⟩⟩

end Pool
end Uni
