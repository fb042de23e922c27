import Verif.Proofs.Monotone
/-! # The same trade at different fee rates -/
namespace Uni
open U256 Spec TickData TickMath FullMath SwapMath LiquidityAmounts
namespace Pool

/-- Two steps with the same input after fees move to the same price, whatever the fees are. -/
theorem next_fee_in {c t L a b : U256} {fee fee' : Int} {x y : Step} (ha0 : 0 ≤ a.toInt) (hb0 : 0 ≤ b.toInt)
    (ha : a.toInt < 2 ^ 160) (hb : b.toInt < 2 ^ 160) (h0 : 0 ≤ fee) (h1 : fee < 1000000) (h0' : 0 ≤ fee') (h1' : fee' < 1000000)
    (hx : computeSwapStep c t L a fee = .ok x) (hy : computeSwapStep c t L b fee' = .ok y)
    (he : a.toInt * (1000000 - fee.toNat : Nat) / 1000000 = b.toInt * (1000000 - fee'.toNat : Nat) / 1000000) : x.next = y.next := by
  have ea := toNat_of_nonneg ha0
  have eb := toNat_of_nonneg hb0
  have he' : a.toNat * (1000000 - fee.toNat) / 1000000 = b.toNat * (1000000 - fee'.toNat) / 1000000 := by
    rw [← ea, ← eb] at he
    exact_mod_cast he
  unfold computeSwapStep at hx hy
  rw [sign_decide, decide_eq_true ha0] at hx
  rw [sign_decide, decide_eq_true hb0] at hy
  dsimp only at hx hy
  obtain ⟨u, u1, hx⟩ := bind_ok hx
  obtain ⟨v, v1, hy⟩ := bind_ok hy
  have hu : u = v := by
    unfold stepPrice at u1 v1
    rw [if_pos rfl, lessFee_spec (by omega) h0 h1] at u1
    rw [if_pos rfl, lessFee_spec (by omega) h0' h1'] at v1
    rw [he'] at u1
    rw [u1] at v1
    cases v1
    rfl
  have hx' : x.next = u.1 := by
    obtain ⟨w, w1, hx⟩ := bind_ok hx
    split at hx
    · cases hx; rfl
    · obtain ⟨g, g1, hx⟩ := bind_ok hx
      cases hx; rfl
  have hy' : y.next = v.1 := by
    obtain ⟨w, w1, hy⟩ := bind_ok hy
    split at hy
    · cases hy; rfl
    · obtain ⟨g, g1, hy⟩ := bind_ok hy
      cases hy; rfl
  rw [hx', hy', hu]

/-- The fee of the same input at a higher rate. -/
theorem fee_rate_mono {i fee fee' : Nat} (h : fee' ≤ fee) (h1 : fee < 1000000) :
    Spec.ceilDiv (i * fee') (1000000 - fee') ≤ Spec.ceilDiv (i * fee) (1000000 - fee) := by
  refine ceilDiv_frac_mono (by omega) (by omega) ?_
  rw [Nat.mul_assoc, Nat.mul_assoc]
  exact Nat.mul_le_mul_left _ (Nat.mul_le_mul h (by omega))

/-- Two steps of exact input, the second at a lower fee rate and with at least as much left to spend. -/
theorem step_fee_in {C T L fee fee' n i o f n' i' o' f' : Nat} {r r' : Int} (hs : Spec.SwapStep C T L r fee n i o f)
    (hs' : Spec.SwapStep C T L r' fee' n' i' o' f') (hr : 0 ≤ r) (hrr : r ≤ r') (hff : fee' ≤ fee) (hfee : fee < 1000000) (hC : 0 < C)
    (hT : 0 < T) (hdet : r * (1000000 - fee : Nat) / 1000000 = r' * (1000000 - fee' : Nat) / 1000000 → n = n') :
    (n = T → n' = T ∧ i' = i ∧ o' = o ∧ f' ≤ f) ∧ (n ≠ T → o ≤ o' ∧ Reach C n n') := by
  have hile : (i : Int) ≤ r * (1000000 - fee : Nat) / 1000000 := by
    rw [Int.le_ediv_iff_mul_le (by norm_num)]
    have h1 := hs.feeRate
    have h2 := hs.budget hr
    have h1' : (i : Int) * fee ≤ f * (1000000 - fee : Nat) := by exact_mod_cast h1
    have hm : (0 : Int) ≤ ((1000000 - fee : Nat) : Int) := Int.natCast_nonneg _
    have hfm : ((1000000 - fee : Nat) : Int) + fee = 1000000 := by omega
    push_cast at h2
    generalize ((1000000 - fee : Nat) : Int) = m at *
    nlinarith
  have hmono : r * (1000000 - fee : Nat) / 1000000 ≤ r' * (1000000 - fee' : Nat) / 1000000 := by
    refine Int.ediv_le_ediv (by norm_num) ?_
    refine le_trans (Int.mul_le_mul_of_nonneg_right hrr (Int.natCast_nonneg _)) (Int.mul_le_mul_of_nonneg_left ?_ (by omega))
    omega
  constructor
  · intro hn
    have h1 : n' = T := by
      apply hs'.reachIn (by omega)
      have := hs.input
      rw [hn] at this
      rw [← this]
      omega
    have h2 : i' = i := by rw [hs'.input, hs.input, h1, hn]
    have h3 : o' = o := by rw [hs'.outputIn (by omega), hs.outputIn hr, h1, hn]
    have h4 : f' ≤ f := by
      rw [hs'.feeExact (Or.inr h1), hs.feeExact (Or.inr hn), h2]
      exact fee_rate_mono hff hfee
    exact ⟨h1, h2, h3, h4⟩
  · intro hn
    have hb := hs.between
    have hb' := hs'.between
    have hreach : Reach C n n' := by
      unfold Reach
      by_contra hc
      have hne : n ≠ n' := by
        intro he
        subst he
        omega
      have hn' : n' ≠ T := by
        intro he
        subst he
        omega
      have h1 := hs'.farIn (by omega) hn' n (by omega)
      rw [← hs.input] at h1
      exact hne (hdet (by omega))
    refine ⟨?_, hreach⟩
    rw [hs.outputIn hr, hs'.outputIn (by omega)]
    exact out_mono _ hC (by omega) (by omega) hreach

/-- The exact-input loop at a lower fee rate, with at least as much to spend, goes at least as far and pays at least as much. -/
theorem loop_fee_in {p p' : Pool} {h : List Entry} {sp : Int} {z up : Bool} {limit : U256} (hff : p'.fee ≤ p.fee) (hf0' : 0 ≤ p'.fee)
    (hf1 : p.fee < 1000000) (fuel fuel' : Nat) {s t s' t' : SwapState} (hs : SInv h sp z true limit s) (ht : SInv h sp z true limit t)
    (hv : View s t) (hin : s.remaining.toInt ≤ t.remaining.toInt) (hg : Going up sp z s) (hg' : Going up sp z t)
    (hx : swapLoop p z true limit fuel s = .ok s') (hy : swapLoop p' z true limit fuel' t = .ok t') :
    ∃ i o f i' o' f', Run p h sp z true limit s s' i o f ∧ Run p' h sp z true limit t t' i' o' f' ∧
      o ≤ o' ∧ Ahead up s'.price.toNat t'.price.toNat := by
  have hf0 : 0 ≤ p.fee := by omega
  have hf1' : p'.fee < 1000000 := by omega
  induction fuel generalizing s t fuel' with
  | zero => cases hx
  | succ k ih =>
    by_cases hr : running limit s = true
    · have hx0 := hx
      unfold swapLoop at hx
      rw [if_pos hr] at hx
      obtain ⟨s1, hx1, hx2⟩ := bind_ok hx
      obtain ⟨hr0, hrl⟩ := running_iff.1 hr
      have hr' : running limit t = true := by
        rw [running_iff, ← hv.price]
        refine ⟨?_, hrl⟩
        have := hs.remIn rfl
        omega
      cases fuel' with
      | zero => cases hy
      | succ k' =>
        unfold swapLoop at hy
        rw [if_pos hr'] at hy
        obtain ⟨t1, hy1, hy2⟩ := bind_ok hy
        obtain ⟨x, T, hs1, hf, hR⟩ := step_inv hs hf0 hf1 hr hx1
        obtain ⟨y, T', ht1, hf', hR'⟩ := step_inv ht hf0' hf1' hr' hy1
        obtain ⟨hT, hview⟩ := step_view hv hx1 hy1 hf hf'
        subst hT
        have run1 := Run.step Run.refl hs hr hf hR hs1
        have run1' := Run.step Run.refl ht hr' hf' hR' ht1
        have sp1 := hf.spec
        have sp2 := hf'.spec
        rw [← hv.price, ← hv.liquidity] at sp2
        have hC : 0 < s.price.toNat := by have := hs.inv.priceOk.lo; omega
        have hT0 : 0 < T.toNat := by
          cases z
          · have := (hf.up rfl).1; omega
          · have h1 := hf.down rfl
            have h2 := (hs.down rfl).2
            omega
        have hpos := hs.remIn rfl
        have hm := step_fee_in sp1 sp2 hpos hin (by omega) (by omega) hC hT0
          (fun he => by
            have hst := hf'.step
            rw [← hv.price, ← hv.liquidity] at hst
            rw [next_fee_in hpos (by omega) hs.rem ht.rem hf0 hf1 hf0' hf1' hf.step hst he])
        by_cases hc : x.next.toNat = T.toNat
        · obtain ⟨e1, e2, e3, e4⟩ := hm.1 hc
          obtain ⟨i, o, f, i', o', f', ra, rb, q1, q2⟩ := ih k' hs1 ht1 (hview (ext_toNat (hc.trans e1.symm)))
            (by
              have a1 := hR.remIn rfl
              have a2 := hR'.remIn rfl
              omega)
            (run_going run1 hg).1 (run_going run1' hg').1 hx2 hy2
          exact ⟨_, _, _, _, _, _, Run.trans run1 ra, Run.trans run1' rb, by omega, q2⟩
        · obtain ⟨e2, e3⟩ := hm.2 hc
          have e0 : s1.remaining.toInt = 0 := hR.done (by rw [hf.price]; exact hc)
          have hstop : s' = s1 := by
            apply loop_halt (Bool.eq_false_iff.2 ?_) hx2
            rw [Ne, running_iff]
            exact fun hc => hc.1 e0
          subst hstop
          obtain ⟨⟨i', o', f', rb⟩, ht', _⟩ := loop_run ht1 hf0' hf1' hy2
          refine ⟨_, _, _, _, _, _, run1, Run.trans run1' rb, by omega, ?_⟩
          have g1 := (run_going run1 hg).2
          have g2 := (run_going rb (run_going run1' hg').1).2
          have g3 := (run_going run1' hg').2
          rw [hf.price] at g1 ⊢
          rw [hf'.price] at g2 g3
          rw [← hv.price] at g3
          unfold Ahead Reach at *
          cases up
          · rw [if_neg (by decide)] at g1 g2 g3 ⊢; omega
          · rw [if_pos rfl] at g1 g2 g3 ⊢; omega
    · have hr' := Bool.eq_false_iff.2 hr
      have hstop := loop_halt hr' hx
      subst hstop
      obtain ⟨⟨i', o', f', rb⟩, ht', _⟩ := loop_run ht hf0' hf1' hy
      have g2 := (run_going rb hg').2
      rw [← hv.price] at g2
      exact ⟨0, 0, 0, i', o', f', Run.refl, rb, by omega, g2⟩

/-- Two steps of exact output for the same amount: only the fees differ. -/
theorem next_fee_out {c t L a : U256} {fee fee' : Int} {x y : Step} (ha0 : a.toInt < 0)
    (hx : computeSwapStep c t L a fee = .ok x) (hy : computeSwapStep c t L a fee' = .ok y) :
    x.next = y.next ∧ x.amountIn = y.amountIn ∧ x.amountOut = y.amountOut := by
  have hn : ¬ 0 ≤ a.toInt := by omega
  unfold computeSwapStep at hx hy
  rw [sign_decide, decide_eq_false hn] at hx hy
  dsimp only at hx hy
  obtain ⟨u, u1, hx⟩ := bind_ok hx
  obtain ⟨v, v1, hy⟩ := bind_ok hy
  have hu : u = v := by
    unfold stepPrice at u1 v1
    rw [if_neg (by decide)] at u1 v1
    rw [u1] at v1
    cases v1
    rfl
  subst hu
  obtain ⟨w, w1, hx⟩ := bind_ok hx
  obtain ⟨w', w1', hy⟩ := bind_ok hy
  rw [w1] at w1'
  cases w1'
  rw [if_neg (by simp)] at hx hy
  obtain ⟨g, g1, hx⟩ := bind_ok hx
  obtain ⟨g', g1', hy⟩ := bind_ok hy
  cases hx
  cases hy
  exact ⟨rfl, rfl, rfl⟩

/-- The exact-output loop at a lower fee rate goes exactly as far, pays the same and costs no more. -/
theorem loop_fee_out {p p' : Pool} {h : List Entry} {sp : Int} {z : Bool} {limit : U256} (hff : p'.fee ≤ p.fee) (hf0' : 0 ≤ p'.fee)
    (hf1 : p.fee < 1000000) (fuel fuel' : Nat) {s t s' t' : SwapState} (hs : SInv h sp z false limit s) (ht : SInv h sp z false limit t)
    (hv : View s t) (hrem : s.remaining = t.remaining)
    (hx : swapLoop p z false limit fuel s = .ok s') (hy : swapLoop p' z false limit fuel' t = .ok t') :
    ∃ i o f f', Run p h sp z false limit s s' i o f ∧ Run p' h sp z false limit t t' i o f' ∧ f' ≤ f ∧ s'.price = t'.price := by
  have hf0 : 0 ≤ p.fee := by omega
  have hf1' : p'.fee < 1000000 := by omega
  induction fuel generalizing s t fuel' with
  | zero => cases hx
  | succ k ih =>
    by_cases hr : running limit s = true
    · have hx0 := hx
      unfold swapLoop at hx
      rw [if_pos hr] at hx
      obtain ⟨s1, hx1, hx2⟩ := bind_ok hx
      obtain ⟨hr0, hrl⟩ := running_iff.1 hr
      have hr' : running limit t = true := by
        rw [running_iff, ← hv.price, ← hrem]
        exact ⟨hr0, hrl⟩
      cases fuel' with
      | zero => cases hy
      | succ k' =>
        unfold swapLoop at hy
        rw [if_pos hr'] at hy
        obtain ⟨t1, hy1, hy2⟩ := bind_ok hy
        obtain ⟨x, T, hs1, hf, hR⟩ := step_inv hs hf0 hf1 hr hx1
        obtain ⟨y, T', ht1, hf', hR'⟩ := step_inv ht hf0' hf1' hr' hy1
        obtain ⟨hT, hview⟩ := step_view hv hx1 hy1 hf hf'
        subst hT
        have run1 := Run.step Run.refl hs hr hf hR hs1
        have run1' := Run.step Run.refl ht hr' hf' hR' ht1
        have hneg : s.remaining.toInt < 0 := by have := hs.remOut rfl; omega
        have hst := hf'.step
        rw [← hv.price, ← hv.liquidity, ← hrem] at hst
        obtain ⟨n1, n2, n3⟩ := next_fee_out hneg hf.step hst
        have e4 : y.fee.toNat ≤ x.fee.toNat := by
          rw [hf.spec.feeExact (Or.inl hneg), hf'.spec.feeExact (Or.inl (by rw [← hrem]; exact hneg)), n2]
          exact fee_rate_mono (by omega) (by omega)
        obtain ⟨i, o, f, f', ra, rb, q1, q2⟩ := ih k' hs1 ht1 (hview n1)
          (by
            have a1 := hf.remaining
            have a2 := hf'.remaining
            rw [if_neg (by decide)] at a1 a2
            rw [a1, a2, hrem, n3]) hx2 hy2
        have rb' := Run.trans run1' rb
        rw [← n2, ← n3] at rb'
        exact ⟨_, _, _, _, Run.trans run1 ra, rb', by omega, q2⟩
    · have hr' := Bool.eq_false_iff.2 hr
      have hstop := loop_halt hr' hx
      subst hstop
      have hr2 : running limit t = false := by
        rw [Bool.eq_false_iff, Ne, running_iff, ← hv.price, ← hrem, ← running_iff]
        exact hr
      have := loop_halt hr2 hy
      subst this
      exact ⟨0, 0, 0, 0, Run.refl, Run.refl, le_refl _, hv.price⟩

/-- The pool with another fee rate. -/
theorem inv_fee {h : List Entry} {p : Pool} (hi : Inv h p) {fee : Int} (h0 : 0 ≤ fee) (h1 : fee < 1000000) : Inv h { p with fee } :=
  ⟨hi.cov, hi.bounds, hi.sp_pos, hi.spacing, hi.ticks, hi.liq, hi.tlo, hi.thi, hi.plo, hi.phi, hi.pmax, h0, h1⟩

theorem swap_fee_in {h : List Entry} {p : Pool} (hi : Inv h p) {fee fee' : Int} (hf0 : 0 ≤ fee') (hff : fee' ≤ fee) (hf1 : fee < 1000000)
    {fuel fuel' : Nat} {z : Bool} {a limit : U256} {r r' : U256 × U256 × Pool} (hc : z = true → ClearAbove p.spacing p.tick h)
    (ha : 0 < a.toInt) (hb : a.toInt < 2 ^ 160)
    (hx : swap fuel { p with fee } z a limit = .ok r) (hy : swap fuel' { p with fee := fee' } z a limit = .ok r') :
    bought z r' ≤ bought z r ∧ ∃ up, Ahead up p.price.toNat r.2.2.price.toNat ∧ Ahead up r.2.2.price.toNat r'.2.2.price.toNat := by
  obtain ⟨r0, r1, p'⟩ := r
  obtain ⟨u0, u1, q'⟩ := r'
  obtain ⟨_, h2, s, h3, h4, h5⟩ := swap_eq hx
  obtain ⟨_, k2, t, k3, k4, k5⟩ := swap_eq hy
  have i1 := inv_fee hi (fee := fee) (by omega) hf1
  have i2 := inv_fee hi hf0 (show fee' < 1000000 by omega)
  have hd : decide (0 ≤ a.toInt) = true := decide_eq_true (by omega)
  have h6 := init_sinv i1 (amount := a) hb h2 hc
  have k6 := init_sinv i2 (amount := a) hb k2 hc
  have h6' := h6
  have k6' := k6
  rw [hd] at h3 k3 h6' k6'
  obtain ⟨up, hg⟩ : ∃ up, Going up p.spacing z (initState { p with fee } z a) ∧ Going up p.spacing z (initState { p with fee := fee' } z a) := by
    cases z
    · exact ⟨true, Or.inl rfl, Or.inl rfl⟩
    · by_cases hgd : Good p.spacing p.tick
      · exact ⟨false, ⟨rfl, Or.inl hgd⟩, ⟨rfl, Or.inl hgd⟩⟩
      · exact ⟨true, Or.inr ⟨rfl, hgd⟩, Or.inr ⟨rfl, hgd⟩⟩
  have hv : View (initState { p with fee } z a) (initState { p with fee := fee' } z a) :=
    ⟨rfl, rfl, rfl, hi.ticks.inc, hi.ticks.inc, rfl, by show p.ticks.spacing ≠ 0; have := hi.sp_pos; have := hi.spacing; omega, fun _ => rfl⟩
  obtain ⟨i, o, f, i', o', f', ra, rb, q2, q3⟩ := loop_fee_in (p := { p with fee }) (p' := { p with fee := fee' }) hff hf0 hf1 fuel fuel'
    h6' k6' hv (le_refl _) hg.1 hg.2 h3 k3
  obtain ⟨_, h7, _⟩ := loop_run h6' (show 0 ≤ fee by omega) hf1 h3
  obtain ⟨_, k7, _⟩ := loop_run k6' hf0 (show fee' < 1000000 by omega) k3
  have g := (run_going ra hg.1).2
  rw [← hd] at ra rb h7 k7
  obtain ⟨a1, a2⟩ := swap_amounts i1 h6 ra h7 (p' := p') h4
  obtain ⟨b1, b2⟩ := swap_amounts i2 k6 rb k7 (p' := q') k4
  rw [a2, b2]
  subst h5 k5
  exact ⟨by omega, up, g, q3⟩

theorem swap_fee_out {h : List Entry} {p : Pool} (hi : Inv h p) {fee fee' : Int} (hf0 : 0 ≤ fee') (hff : fee' ≤ fee) (hf1 : fee < 1000000)
    {fuel fuel' : Nat} {z : Bool} {a limit : U256} {r r' : U256 × U256 × Pool} (hc : z = true → ClearAbove p.spacing p.tick h)
    (ha : a.toInt < 0)
    (hx : swap fuel { p with fee } z a limit = .ok r) (hy : swap fuel' { p with fee := fee' } z a limit = .ok r') :
    bought z r' = bought z r ∧ sold z r' ≤ sold z r ∧ r'.2.2.price = r.2.2.price := by
  obtain ⟨r0, r1, p'⟩ := r
  obtain ⟨u0, u1, q'⟩ := r'
  obtain ⟨_, h2, s, h3, h4, h5⟩ := swap_eq hx
  obtain ⟨_, k2, t, k3, k4, k5⟩ := swap_eq hy
  have i1 := inv_fee hi (fee := fee) (by omega) hf1
  have i2 := inv_fee hi hf0 (show fee' < 1000000 by omega)
  have hd : decide (0 ≤ a.toInt) = false := decide_eq_false (by omega)
  have h6 := init_sinv i1 (amount := a) (by omega) h2 hc
  have k6 := init_sinv i2 (amount := a) (by omega) k2 hc
  have h6' := h6
  have k6' := k6
  rw [hd] at h3 k3 h6' k6'
  have hv : View (initState { p with fee } z a) (initState { p with fee := fee' } z a) :=
    ⟨rfl, rfl, rfl, hi.ticks.inc, hi.ticks.inc, rfl, by show p.ticks.spacing ≠ 0; have := hi.sp_pos; have := hi.spacing; omega, fun _ => rfl⟩
  obtain ⟨i, o, f, f', ra, rb, q2, q3⟩ := loop_fee_out (p := { p with fee }) (p' := { p with fee := fee' }) hff hf0 hf1 fuel fuel'
    h6' k6' hv rfl h3 k3
  obtain ⟨_, h7, _⟩ := loop_run h6' (show 0 ≤ fee by omega) hf1 h3
  obtain ⟨_, k7, _⟩ := loop_run k6' hf0 (show fee' < 1000000 by omega) k3
  rw [← hd] at ra rb h7 k7
  obtain ⟨a1, a2⟩ := swap_amounts i1 h6 ra h7 (p' := p') h4
  obtain ⟨b1, b2⟩ := swap_amounts i2 k6 rb k7 (p' := q') k4
  rw [a1, a2, b1, b2]
  subst h5 k5
  exact ⟨rfl, by omega, q3.symm⟩

end Pool
end Uni
