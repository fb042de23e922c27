import Verif.Proofs.Limit
import Verif.Proofs.Split
/-! # Stopping a swap at a price limit and going on -/
namespace Uni
open U256 Spec TickData TickMath FullMath SwapMath LiquidityAmounts SqrtPriceMath
namespace Pool

/-! ### One step, and the same step cut at a point before its target -/

/-- A step of exact input cut at `A`, and the rest of it. -/
theorem step_cut_in {C A T L fee n i o f m j q g n' i' o' f' : Nat} {r a : Int} (hs : Spec.SwapStep C A L r fee n i o f)
    (hw : Spec.SwapStep A T L a fee m j q g) (hy : Spec.SwapStep C T L r fee n' i' o' f') (hr : 0 ≤ r) (ha : a = r - (i + f : Nat))
    (hin : Inside C A T) (hfee : fee < 1000000) (hC : 0 < C) (hA : 0 < A) (hT : 0 < T) (hn : n = A)
    (hbig : T ≤ C → L * 2 ^ 96 + r * (1000000 - fee : Nat) / 1000000 * C < 2 ^ 256) :
    (m = T → n' = T ∧ i' + f' ≤ i + f + (j + g) ∧ o + q ≤ o') ∧
    (m ≠ T → o + q ≤ o' ∧ Reach C m n') := by
  subst hn
  have hb2 := hw.between
  have hb3 := hy.between
  have ha0 : 0 ≤ a := by have := hs.budget hr; omega
  have hd := inside_dir hin
  have hd2 : decide (T ≤ n) = decide (n ≤ C) := by unfold Inside at hin; rw [decide_eq_decide]; omega
  have hR : Reach C n m := by unfold Reach; unfold Inside at hin; omega
  have hm0 : 0 < m := by omega
  have hn0 : 0 < n' := by omega
  have hinA := in_split (decide (n ≤ C)) (L := L) hC hA hm0 hR
  have hout := out_split (decide (n ≤ C)) (L := L) hC hA hm0 hR
  have e1 := hs.input
  have e2 := hw.input
  have e3 := hs.outputIn hr
  have e4 := hw.outputIn ha0
  rw [hd2] at e2 e4
  rw [← e1, ← e2] at hinA
  rw [← e3, ← e4] at hout
  have l1 : (i : Int) ≤ ((i + f : Nat) : Int) * (1000000 - fee : Nat) / 1000000 := by
    have hfm : ((1000000 - fee : Nat) : Int) + fee = 1000000 := by omega
    rw [Int.le_ediv_iff_mul_le (by norm_num)]
    have h1' : (i : Int) * fee ≤ f * (1000000 - fee : Nat) := by exact_mod_cast hs.feeRate
    push_cast
    generalize ((1000000 - fee : Nat) : Int) = M at *
    nlinarith
  have l2 := spend_le hw ha0 hfee
  have l3 := less_split (i + f : Nat) a (1000000 - fee : Nat)
  rw [show ((i + f : Nat) : Int) + a = r by omega] at l3
  constructor
  · intro hm
    subst hm
    have h1 : n' = m := hy.reachIn (by omega) (by rw [hd]; omega)
    have h2 := hy.input
    rw [h1, hd] at h2
    have h3 := hy.feeExact (Or.inr h1)
    have h4 := fee_split hfee (k := i') (by omega) hs.feeRate hw.feeRate
    have h5 := hy.outputIn (by omega)
    rw [h1, hd] at h5
    exact ⟨h1, by omega, by omega⟩
  · intro hm
    have hR' : Reach C m n' := by
      by_contra hc
      have hn' : n' ≠ T := by
        intro he
        subst he
        unfold Reach at hc
        unfold Inside at hin
        omega
      have := hy.farInStrict (by omega) hn' hbig m (by unfold Reach at hc; unfold Inside at hin; omega)
      rw [hd] at this
      omega
    refine ⟨?_, hR'⟩
    rw [hy.outputIn (by omega), hd]
    exact le_trans hout (out_mono _ hC hm0 hn0 hR')

/-- A step of exact output cut at `A`, and the rest of it. -/
theorem step_cut_out {C A T L fee n i o f m j q g n' i' o' f' : Nat} {r a : Int} (hs : Spec.SwapStep C A L r fee n i o f)
    (hw : Spec.SwapStep A T L a fee m j q g) (hy : Spec.SwapStep C T L r fee n' i' o' f') (hr : r < 0) (har : a = r + o) (ha : a < 0)
    (hin : Inside C A T) (hfee : fee < 1000000) (hC : 0 < C) (hA : 0 < A) (hT : 0 < T) (hn : n = A) :
    i' + f' ≤ i + f + (j + g) ∧
    ((n' = T ∧ m = T ∧ o + q ≤ o') ∨ ((o' : Int) = -r ∧ Reach C n' m)) := by
  subst hn
  have hb2 := hw.between
  have hb3 := hy.between
  have hd := inside_dir hin
  have hd2 : decide (T ≤ n) = decide (n ≤ C) := by unfold Inside at hin; rw [decide_eq_decide]; omega
  have hR : Reach C n m := by unfold Reach; unfold Inside at hin; omega
  have hRT := inside_reach hin
  have hm0 : 0 < m := by omega
  have hn0 : 0 < n' := by omega
  have hinA := in_split (decide (n ≤ C)) (L := L) hC hA hm0 hR
  have hout := out_split (decide (n ≤ C)) (L := L) hC hA hm0 hR
  have houtT := out_split (decide (n ≤ C)) (L := L) hC hA hT hRT
  have e1 := hs.input
  have e2 := hw.input
  have e3 := hs.outputOut hr
  have e4 := hw.outputOut ha
  rw [hd2] at e2 e4
  rw [← e1, ← e2] at hinA
  have e6 := hy.outputOut hr
  have e7 := hy.feeExact (Or.inl hr)
  have e8 := hy.input
  rw [hd] at e6 e8
  have fin : Reach C n' m → i' + f' ≤ i + f + (j + g) := by
    intro hx
    have h1 := in_mono (decide (n ≤ C)) (L := L) hC hn0 hm0 hx
    have h4 := fee_split hfee (k := i') (by omega) hs.feeRate hw.feeRate
    omega
  by_cases hc : (outAmount (decide (n ≤ C)) C T L : Int) ≤ -r
  · have h1 : n' = T := hy.reachOut hr (by rw [hd]; exact hc)
    have h2 : m = T := hw.reachOut ha (by rw [hd2]; omega)
    subst h2
    rw [h1] at e6
    refine ⟨fin (by rw [h1]; unfold Reach; omega), Or.inl ⟨h1, rfl, ?_⟩⟩
    omega
  · have h1 : (o' : Int) = -r := by
      by_cases hn' : n' = T
      · rw [hn'] at e6
        omega
      · exact hy.fullOut hr hn'
    have h2 : Reach C n' m := by
      by_contra hx
      have hm : m ≠ T := by
        intro he
        subst he
        unfold Reach at hx
        unfold Inside at hin
        omega
      have h3 := hw.fullOut ha hm
      have h4 := hy.farOut hr (by rw [hd]; omega) m (by unfold Reach at hx; unfold Inside at hin; omega)
      rw [hd] at h4
      omega
    exact ⟨fin h2, Or.inr ⟨h1, h2⟩⟩

/-! ### The loop -/

/-- A run from `s` with limit `a`, a run `w` that goes on where it ends with limit `b`, and the run from `s` with limit `b`. -/
theorem resume_loop {p p1 : Pool} {h : List Entry} {sp : Int} {z ein up : Bool} {a b : U256} (hfe : p.fee = p1.fee) (hf0 : 0 ≤ p.fee)
    (hf1 : p.fee < 1000000) (hz : z = true → b.toNat ≤ a.toNat) (hz' : z = false → a.toNat ≤ b.toNat) (fuel fuel' fuel2 : Nat)
    {s w s' t' w' : SwapState} (hs : SInv h sp z ein a s) (ht : SInv h sp z ein b s) (hws : SInv h sp z ein b w) (hv1 : View s' w)
    (hrem : w.remaining.toInt = s'.remaining.toInt) (hw0 : w.remaining.toInt ≠ 0) (hlim : w.price.toNat ≠ b.toNat)
    (hk : z = false → ¬ Skips sp w.tick) (hbig : z = true → ein = true → s.remaining.toInt < 2 ^ 95)
    (hg : Going up sp z s)
    (hx : swapLoop p z ein a fuel s = .ok s') (hy : swapLoop p z ein b fuel' s = .ok t')
    (hw : swapLoop p1 z ein b fuel2 w = .ok w') :
    ∃ i1 o1 f1 i2 o2 f2 i o f, Run p h sp z ein a s s' i1 o1 f1 ∧ Run p1 h sp z ein b w w' i2 o2 f2 ∧
      Run p h sp z ein b s t' i o f ∧ w'.remaining.toInt ≤ t'.remaining.toInt ∧
      (ein = true → o1 + o2 ≤ o ∧ Ahead up w'.price.toNat t'.price.toNat) ∧
      (ein = false → i + f ≤ i1 + f1 + (i2 + f2) ∧ Ahead up t'.price.toNat w'.price.toNat) := by
  have hf0' : 0 ≤ p1.fee := by rw [← hfe]; exact hf0
  have hf1' : p1.fee < 1000000 := by rw [← hfe]; exact hf1
  have hfee : p.fee.toNat < 1000000 := by omega
  induction fuel generalizing s fuel' with
  | zero => cases hx
  | succ k ih =>
    by_cases hr : running a s = true
    · unfold swapLoop at hx
      rw [if_pos hr] at hx
      obtain ⟨s1, hx1, hx2⟩ := bind_ok hx
      obtain ⟨hr0, hrl⟩ := running_iff.1 hr
      have hz2 : z = true → b.toNat ≤ a.toNat ∧ a.toNat < s.price.toNat := fun e => ⟨hz e, by have := (hs.down e).1; omega⟩
      have hz2' : z = false → a.toNat ≤ b.toNat ∧ s.price.toNat < a.toNat := fun e => ⟨hz' e, by have := (hs.up e).1; omega⟩
      have hr' : running b s = true := by
        rw [running_iff]
        refine ⟨hr0, ?_⟩
        cases z
        · have := hz2' rfl; omega
        · have := hz2 rfl; omega
      cases fuel' with
      | zero => cases hy
      | succ k' =>
        unfold swapLoop at hy
        rw [if_pos hr'] at hy
        obtain ⟨t1, hy1, hy2⟩ := bind_ok hy
        obtain ⟨x, T, hs1, hf, hR⟩ := step_inv hs hf0 hf1 hr hx1
        obtain ⟨y, T', ht1, hf', hR'⟩ := step_inv ht hf0 hf1 hr' hy1
        have run1 := Run.step Run.refl hs hr hf hR hs1
        have run1' := Run.step Run.refl ht hr' hf' hR' ht1
        have hg1 := run_going run1 hg
        have hg1' := run_going run1' hg
        have hC : 0 < s.price.toNat := by have := hs.inv.priceOk.lo; omega
        have hrem1 : z = true → ein = true → s1.remaining.toInt < 2 ^ 95 := by
          intro e1 e2
          have := hR.remIn e2
          have := hbig e1 e2
          omega
        -- equal steps: go on
        have go : x = y →
            ∃ i1 o1 f1 i2 o2 f2 i o f, Run p h sp z ein a s s' i1 o1 f1 ∧ Run p1 h sp z ein b w w' i2 o2 f2 ∧
              Run p h sp z ein b s t' i o f ∧ w'.remaining.toInt ≤ t'.remaining.toInt ∧
              (ein = true → o1 + o2 ≤ o ∧ Ahead up w'.price.toNat t'.price.toNat) ∧
              (ein = false → i + f ≤ i1 + f1 + (i2 + f2) ∧ Ahead up t'.price.toNat w'.price.toNat) := by
          intro he
          subst he
          have e := step_equal hx1 hy1 hf hf'
          subst e
          obtain ⟨i1, o1, f1, i2, o2, f2, i, o, f, ra, rb, rc, q1, q2, q3⟩ := ih k' hs1 ht1 hrem1 hg1.1 hx2 hy2
          refine ⟨_, _, _, _, _, _, _, _, _, Run.trans run1 ra, rb, Run.trans run1' rc, q1, ?_, ?_⟩
          · intro he
            have := q2 he
            exact ⟨by omega, this.2⟩
          · intro he
            have := q3 he
            exact ⟨by omega, this.2⟩
        obtain ⟨n, c, pn, a1, a2, a3⟩ := hf.tgt
        obtain ⟨n', c', pn', b1, b2, b3⟩ := hf'.tgt
        rw [a1] at b1
        cases b1
        rw [a2] at b2
        cases b2
        rcases targets_two (pn := pn) hz2 hz2' with hTT | ⟨hTa, hins⟩
        · apply go
          have u1 := hf.step
          have u2 := hf'.step
          rw [a3, hTT] at u1
          rw [b3, u1] at u2
          cases u2
          rfl
        · rw [← a3] at hTa
          subst hTa
          rw [← b3] at hins
          have hT0 : 0 < T.toNat := by
            cases z
            · have := (hf.up rfl).1; omega
            · have h2 := (hs.down rfl).2
              omega
          have hT0' : 0 < T'.toNat := by
            cases z
            · have := (hf'.up rfl).1; omega
            · have h1 := hf'.down rfl
              have h2 := (ht.down rfl).2
              omega
          by_cases hn : x.next.toNat = T.toNat
          · have hstop : s' = s1 := by
              apply loop_halt (Bool.eq_false_iff.2 ?_) hx2
              rw [Ne, running_iff, hf.price]
              exact fun hc => hc.2 hn
            subst hstop
            -- the second run starts with a step
            have hrw : running b w = true := running_iff.2 ⟨hw0, hlim⟩
            obtain ⟨k2, w1, hw1, hw2⟩ : ∃ k2 w1, swapStep p1 z ein b w = .ok w1 ∧ swapLoop p1 z ein b k2 w1 = .ok w' := by
              cases fuel2 with
              | zero => cases hw
              | succ k2 =>
                unfold swapLoop at hw
                rw [if_pos hrw] at hw
                obtain ⟨w1, hw1, hw2⟩ := bind_ok hw
                exact ⟨k2, w1, hw1, hw2⟩
            obtain ⟨v, T2, hws1, hfw, hRw⟩ := step_inv hws hf0' hf1' hrw hw1
            have run1w := Run.step Run.refl hws hrw hfw hRw hws1
            have hk' : z = false → ¬ Skips sp s'.tick := by rw [hv1.tick]; exact hk
            obtain ⟨m1, m2, m3⟩ := step_mid_off hs hs1 hx1 hf (by
              intro n'' b'' pn'' d1 d2
              rw [a1] at d1
              cases d1
              rw [a2] at d2
              cases d2
              rw [hn]
              unfold Inside at hins
              cases z
              · have h2 := pickTarget_up pn b
                rw [← b3] at h2
                have := hz2' rfl
                omega
              · have h2 := pickTarget_down pn b
                rw [← b3] at h2
                have := hz2 rfl
                omega) hk'
            have hti : SameTicks s.ticks w.ticks := by
              rw [← m2]
              exact hv1.ticks
            have hl : s.liquidity = w.liquidity := by rw [← m1, hv1.liquidity]
            obtain ⟨e1, e2⟩ := step_view_mid (h := h) (by rw [← hv1.ticks.next, m2, ← hv1.tick, m3]) hl hti hy1 hw1 hf' hfw
            subst e1
            have hpw : w.price = T := ext_toNat (by rw [← hv1.price, hf.price, hn])
            have hgw : Going up sp z w := hv1.going hg1.1
            have hvw : y.next.toNat = T'.toNat → v.next.toNat = T'.toNat → View t1 w1 := fun d1 d2 =>
              e2 (ext_toNat (by omega)) (by unfold Inside at hins; omega) (by rw [hpw]; unfold Inside at hins; omega)
            have sp3 := hfw.spec
            rw [hpw, ← hl, ← hfe] at sp3
            have g4 := hg1.2
            rw [hv1.price] at g4
            cases ein
            · -- exact output
              have hneg : s.remaining.toInt < 0 := by have := hs.remOut rfl; omega
              have hnegw : w.remaining.toInt < 0 := by have := hws.remOut rfl; omega
              have r1 := hR.remOut rfl
              have r2 := hR'.remOut rfl
              have r3 := hRw.remOut rfl
              obtain ⟨d1, d2⟩ := step_cut_out hf.spec sp3 hf'.spec hneg (by omega) hnegw hins hfee hC hT0 hT0' hn
              rcases d2 with ⟨d2, d3, d4⟩ | ⟨d2, d3⟩
              · have hvw' := hvw d2 d3
                obtain ⟨i, o, f, i2, o2, f2, rb, rc, q1, q2, q3, q4, q5⟩ := loop_mono (up := up) hfe hf0 hf1 k' k2 ht1 hws1 hvw'
                  (fun h => absurd h (by decide)) (fun _ => by omega) hg1'.1 (run_going run1w hgw).1 hy2 hw2
                refine ⟨_, _, _, _, _, _, _, _, _, run1, Run.trans run1w rc, Run.trans run1' rb, q5 rfl,
                  fun h => absurd h (by decide), fun _ => ⟨by omega, q3⟩⟩
              · have hstop' : t' = t1 := by
                  apply loop_halt (Bool.eq_false_iff.2 ?_) hy2
                  rw [Ne, running_iff]
                  exact fun hc => hc.1 (by omega)
                obtain ⟨⟨i2, o2, f2, rc⟩, hw', _⟩ := loop_run hws1 hf0' hf1' hw2
                refine ⟨_, _, _, _, _, _, _, _, _, run1, Run.trans run1w rc, hstop' ▸ run1', ?_, fun h => absurd h (by decide), fun _ => ⟨by omega, ?_⟩⟩
                · have := hw'.remOut rfl
                  rw [hstop']
                  omega
                · rw [hstop']
                  have g1 := (run_going run1w hgw).2
                  have g2 := (run_going rc (run_going run1w hgw).1).2
                  have g3 := hg1'.2
                  rw [hfw.price] at g1 g2
                  rw [hf'.price] at g3 ⊢
                  exact ahead_trans (ahead_reach g3 (ahead_trans g4 g1) d3) g2
            · -- exact input
              have hpos := hs.remIn rfl
              have hposw := hws.remIn rfl
              have r1 := hR.remIn rfl
              have r2 := hR'.remIn rfl
              have r3 := hRw.remIn rfl
              obtain ⟨d1, d2⟩ := step_cut_in hf.spec sp3 hf'.spec hpos (by omega) hins hfee hC hT0 hT0' hn (by
                intro hle
                have hzt : z = true := by
                  cases z
                  · have := hz2' rfl
                    unfold Inside at hins
                    omega
                  · rfl
                have := hbig hzt rfl
                exact big_ok hs.inv.liq_lt hs.inv.priceOk.hi (by omega) (by omega) (by omega))
              by_cases hmT : v.next.toNat = T'.toNat
              · obtain ⟨d3, d4, d5⟩ := d1 hmT
                have hvw' := hvw d3 hmT
                obtain ⟨i2, o2, f2, i, o, f, rc, rb, q1, q2, q3, q4, q5⟩ := loop_mono (up := up) hfe.symm hf0' hf1' k2 k' hws1 ht1 hvw'.symm
                  (fun _ => by omega) (fun h => absurd h (by decide)) (run_going run1w hgw).1 hg1'.1 hw2 hy2
                refine ⟨_, _, _, _, _, _, _, _, _, run1, Run.trans run1w rc, Run.trans run1' rb, q4 rfl,
                  fun _ => ⟨by omega, q3⟩, fun h => absurd h (by decide)⟩
              · obtain ⟨d3, d4⟩ := d2 hmT
                have r5 := hRw.done (by rw [hfw.price]; exact hmT)
                have hstop' : w' = w1 := by
                  apply loop_halt (Bool.eq_false_iff.2 ?_) hw2
                  rw [Ne, running_iff]
                  exact fun hc => hc.1 r5
                obtain ⟨⟨i, o, f, rb⟩, ht', _⟩ := loop_run ht1 hf0 hf1 hy2
                refine ⟨_, _, _, _, _, _, _, _, _, run1, hstop' ▸ run1w, Run.trans run1' rb, ?_, fun _ => ⟨by omega, ?_⟩, fun h => absurd h (by decide)⟩
                · rw [hstop', r5]
                  exact ht'.remIn rfl
                · rw [hstop']
                  have g1 := (run_going run1w hgw).2
                  have g2 := (run_going rb hg1'.1).2
                  have g3 := hg1'.2
                  rw [hfw.price] at g1 ⊢
                  rw [hf'.price] at g2 g3
                  exact ahead_trans (ahead_reach (ahead_trans g4 g1) g3 d4) g2
          · apply go
            have hn' := far_short hf.spec hf'.spec hins hfee hT0 hT0' hC hn
            refine step_two ?_ hf.step hf'.step (fun hc => hn (by rw [hc])) (fun hc => hn' (by rw [hc]))
            rw [cmp_dir, cmp_dir, inside_dir hins]
    · have hr' := Bool.eq_false_iff.2 hr
      have hstop := loop_halt hr' hx
      subst hstop
      cases ein
      · obtain ⟨i, o, f, i2, o2, f2, rb, rc, q1, q2, q3, q4, q5⟩ := loop_mono (up := up) hfe hf0 hf1 fuel' fuel2 ht hws hv1
          (fun h => absurd h (by decide)) (fun _ => by omega) hg (hv1.going hg) hy hw
        exact ⟨0, 0, 0, _, _, _, _, _, _, Run.refl, rc, rb, q5 rfl, fun h => absurd h (by decide), fun _ => ⟨by omega, q3⟩⟩
      · obtain ⟨i2, o2, f2, i, o, f, rc, rb, q1, q2, q3, q4, q5⟩ := loop_mono (up := up) hfe.symm hf0' hf1' fuel2 fuel' hws ht hv1.symm
          (fun _ => by omega) (fun h => absurd h (by decide)) (hv1.going hg) hg hw hy
        exact ⟨0, 0, 0, _, _, _, _, _, _, Run.refl, rc, rb, q4 rfl, fun _ => ⟨by omega, q3⟩, fun h => absurd h (by decide)⟩

/-- A swap that stops at a limit and goes on for the rest with a limit beyond, and the swap with the limit beyond. -/
theorem swap_resume {h : List Entry} {p : Pool} (hi : Inv h p) {fuel1 fuel2 fuel : Nat} {z : Bool} {a a2 l l' : U256}
    {r1 r2 r : U256 × U256 × Pool} (hc : z = true → ClearAbove p.spacing p.tick h) (hl : Beyond z (stopAt z l) (stopAt z l'))
    (hsg : (0 < a.toInt ∧ a2.toInt = a.toInt - sold z r1 ∧ 0 < a2.toInt ∧ a.toInt < 2 ^ 160 ∧ (z = true → a.toInt < 2 ^ 95)) ∨
      (a.toInt < 0 ∧ a2.toInt = a.toInt - bought z r1 ∧ a2.toInt < 0))
    (hk : z = false → ¬ Skips p.spacing r1.2.2.tick)
    (hx1 : p.swap fuel1 z a l = .ok r1) (hx2 : r1.2.2.swap fuel2 z a2 l' = .ok r2) (hx : p.swap fuel z a l' = .ok r) :
    sold z r ≤ sold z r1 + sold z r2 ∧ bought z r ≤ bought z r1 + bought z r2 ∧
      ∃ up, (0 < a.toInt → Ahead up p.price.toNat r2.2.2.price.toNat ∧ Ahead up r2.2.2.price.toNat r.2.2.price.toNat) ∧
        (a.toInt < 0 → Ahead up p.price.toNat r.2.2.price.toNat ∧ Ahead up r.2.2.price.toNat r2.2.2.price.toNat) := by
  obtain ⟨u0, u1, p1⟩ := r1
  obtain ⟨v0, v1, p2⟩ := r2
  obtain ⟨w0, w1, p3⟩ := r
  dsimp only at hk hx2
  obtain ⟨_, h2, s, h3, h4, h5⟩ := swap_eq hx1
  obtain ⟨_, l2, w, l3, l4, l5⟩ := swap_eq hx2
  obtain ⟨_, k2, t, k3, k4, k5⟩ := swap_eq hx
  have hi1 := swap_inv hi (by omega) hc hx1
  have hsp1 : p1.spacing = p.spacing := by rw [h5]; rfl
  have hfe1 : p1.fee = p.fee := by rw [h5]; rfl
  have hsame2 : decide (0 ≤ a2.toInt) = decide (0 ≤ a.toInt) := by rw [decide_eq_decide]; omega
  have h6 := init_sinv hi (amount := a) (by omega) h2 hc
  have k6 := init_sinv hi (amount := a) (by omega) k2 hc
  obtain ⟨⟨j1, j2, j3, j4⟩, h7, h8⟩ := loop_run h6 hi.fee0 hi.fee1 h3
  obtain ⟨c3, c4⟩ := swap_amounts hi h6 j4 h7 (p' := p1) h4
  have m1 := run_rem j4
  change (_ → s.remaining.toInt = a.toInt - _) ∧ (_ → s.remaining.toInt = a.toInt + _) at m1
  have hrest : a2.toInt = s.remaining.toInt ∧ a2.toInt < 2 ^ 160 := by
    rcases hsg with ⟨g1, g2, g3, g4, _⟩ | ⟨g1, g2, g3⟩
    · have := m1.1 (decide_eq_true (by omega))
      omega
    · have := m1.2 (decide_eq_false (by omega))
      omega
  have l6 := init_sinv hi1 (amount := a2) hrest.2 l2 (by
    intro hz
    rw [hsp1, h5]
    exact h7.clear hz)
  rw [hsame2, hsp1] at l6
  rw [hsame2] at l3
  obtain ⟨_, l7, _⟩ := loop_run l6 (by rw [hfe1]; exact hi.fee0) (by rw [hfe1]; exact hi.fee1) l3
  obtain ⟨_, k7, _⟩ := loop_run k6 hi.fee0 hi.fee1 k3
  obtain ⟨up, hg⟩ : ∃ up, Going up p.spacing z (initState p z a) := by
    cases z
    · exact ⟨true, Or.inl rfl⟩
    · by_cases hgd : Good p.spacing p.tick
      · exact ⟨false, rfl, Or.inl hgd⟩
      · exact ⟨true, Or.inr ⟨rfl, hgd⟩⟩
  have refl : ∀ {q : Pool}, Inv h q → SameTicks q.ticks q.ticks := fun hq =>
    ⟨hq.ticks.inc, hq.ticks.inc, rfl, by have := hq.sp_pos; have := hq.spacing; omega, fun _ => rfl⟩
  have hv1 : View s (initState p1 z a2) := by
    have e1 : s.price = p1.price := by rw [h5]; rfl
    have e2 : s.tick = p1.tick := by rw [h5]; rfl
    have e3 : s.liquidity = p1.liquidity := by rw [h5]; rfl
    have e4 : s.ticks = p1.ticks := by rw [h5]; rfl
    exact ⟨e1, e2, e3, by rw [e4]; exact refl hi1⟩
  have hlim : (initState p1 z a2).price.toNat ≠ (effLimit z l').toNat := by
    obtain ⟨q1, q2⟩ := (limitOk_iff p1 z _).1 l2
    change p1.price.toNat ≠ _
    cases z
    · have := q2 rfl; omega
    · have := q1 rfl; omega
  unfold Beyond at hl
  rw [← stopAt_eq, ← stopAt_eq] at hl
  have hz : z = true → (effLimit z l').toNat ≤ (effLimit z l).toNat := fun e => by
    subst e
    rw [if_pos rfl] at hl
    exact hl
  have hz' : z = false → (effLimit z l).toNat ≤ (effLimit z l').toNat := fun e => by
    subst e
    rw [if_neg Bool.false_ne_true] at hl
    exact hl
  obtain ⟨i1, o1, f1, i2, o2, f2, i, o, f, ra, rb, rc, q1, q2, q3⟩ := resume_loop (up := up) (p1 := p1) hfe1.symm hi.fee0 hi.fee1 hz hz'
    fuel1 fuel fuel2 h6 k6 l6 hv1 hrest.1 (by show a2.toInt ≠ 0; omega) hlim hk
    (by
      intro hz he
      have := of_decide_eq_true he
      show a.toInt < _
      rcases hsg with hsg | hsg
      · exact hsg.2.2.2.2 hz
      · omega) hg h3 k3 l3
  have m1 := run_rem ra
  have m2 := run_rem rb
  have m3 := run_rem rc
  change (_ → s.remaining.toInt = a.toInt - _) ∧ (_ → s.remaining.toInt = a.toInt + _) at m1
  change (_ → w.remaining.toInt = a2.toInt - _) ∧ (_ → w.remaining.toInt = a2.toInt + _) at m2
  change (_ → t.remaining.toInt = a.toInt - _) ∧ (_ → t.remaining.toInt = a.toInt + _) at m3
  have g1 := run_going ra hg
  have g2 := (run_going rb (hv1.going g1.1)).2
  rw [← hv1.price] at g2
  have hup1 := ahead_trans g1.2 g2
  have hup2 := (run_going rc hg).2
  obtain ⟨c1, c2⟩ := swap_amounts hi k6 rc k7 (p' := p3) k4
  obtain ⟨c3, c4⟩ := swap_amounts hi h6 ra h7 (p' := p1) h4
  have rb' := rb
  rw [← hsame2, ← hsp1] at l6 rb' l7
  obtain ⟨c5, c6⟩ := swap_amounts hi1 l6 rb' l7 (p' := p2) l4
  rw [c1, c2, c3, c4, c5, c6]
  have hp2 : p2.price = w.price := by rw [l5]; rfl
  have hp3 : p3.price = t.price := by rw [k5]; rfl
  dsimp only
  rw [hp2, hp3]
  rcases hsg with hsg | hsg
  · have he : decide (0 ≤ a.toInt) = true := decide_eq_true (by omega)
    have d1 := m1.1 he
    have d2 := m2.1 he
    have d3 := m3.1 he
    have d4 := q2 he
    exact ⟨by omega, by omega, up, fun _ => ⟨hup1, d4.2⟩, fun h => by omega⟩
  · have he : decide (0 ≤ a.toInt) = false := decide_eq_false (by omega)
    have d1 := m1.2 he
    have d2 := m2.2 he
    have d3 := m3.2 he
    have d4 := q3 he
    exact ⟨by omega, by omega, up, fun h => by omega, fun _ => ⟨hup2, d4.2⟩⟩

end Pool
end Uni
