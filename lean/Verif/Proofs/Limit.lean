import Verif.Spec.Limit
import Verif.Proofs.Sale
/-! # What a price limit does -/
namespace Uni
open U256 Spec TickData TickMath FullMath SwapMath LiquidityAmounts SqrtPriceMath
namespace Pool

/-! ### One step with two targets -/

def shortPrice (c L r : U256) (fee : Int) (z ein : Bool) : Go U256 :=
  if ein then do
    let lessFee ← div (mul r (sub maxFee (ofGoInt fee))) maxFee
    getNextSqrtPriceFromInput c L lessFee z
  else getNextSqrtPriceFromOutput c L (neg r) z

/-- A step that does not reach its target, without the target. -/
def shortStep (c L r : U256) (fee : Int) (z ein : Bool) : Go Step := do
  let next ← shortPrice c L r fee z ein
  let io ← stepAmounts c L next zero zero z ein false
  let amountOut := if !ein && decide (cmp io.2 (neg r) > 0) then neg r else io.2
  if ein then return ⟨next, io.1, amountOut, sub r io.1⟩
  else do
    let f ← mulDivRoundingUp io.1 (ofGoInt fee) (sub maxFee (ofGoInt fee))
    return ⟨next, io.1, amountOut, f⟩

theorem amounts_short (c L next i o : U256) (z ein : Bool) : stepAmounts c L next i o z ein false = stepAmounts c L next zero zero z ein false := by
  unfold stepAmounts reassign
  rfl

theorem step_short {c t L r : U256} {fee : Int} {x : Step} (hx : computeSwapStep c t L r fee = .ok x) (hn : x.next ≠ t) :
    shortStep c L r fee (decide (cmp c t ≥ 0)) (decide (sign r ≥ 0)) = .ok x := by
  unfold computeSwapStep at hx
  dsimp only at hx
  obtain ⟨u, u1, hx⟩ := bind_ok hx
  have e : x.next = u.1 := by
    obtain ⟨w, w1, hx⟩ := bind_ok hx
    split at hx
    · cases hx; rfl
    · obtain ⟨g, g1, hx⟩ := bind_ok hx
      cases hx; rfl
  rw [e] at hn
  have hm : decide (cmp t u.1 = 0) = false := decide_eq_false fun hc => hn (ext_toNat ((cmp_eq0 _ _).1 hc).symm)
  have hm2 : decide (cmp u.1 t ≠ 0) = true := decide_eq_true fun hc => hn (ext_toNat ((cmp_eq0 _ _).1 hc))
  rw [hm, hm2, amounts_short, Bool.and_true] at hx
  unfold shortStep
  generalize decide (cmp c t ≥ 0) = z at *
  generalize decide (sign r ≥ 0) = ein at *
  have hnext : shortPrice c L r fee z ein = .ok u.1 := by
    unfold stepPrice at u1
    unfold shortPrice
    cases ein
    · rw [if_neg (by decide)] at u1 ⊢
      obtain ⟨o, _, u1⟩ := bind_ok u1
      split at u1
      · cases u1; exact absurd rfl hn
      · obtain ⟨n, n1, u1⟩ := bind_ok u1
        cases u1
        exact n1
    · rw [if_pos rfl] at u1 ⊢
      obtain ⟨l, l1, u1⟩ := bind_ok u1
      obtain ⟨o, _, u1⟩ := bind_ok u1
      rw [l1, Except_bind_ok]
      split at u1
      · cases u1; exact absurd rfl hn
      · obtain ⟨n, n1, u1⟩ := bind_ok u1
        cases u1
        exact n1
  rw [hnext, Except_bind_ok]
  exact hx

/-- Two steps in the same direction that do not reach their targets are the same. -/
theorem step_two {c t t' L r : U256} {fee : Int} {x y : Step} (hd : decide (cmp c t ≥ 0) = decide (cmp c t' ≥ 0))
    (hx : computeSwapStep c t L r fee = .ok x) (hy : computeSwapStep c t' L r fee = .ok y) (nx : x.next ≠ t) (ny : y.next ≠ t') : x = y := by
  have h1 := step_short hx nx
  have h2 := step_short hy ny
  rw [hd, h2] at h1
  cases h1
  rfl

theorem spent_fits {C T L fee n i o f : Nat} {r : Int} (hs : Spec.SwapStep C T L r fee n i o f) (hr : 0 ≤ r) (hfee : fee < 1000000) :
    (i : Int) ≤ r * (1000000 - fee : Nat) / 1000000 := by
  have hfm : ((1000000 - fee : Nat) : Int) + fee = 1000000 := by omega
  rw [Int.le_ediv_iff_mul_le (by norm_num)]
  have h1 := hs.feeRate
  have h2 := hs.budget hr
  have h1' : (i : Int) * fee ≤ f * (1000000 - fee : Nat) := by exact_mod_cast h1
  push_cast at h2
  generalize ((1000000 - fee : Nat) : Int) = m at *
  nlinarith

/-- `T` lies strictly between `C` and `T'`. -/
def Inside (C T T' : Nat) : Prop := (C < T ∧ T < T') ∨ (T' < T ∧ T < C)

theorem inside_dir {C T T' : Nat} (h : Inside C T T') : decide (T' ≤ C) = decide (T ≤ C) := by
  unfold Inside at h
  rw [decide_eq_decide]
  omega
theorem inside_reach {C T T' : Nat} (h : Inside C T T') : Reach C T T' := by
  unfold Inside at h
  unfold Reach
  omega

/-- If the nearer target is not reached, neither is the farther one. -/
theorem far_short {C T T' L fee n i o f n' i' o' f' : Nat} {r : Int} (hs : Spec.SwapStep C T L r fee n i o f)
    (hs' : Spec.SwapStep C T' L r fee n' i' o' f') (hin : Inside C T T') (hfee : fee < 1000000) (hT : 0 < T) (hT' : 0 < T') (hC : 0 < C) (hn : n ≠ T) : n' ≠ T' := by
  intro he
  have hd := inside_dir hin
  have hrc := inside_reach hin
  by_cases hr : 0 ≤ r
  · apply hn
    apply hs.reachIn hr
    have h1 := spent_fits hs' hr hfee
    rw [hs'.input, he, hd] at h1
    have h2 := in_mono (decide (T ≤ C)) (L := L) hC hT hT' hrc
    omega
  · have h1 : ¬ (outAmount (decide (T ≤ C)) C T L : Int) ≤ -r := fun hc => hn (hs.reachOut (by omega) hc)
    have h2 := out_mono (decide (T ≤ C)) (L := L) hC hT hT' hrc
    have h3 := hs'.farOut (by omega) (by rw [hd]; omega) T (by rw [he]; unfold Inside at hin; omega)
    rw [hd] at h3
    omega

/-- Exact input: the step that stops at the nearer target takes and pays no more and moves no further. -/
theorem cut_in {C T T' L fee n i o f n' i' o' f' : Nat} {r : Int} (hs : Spec.SwapStep C T L r fee n i o f)
    (hs' : Spec.SwapStep C T' L r fee n' i' o' f') (hin : Inside C T T') (hfee : fee < 1000000) (hT : 0 < T) (hT' : 0 < T') (hC : 0 < C)
    (hr : 0 ≤ r) (hn : n = T) (hbig : T ≤ C → L * 2 ^ 96 + r * (1000000 - fee : Nat) / 1000000 * C < 2 ^ 256) :
    i + f ≤ i' + f' ∧ o ≤ o' ∧ Reach C n n' := by
  have hd := inside_dir hin
  have hrc := inside_reach hin
  have hb := hs'.between
  have hreach : Reach C n n' := by
    rw [hn]
    by_cases hn' : n' = T'
    · rw [hn']; exact hrc
    · by_contra hc
      have h1 := hs'.farInStrict hr hn' (fun h => hbig (by unfold Inside at hin; omega)) T (by unfold Reach at hc; unfold Inside at hin; omega)
      have h2 := spent_fits hs hr hfee
      rw [hs.input, hn] at h2
      rw [hd] at h1
      omega
  have hn0 : 0 < n' := by unfold Inside at hin; omega
  refine ⟨?_, ?_, hreach⟩
  · by_cases hn' : n' = T'
    · have h1 : i ≤ i' := by
        rw [hs.input, hs'.input, hd]
        exact in_mono _ hC (by omega) hn0 hreach
      have h2 : f ≤ f' := by
        rw [hs.feeExact (Or.inr hn), hs'.feeExact (Or.inr hn')]
        exact ceilDiv_frac_mono (by omega) (by omega) (Nat.mul_le_mul_right _ (Nat.mul_le_mul_right _ h1))
      omega
    · have h1 := hs'.fullIn hr hn'
      have h2 := hs.budget hr
      omega
  · rw [hs.outputIn hr, hs'.outputIn hr, hd]
    exact out_mono _ hC (by omega) hn0 hreach

/-- Exact output: likewise, unless both deliver everything. -/
theorem cut_out {C T T' L fee n i o f n' i' o' f' : Nat} {r : Int} (hs : Spec.SwapStep C T L r fee n i o f)
    (hs' : Spec.SwapStep C T' L r fee n' i' o' f') (hin : Inside C T T') (hfee : fee < 1000000) (hT : 0 < T) (hT' : 0 < T') (hC : 0 < C)
    (hr : r < 0) (hn : n = T) :
    o ≤ o' ∧ ((i + f ≤ i' + f' ∧ Reach C n n') ∨ ((o : Int) = -r ∧ (o' : Int) = -r)) := by
  have hd := inside_dir hin
  have hrc := inside_reach hin
  have hb := hs'.between
  have hn0 : 0 < n' := by unfold Inside at hin; omega
  have go : Reach C n n' → o ≤ o' ∧ i + f ≤ i' + f' := by
    intro hreach
    have h1 : i ≤ i' := by
      rw [hs.input, hs'.input, hd]
      exact in_mono _ hC (by omega) hn0 hreach
    have h2 : f ≤ f' := by
      rw [hs.feeExact (Or.inl hr), hs'.feeExact (Or.inl hr)]
      exact ceilDiv_frac_mono (by omega) (by omega) (Nat.mul_le_mul_right _ (Nat.mul_le_mul_right _ h1))
    have h3 := out_mono (decide (T ≤ C)) (L := L) hC (by omega) hn0 hreach
    have h4 := hs.outputOut hr
    have h5 := hs'.outputOut hr
    rw [hd] at h5
    omega
  by_cases hreach : Reach C n n'
  · exact ⟨(go hreach).1, Or.inl ⟨(go hreach).2, hreach⟩⟩
  · have hn' : n' ≠ T' := fun hc => hreach (by rw [hn, hc]; exact hrc)
    have h1 := hs'.fullOut hr hn'
    have h2 := hs'.outputOut hr
    have h3 := hs.outputOut hr
    have h4 := out_mono (decide (T ≤ C)) (L := L) hC hn0 (show 0 < n by omega)
      (show Reach C n' n by unfold Reach at *; unfold Inside at hin; omega)
    rw [hd] at h2
    omega

/-! ### The loop with two limits -/

theorem targets_two {z : Bool} {pn a b : U256} {C : Nat} (hz : z = true → b.toNat ≤ a.toNat ∧ a.toNat < C)
    (hz' : z = false → a.toNat ≤ b.toNat ∧ C < a.toNat) :
    pickTarget z pn a = pickTarget z pn b ∨ (pickTarget z pn a = a ∧ Inside C a.toNat (pickTarget z pn b).toNat) := by
  unfold pickTarget Inside
  cases z
  · have := hz' rfl
    rw [if_neg Bool.false_ne_true, if_neg Bool.false_ne_true]
    by_cases h1 : cmp pn a > 0
    · rw [if_pos h1]
      rw [cmp_gt0] at h1
      by_cases h2 : cmp pn b > 0
      · rw [if_pos h2]
        by_cases h3 : a.toNat = b.toNat
        · exact Or.inl (ext_toNat h3)
        · exact Or.inr ⟨rfl, by omega⟩
      · rw [if_neg h2]
        exact Or.inr ⟨rfl, by omega⟩
    · rw [if_neg h1, if_neg]
      · exact Or.inl rfl
      · rw [cmp_gt0] at *; omega
  · have := hz rfl
    rw [if_pos rfl, if_pos rfl]
    by_cases h1 : cmp pn a < 0
    · rw [if_pos h1]
      rw [cmp_lt0] at h1
      by_cases h2 : cmp pn b < 0
      · rw [if_pos h2]
        by_cases h3 : a.toNat = b.toNat
        · exact Or.inl (ext_toNat h3)
        · exact Or.inr ⟨rfl, by omega⟩
      · rw [if_neg h2]
        exact Or.inr ⟨rfl, by omega⟩
    · rw [if_neg h1, if_neg]
      · exact Or.inl rfl
      · rw [cmp_lt0] at *; omega

/-- Two iterations from the same state that make the same step end in the same state. -/
theorem step_equal {p : Pool} {h : List Entry} {z ein : Bool} {a b : U256} {s s1 t1 : SwapState} {x : Step} {T T' : U256}
    (hx : swapStep p z ein a s = .ok s1) (hy : swapStep p z ein b s = .ok t1)
    (hf : StepFacts p h z ein a s s1 x T) (hf' : StepFacts p h z ein b s t1 x T') : t1 = s1 := by
  obtain ⟨n, c, pn, a1, a2, a3⟩ := hf.tgt
  obtain ⟨n', c', pn', b1, b2, b3⟩ := hf'.tgt
  obtain ⟨m, d, q, u, g, c1, c2, c3, c4, c5⟩ := swapStep_inv hx
  obtain ⟨m', d', q', u', g', d1, d2, d3, d4, d5⟩ := swapStep_inv hy
  rw [a1] at b1 c1 d1
  cases b1
  cases c1
  cases d1
  rw [a2] at b2 c2 d2
  cases b2
  cases c2
  cases d2
  rw [← a3, hf.step] at c3
  cases c3
  rw [← b3, hf'.step] at d3
  cases d3
  rw [c4] at d4
  cases d4
  rw [c5] at d5
  cases d5
  rfl

theorem cmp_dir {c t : U256} : decide (cmp c t ≥ 0) = decide (t.toNat ≤ c.toNat) := by
  rw [decide_eq_decide, ge_iff_le, ← not_lt, cmp_lt0, not_lt]

/-- A run with a nearer limit `a` and one with a limit `b` at least as far. -/
theorem loop_limit {p : Pool} {h : List Entry} {sp : Int} {z ein up : Bool} {a b : U256} (hf0 : 0 ≤ p.fee) (hf1 : p.fee < 1000000)
    (hz : z = true → b.toNat ≤ a.toNat) (hz' : z = false → a.toNat ≤ b.toNat) (fuel fuel' : Nat) {s s' t' : SwapState}
    (hbig : z = true → ein = true → s.remaining.toInt < 2 ^ 95)
    (hs : SInv h sp z ein a s) (ht : SInv h sp z ein b s) (hg : Going up sp z s)
    (hx : swapLoop p z ein a fuel s = .ok s') (hy : swapLoop p z ein b fuel' s = .ok t') :
    (s'.price.toNat ≠ a.toNat → t' = s') ∧
    ∃ i o f i' o' f', Run p h sp z ein a s s' i o f ∧ Run p h sp z ein b s t' i' o' f' ∧ o ≤ o' ∧
      ((i + f ≤ i' + f' ∧ Ahead up s'.price.toNat t'.price.toNat) ∨
        (ein = false ∧ s'.remaining.toInt = 0 ∧ t'.remaining.toInt = 0)) := by
  induction fuel generalizing s fuel' with
  | zero => cases hx
  | succ k ih =>
    by_cases hr : running a s = true
    · unfold swapLoop at hx
      rw [if_pos hr] at hx
      obtain ⟨s1, hx1, hx2⟩ := bind_ok hx
      obtain ⟨hr0, hrl⟩ := running_iff.1 hr
      have hz2 : z = true → b.toNat ≤ a.toNat ∧ a.toNat < s.price.toNat := fun e => ⟨hz e, by have := (hs.down e).1; omega⟩
      have hz2' : z = false → a.toNat ≤ b.toNat ∧ s.price.toNat < a.toNat := fun e => ⟨hz' e, by have := (hs.up e).1; omega⟩
      have hr' : running b s = true := by
        rw [running_iff]
        refine ⟨hr0, ?_⟩
        cases z
        · have := hz2' rfl; omega
        · have := hz2 rfl; omega
      cases fuel' with
      | zero => cases hy
      | succ k' =>
        unfold swapLoop at hy
        rw [if_pos hr'] at hy
        obtain ⟨t1, hy1, hy2⟩ := bind_ok hy
        obtain ⟨x, T, hs1, hf, hR⟩ := step_inv hs hf0 hf1 hr hx1
        obtain ⟨y, T', ht1, hf', hR'⟩ := step_inv ht hf0 hf1 hr' hy1
        have run1 := Run.step Run.refl hs hr hf hR hs1
        have run1' := Run.step Run.refl ht hr' hf' hR' ht1
        have hC : 0 < s.price.toNat := by have := hs.inv.priceOk.lo; omega
        have hfee : p.fee.toNat < 1000000 := by omega
        have hrem : z = true → ein = true → s1.remaining.toInt < 2 ^ 95 := by
          intro e1 e2
          have := hR.remIn e2
          have := hbig e1 e2
          omega
        -- equal steps: go on
        have go : x = y → (s'.price.toNat ≠ a.toNat → t' = s') ∧
            ∃ i o f i' o' f', Run p h sp z ein a s s' i o f ∧ Run p h sp z ein b s t' i' o' f' ∧ o ≤ o' ∧
              ((i + f ≤ i' + f' ∧ Ahead up s'.price.toNat t'.price.toNat) ∨
                (ein = false ∧ s'.remaining.toInt = 0 ∧ t'.remaining.toInt = 0)) := by
          intro he
          subst he
          have e := step_equal hx1 hy1 hf hf'
          subst e
          obtain ⟨q0, i, o, f, i', o', f', ra, rb, q1, q2⟩ := ih k' hrem hs1 ht1 (run_going run1 hg).1 hx2 hy2
          refine ⟨q0, _, _, _, _, _, _, Run.trans run1 ra, Run.trans run1' rb, by omega, ?_⟩
          rcases q2 with ⟨q2, q3⟩ | q2
          · exact Or.inl ⟨by omega, q3⟩
          · exact Or.inr q2
        obtain ⟨n, c, pn, a1, a2, a3⟩ := hf.tgt
        obtain ⟨n', c', pn', b1, b2, b3⟩ := hf'.tgt
        rw [a1] at b1
        cases b1
        rw [a2] at b2
        cases b2
        rcases targets_two (pn := pn) hz2 hz2' with hTT | ⟨hTa, hins⟩
        · apply go
          have u1 := hf.step
          have u2 := hf'.step
          rw [a3, hTT] at u1
          rw [b3, u1] at u2
          cases u2
          rfl
        · rw [← a3] at hTa
          subst hTa
          rw [← b3] at hins
          have hT0 : 0 < T.toNat := by
            cases z
            · have := (hf.up rfl).1; omega
            · have h2 := (hs.down rfl).2
              omega
          have hT0' : 0 < T'.toNat := by
            cases z
            · have := (hf'.up rfl).1; omega
            · have h1 := hf'.down rfl
              have h2 := (ht.down rfl).2
              omega
          by_cases hn : x.next.toNat = T.toNat
          · have hstop : s' = s1 := by
              apply loop_halt (Bool.eq_false_iff.2 ?_) hx2
              rw [Ne, running_iff, hf.price]
              exact fun hc => hc.2 hn
            subst hstop
            obtain ⟨⟨i', o', f', rb⟩, ht', _⟩ := loop_run ht1 hf0 hf1 hy2
            refine ⟨fun hc => absurd (by rw [hf.price]; exact hn) hc, _, _, _, _, _, _, run1, Run.trans run1' rb, ?_⟩
            have ahead : Reach s.price.toNat x.next.toNat y.next.toNat → Ahead up s'.price.toNat t'.price.toNat := by
              intro hreach
              have g1 := (run_going run1 hg).2
              have g2 := (run_going rb (run_going run1' hg).1).2
              have g3 := (run_going run1' hg).2
              rw [hf.price] at g1 ⊢
              rw [hf'.price] at g2 g3
              unfold Ahead Reach at *
              cases up
              · rw [if_neg (by decide)] at g1 g2 g3 ⊢; omega
              · rw [if_pos rfl] at g1 g2 g3 ⊢; omega
            cases ein
            · have hneg : s.remaining.toInt < 0 := by have := hs.remOut rfl; omega
              obtain ⟨e1, e2⟩ := cut_out hf.spec hf'.spec hins hfee hT0 hT0' hC hneg hn
              refine ⟨by omega, ?_⟩
              rcases e2 with ⟨e2, e3⟩ | ⟨e2, e3⟩
              · exact Or.inl ⟨by omega, ahead e3⟩
              · have w1 := hR.remOut rfl
                have w2 := hR'.remOut rfl
                have hstop : t' = t1 := by
                  apply loop_halt (Bool.eq_false_iff.2 ?_) hy2
                  rw [Ne, running_iff]
                  exact fun hc => hc.1 (by omega)
                subst hstop
                exact Or.inr ⟨rfl, by omega, by omega⟩
            · have hpos := hs.remIn rfl
              obtain ⟨e1, e2, e3⟩ := cut_in hf.spec hf'.spec hins hfee hT0 hT0' hC hpos hn (by
                intro hc
                have hzt : z = true := by
                  cases z
                  · have := hz2' rfl; omega
                  · rfl
                have h1 := hbig hzt rfl
                have h2 : s.price.toNat < 2 ^ 160 := by have := hs.inv.priceOk.hi; omega
                have h3 : s.liquidity.toNat < 2 ^ 128 := by have := hs.inv.liq_lt; omega
                have h4 : s.remaining.toInt * (1000000 - p.fee.toNat : Nat) / 1000000 ≤ s.remaining.toInt := by
                  apply Int.ediv_le_of_le_mul (by norm_num)
                  exact Int.mul_le_mul_of_nonneg_left (by omega) hpos
                generalize s.remaining.toInt * (1000000 - p.fee.toNat : Nat) / 1000000 = R at *
                have h5 : R * s.price.toNat ≤ 2 ^ 95 * 2 ^ 160 := by
                  apply Int.mul_le_mul <;> omega
                omega)
              exact ⟨by omega, Or.inl ⟨by omega, ahead e3⟩⟩
          · apply go
            have hn' := far_short hf.spec hf'.spec hins hfee hT0 hT0' hC hn
            refine step_two ?_ hf.step hf'.step (fun hc => hn (by rw [hc])) (fun hc => hn' (by rw [hc]))
            rw [cmp_dir, cmp_dir, inside_dir hins]
    · have hr' := Bool.eq_false_iff.2 hr
      have hstop := loop_halt hr' hx
      subst hstop
      obtain ⟨⟨i', o', f', rb⟩, ht', _⟩ := loop_run ht hf0 hf1 hy
      refine ⟨fun hc => ?_, 0, 0, 0, i', o', f', Run.refl, rb, by omega, Or.inl ⟨by omega, (run_going rb hg).2⟩⟩
      rcases not_running hr' with h0 | h0
      · apply loop_halt (Bool.eq_false_iff.2 ?_) hy
        rw [Ne, running_iff]
        exact fun hc => hc.1 h0
      · exact absurd h0 hc

theorem stopAt_eq (z : Bool) (limit : U256) : (effLimit z limit).toNat = stopAt z limit := by
  unfold effLimit stopAt
  by_cases h : limit.isZero = true
  · rw [if_pos h, if_pos ((isZero_iff _).1 h)]
    cases z <;> decide +kernel
  · rw [if_neg h, if_neg (fun hc => h ((isZero_iff _).2 hc))]

/-- Two swaps for the same amount on the same pool, the second with a limit at least as far. -/
theorem swap_limit {h : List Entry} {p : Pool} (hi : Inv h p) {fuel fuel' : Nat} {z : Bool} {a l l' : U256} {r r' : U256 × U256 × Pool}
    (hc : z = true → ClearAbove p.spacing p.tick h) (ha : a.toInt < 2 ^ 160) (hbig : z = true → a.toInt < 2 ^ 95)
    (hl : Beyond z (stopAt z l) (stopAt z l'))
    (hx : p.swap fuel z a l = .ok r) (hy : p.swap fuel' z a l' = .ok r') :
    (r.2.2.price.toNat ≠ stopAt z l → r' = r) ∧ bought z r' ≤ bought z r ∧
      ((sold z r ≤ sold z r' ∧ ∃ up, Ahead up p.price.toNat r.2.2.price.toNat ∧ Ahead up r.2.2.price.toNat r'.2.2.price.toNat) ∨
        (a.toInt < 0 ∧ bought z r = a.toInt ∧ bought z r' = a.toInt)) := by
  obtain ⟨r0, r1, p'⟩ := r
  obtain ⟨u0, u1, q'⟩ := r'
  obtain ⟨_, h2, s, h3, h4, h5⟩ := swap_eq hx
  obtain ⟨_, k2, t, k3, k4, k5⟩ := swap_eq hy
  have h6 := init_sinv hi ha h2 hc
  have k6 := init_sinv hi ha k2 hc
  obtain ⟨up, hg⟩ : ∃ up, Going up p.spacing z (initState p z a) := by
    cases z
    · exact ⟨true, Or.inl rfl⟩
    · by_cases hgd : Good p.spacing p.tick
      · exact ⟨false, rfl, Or.inl hgd⟩
      · exact ⟨true, Or.inr ⟨rfl, hgd⟩⟩
  unfold Beyond at hl
  rw [← stopAt_eq, ← stopAt_eq] at hl
  have hz : z = true → (effLimit z l').toNat ≤ (effLimit z l).toNat := fun e => by
    subst e
    rw [if_pos rfl] at hl
    exact hl
  have hz' : z = false → (effLimit z l).toNat ≤ (effLimit z l').toNat := fun e => by
    subst e
    rw [if_neg Bool.false_ne_true] at hl
    exact hl
  have hb2 : z = true → decide (0 ≤ a.toInt) = true → (initState p z a).remaining.toInt < 2 ^ 95 := fun e _ => hbig e
  obtain ⟨q0, i, o, f, i', o', f', ra, rb, q1, q2⟩ := loop_limit hi.fee0 hi.fee1 hz hz' fuel fuel' hb2 h6 k6 hg h3 k3
  obtain ⟨_, h7, _⟩ := loop_run h6 hi.fee0 hi.fee1 h3
  obtain ⟨_, k7, _⟩ := loop_run k6 hi.fee0 hi.fee1 k3
  obtain ⟨a1, a2⟩ := swap_amounts hi h6 ra h7 (p' := p') h4
  obtain ⟨b1, b2⟩ := swap_amounts hi k6 rb k7 (p' := q') k4
  subst h5 k5
  refine ⟨fun hne => ?_, by omega, ?_⟩
  · rw [← stopAt_eq] at hne
    have e := q0 hne
    subst e
    rw [← h4] at k4
    obtain ⟨e1, e2⟩ := Prod.mk.inj k4
    rw [e1, e2]
  · rcases q2 with ⟨q2, q3⟩ | ⟨q2, q3, q4⟩
    · exact Or.inl ⟨by omega, up, (run_going ra hg).2, q3⟩
    · have hneg := of_decide_eq_false q2
      have w1 := (run_rem ra).2 q2
      have w2 := (run_rem rb).2 q2
      have e0 : (initState p z a).remaining = a := rfl
      rw [e0] at w1 w2
      exact Or.inr ⟨by omega, by omega, by omega⟩

end Pool
end Uni
