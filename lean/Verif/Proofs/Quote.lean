import Verif.Proofs.Monotone
/-! # Exact input and exact output compared -/
namespace Uni
open U256 Spec TickData TickMath FullMath SwapMath LiquidityAmounts
namespace Pool

/-! ### One step -/

/-- A step of exact input, and one of exact output that asks for less than what the first pays if it stops early. -/
theorem step_quote_out {C T L fee n i o f n' i' o' f' : Nat} {r r' : Int} (hs : Spec.SwapStep C T L r fee n i o f)
    (hs' : Spec.SwapStep C T L r' fee n' i' o' f') (hr : 0 ≤ r) (hr' : r' < 0) (hfee : fee < 1000000) (hC : 0 < C) (hT : 0 < T)
    (hlt : n ≠ T → -r' < o) :
    (n' = n ∧ i' = i ∧ o' = o ∧ f' = f ∧ n = T) ∨ ((o' : Int) = -r' ∧ i' + f' ≤ i + f ∧ Reach C n' n) := by
  have hb := hs.between
  have hb' := hs'.between
  have ho := hs.outputIn hr
  by_cases hc : (outAmount (decide (T ≤ C)) C T L : Int) ≤ -r'
  · left
    have h2 : n' = T := hs'.reachOut hr' hc
    have h1 : n = T := by
      by_contra hn
      have h3 := hlt hn
      have h4 : outAmount (decide (T ≤ C)) C n L ≤ outAmount (decide (T ≤ C)) C T L :=
        out_mono _ hC (by omega) hT (by unfold Reach; omega)
      omega
    have h3 : i' = i := by rw [hs'.input, hs.input, h1, h2]
    have h4 : f' = f := by rw [hs'.feeExact (Or.inl hr'), hs.feeExact (Or.inr h1), h3]
    have h5 := hs'.outputOut hr'
    rw [h2] at h5
    rw [h1] at ho
    exact ⟨by omega, h3, by omega, h4, h1⟩
  · right
    have ho' : (o' : Int) = -r' := by
      by_cases hn : n' = T
      · have h5 := hs'.outputOut hr'
        rw [hn] at h5
        omega
      · exact hs'.fullOut hr' hn
    have hreach : Reach C n' n := by
      unfold Reach
      by_contra hd
      have hn : n ≠ T := by intro he; subst he; omega
      have h1 := hs'.farOut hr' (by omega) n (by omega)
      have h2 := hlt hn
      omega
    have hi : i' ≤ i := by
      rw [hs.input, hs'.input]
      exact in_mono _ hC (by omega) (by omega) hreach
    have hf : f' ≤ f := by
      rw [hs'.feeExact (Or.inl hr'), ceilDiv_le_iff (by omega)]
      exact le_trans (Nat.mul_le_mul_right _ hi) hs.feeRate
    exact ⟨ho', by omega, hreach⟩

/-- A step of exact output, and one of exact input that has at least as much to spend as the first costs. -/
theorem step_quote_in {C T L fee n i o f n' i' o' f' : Nat} {r r' : Int} (hs : Spec.SwapStep C T L r fee n i o f)
    (hs' : Spec.SwapStep C T L r' fee n' i' o' f') (hr : r < 0) (hle : ((i + f : Nat) : Int) ≤ r') (hfee : fee < 1000000) (hC : 0 < C) (hT : 0 < T)
    (hsm : T < C → L * 2 ^ 96 + r' * (1000000 - fee : Nat) / 1000000 * C < 2 ^ 256) :
    (n' = n ∧ i' = i ∧ o' = o ∧ f' = f ∧ n = T) ∨ ((o : Int) = -r ∧ i + f ≤ i' + f' ∧ o ≤ o' ∧ Reach C n n') := by
  have hb := hs.between
  have hb' := hs'.between
  have hr' : 0 ≤ r' := by omega
  have hfm : ((1000000 - fee : Nat) : Int) + fee = 1000000 := by omega
  have hile : (i : Int) ≤ r' * (1000000 - fee : Nat) / 1000000 := by
    rw [Int.le_ediv_iff_mul_le (by norm_num)]
    have h1 := hs.feeRate
    have h1' : (i : Int) * fee ≤ f * (1000000 - fee : Nat) := by exact_mod_cast h1
    push_cast at hle
    have hm : (0 : Int) ≤ ((1000000 - fee : Nat) : Int) := Int.natCast_nonneg _
    generalize ((1000000 - fee : Nat) : Int) = m at *
    nlinarith
  have hoo := hs.outputOut hr
  have ho' := hs'.outputIn hr'
  by_cases hn : n = T
  · have h1 : n' = T := by
      apply hs'.reachIn hr'
      have := hs.input
      rw [hn] at this
      rw [← this]
      exact hile
    have h2 : i' = i := by rw [hs'.input, hs.input, h1, hn]
    have h4 : f' = f := by rw [hs'.feeExact (Or.inr h1), hs.feeExact (Or.inr hn), h2]
    rw [hn] at hoo
    rw [h1] at ho'
    by_cases ho : o = o'
    · exact Or.inl ⟨by omega, h2, ho.symm, h4, hn⟩
    · exact Or.inr ⟨by omega, by omega, by omega, by unfold Reach; omega⟩
  · right
    have ho := hs.fullOut hr hn
    have hreach : Reach C n n' := by
      unfold Reach
      by_contra hd
      have hn' : n' ≠ T := by intro he; subst he; omega
      have h1 := hs'.farInStrict hr' hn' (fun hc => hsm (by omega)) n (by omega)
      rw [← hs.input] at h1
      omega
    have hoo' : o ≤ o' := by
      have := out_mono (decide (T ≤ C)) (L := L) hC (by omega) (by omega) hreach
      omega
    refine ⟨ho, ?_, hoo', hreach⟩
    by_cases hn' : n' = T
    · have hi : i ≤ i' := by
        rw [hs.input, hs'.input]
        exact in_mono _ hC (by omega) (by omega) hreach
      have hf : f ≤ f' := by
        rw [hs.feeExact (Or.inl hr), ceilDiv_le_iff (by omega)]
        exact le_trans (Nat.mul_le_mul_right _ hi) hs'.feeRate
      omega
    · have := hs'.fullIn hr' hn'
      omega

/-! ### The loop -/

/-- Two iterations of either kind from the same place have the same target; if they move to the same price they end in the same place. -/
theorem step_view_kinds {p p' : Pool} {h : List Entry} {z ein ein' : Bool} {limit : U256} {s t s' t' : SwapState} {x y : Step} {T T' : U256}
    (hv : View s t) (hx : swapStep p z ein limit s = .ok s') (hy : swapStep p' z ein' limit t = .ok t')
    (hf : StepFacts p h z ein limit s s' x T) (hf' : StepFacts p' h z ein' limit t t' y T') :
    T = T' ∧ (x.next = y.next → View s' t') := by
  obtain ⟨n, b, pn, a1, a2, a3⟩ := hf.tgt
  obtain ⟨n', b', pn', b1, b2, b3⟩ := hf'.tgt
  obtain ⟨m, c, q, u, g, c1, c2, c3, c4, c5⟩ := swapStep_inv hx
  obtain ⟨m', c', q', u', g', d1, d2, d3, d4, d5⟩ := swapStep_inv hy
  rw [a1] at c1
  cases c1
  rw [a2] at c2
  cases c2
  rw [← a3, hf.step] at c3
  cases c3
  rw [b1] at d1
  cases d1
  rw [b2] at d2
  cases d2
  rw [← b3, hf'.step] at d3
  cases d3
  rw [hv.ticks.next, hv.tick, b1] at a1
  cases a1
  rw [b2] at a2
  cases a2
  refine ⟨by rw [a3, b3], fun hn => ?_⟩
  refine finish_view ?_ hv.price c5 d5
  exact ⟨hn, hv.tick, hv.liquidity, hv.ticks⟩

theorem target_pos {p : Pool} {h : List Entry} {sp : Int} {z ein : Bool} {limit : U256} {s s' : SwapState} {x : Step} {T : U256}
    (hs : SInv h sp z ein limit s) (hf : StepFacts p h z ein limit s s' x T) : 0 < s.price.toNat ∧ 0 < T.toNat := by
  have hC : 0 < s.price.toNat := by have := hs.inv.priceOk.lo; omega
  refine ⟨hC, ?_⟩
  cases z
  · have := (hf.up rfl).1; omega
  · have h1 := hf.down rfl
    have h2 := (hs.down rfl).2
    omega

theorem loop_done {p : Pool} {z ein : Bool} {limit : U256} {fuel : Nat} {s s' : SwapState} (hr : s.remaining.toInt = 0)
    (hx : swapLoop p z ein limit fuel s = .ok s') : s' = s := by
  apply loop_halt (Bool.eq_false_iff.2 ?_) hx
  rw [Ne, running_iff]
  exact fun hc => hc.1 hr

/-- A run of exact input, and one of exact output that asks for less than what the first pays. -/
theorem loop_quote_out {p : Pool} {h : List Entry} {sp : Int} {z up : Bool} {limit : U256} (hf0 : 0 ≤ p.fee) (hf1 : p.fee < 1000000)
    (fuel : Nat) {s s' : SwapState} (hs : SInv h sp z true limit s) (hg : Going up sp z s)
    (hx : swapLoop p z true limit fuel s = .ok s') :
    ∃ i o f, Run p h sp z true limit s s' i o f ∧ (s.remaining.toInt = 0 → o = 0) ∧
      ∀ (fuel' : Nat) (t t' : SwapState), SInv h sp z false limit t → View s t → Going up sp z t → t.remaining.toInt = 0 ∨ -t.remaining.toInt < o →
        swapLoop p z false limit fuel' t = .ok t' →
        ∃ i' o' f', Run p h sp z false limit t t' i' o' f' ∧ i' + f' ≤ i + f ∧ (o' : Int) = -t.remaining.toInt ∧
          Ahead up t'.price.toNat s'.price.toNat := by
  have trivial_case : ∀ {i o f : Nat}, Run p h sp z true limit s s' i o f → ∀ (fuel' : Nat) (t t' : SwapState), View s t → t.remaining.toInt = 0 →
      swapLoop p z false limit fuel' t = .ok t' →
        ∃ i' o' f', Run p h sp z false limit t t' i' o' f' ∧ i' + f' ≤ i + f ∧ (o' : Int) = -t.remaining.toInt ∧
          Ahead up t'.price.toNat s'.price.toNat := by
    intro i o f run fuel' t t' hv h0 hy
    have := loop_done h0 hy
    subst this
    refine ⟨0, 0, 0, Run.refl, by omega, by omega, ?_⟩
    rw [← hv.price]
    exact (run_going run hg).2
  induction fuel generalizing s with
  | zero => cases hx
  | succ k ih =>
    by_cases hr : running limit s = true
    · have hx0 := hx
      unfold swapLoop at hx
      rw [if_pos hr] at hx
      obtain ⟨s1, hx1, hx2⟩ := bind_ok hx
      obtain ⟨hr0, hrl⟩ := running_iff.1 hr
      obtain ⟨x, T, hs1, hf, hR⟩ := step_inv hs hf0 hf1 hr hx1
      have run1 := Run.step Run.refl hs hr hf hR hs1
      have hg1 := (run_going run1 hg).1
      obtain ⟨hC, hT0⟩ := target_pos hs hf
      have hfee : p.fee.toNat < 1000000 := by omega
      obtain ⟨i, o, f, ra, zero, rest⟩ := ih hs1 hg1 hx2 (fun run fuel' t t' hv h0 hy => by
        have := loop_done h0 hy
        subst this
        refine ⟨0, 0, 0, Run.refl, by omega, by omega, ?_⟩
        rw [← hv.price]
        exact (run_going run hg1).2)
      have rall := Run.trans run1 ra
      refine ⟨_, _, _, rall, fun hc => absurd hc hr0, ?_⟩
      intro fuel' t t' ht hv hgt hle hy
      by_cases h0 : t.remaining.toInt = 0
      · exact trivial_case rall fuel' t t' hv h0 hy
      have hlt := hle.resolve_left h0
      have hneg : t.remaining.toInt < 0 := by have := ht.remOut rfl; omega
      have hr' : running limit t = true := by
        rw [running_iff, ← hv.price]
        exact ⟨h0, hrl⟩
      cases fuel' with
      | zero => cases hy
      | succ k' =>
        unfold swapLoop at hy
        rw [if_pos hr'] at hy
        obtain ⟨t1, hy1, hy2⟩ := bind_ok hy
        obtain ⟨y, T', ht1, hf', hR'⟩ := step_inv ht hf0 hf1 hr' hy1
        obtain ⟨hT, hview⟩ := step_view_kinds hv hx1 hy1 hf hf'
        subst hT
        have run1' := Run.step Run.refl ht hr' hf' hR' ht1
        have sp1 := hf.spec
        have sp2 := hf'.spec
        rw [← hv.price, ← hv.liquidity] at sp2
        have hrem := hR'.remOut rfl
        rcases step_quote_out sp1 sp2 (hs.remIn rfl) hneg hfee hC hT0 (by
          intro hn
          have hd := hR.done (by rw [hf.price]; exact hn)
          have hstop := loop_done hd hx2
          subst hstop
          have hz := zero hd
          omega) with ⟨e0, e1, e2, e3, _⟩ | ⟨e1, e2, e3⟩
        · obtain ⟨i', o', f', rb, q1, q2, q3⟩ := rest k' t1 t' ht1 (hview (ext_toNat e0.symm)) (run_going run1' hgt).1 (by omega) hy2
          exact ⟨_, _, _, Run.trans run1' rb, by omega, by omega, q3⟩
        · have hstop := loop_done (by omega) hy2
          subst hstop
          refine ⟨_, _, _, run1', by omega, by omega, ?_⟩
          have g1 := (run_going run1 hg).2
          have g2 := (run_going ra hg1).2
          rw [hf'.price]
          rw [hf.price] at g1 g2
          unfold Ahead Reach at *
          cases up
          · rw [if_neg (by decide)] at g1 g2 ⊢; omega
          · rw [if_pos rfl] at g1 g2 ⊢; omega
    · have hr' := Bool.eq_false_iff.2 hr
      have hstop := loop_halt hr' hx
      subst hstop
      refine ⟨0, 0, 0, Run.refl, fun _ => rfl, ?_⟩
      intro fuel' t t' ht hv hgt hle hy
      have := ht.remOut rfl
      exact trivial_case Run.refl fuel' t t' hv (by omega) hy

/-- What costs nothing pays nothing. -/
theorem free_out (d : Bool) {C n L : Nat} (hC : 0 < C) (hn : 0 < n) (h : inAmount d C n L = 0) : outAmount d C n L = 0 := by
  have key : ∀ {a b : Nat}, 0 < b → Spec.ceilDiv a b = 0 → a = 0 := by
    intro a b hb h0
    have := (ceilDiv_le_iff hb (n := a) (k := 0)).1 (by omega)
    omega
  cases d
  · rw [inAmount_f] at h
    rw [outAmount_f]
    unfold amount1Up at h
    unfold amount0Down
    have h1 := key (by norm_num) h
    rw [show L * 2 ^ 96 * Spec.dist C n = L * Spec.dist C n * 2 ^ 96 by ring, h1]
    simp
  · rw [inAmount_t] at h
    rw [outAmount_t]
    unfold amount0Up at h
    unfold amount1Down
    have h1 := key (Nat.mul_pos hC hn) h
    rw [show L * 2 ^ 96 * Spec.dist C n = L * Spec.dist C n * 2 ^ 96 by ring] at h1
    rw [(Nat.mul_eq_zero.1 h1).resolve_right (by norm_num)]
    simp

theorem run_free {p : Pool} {h : List Entry} {sp : Int} {z ein : Bool} {limit : U256} {s0 s : SwapState} {i o f : Nat}
    (hr : Run p h sp z ein limit s0 s i o f) (hi : i = 0) : o = 0 := by
  induction hr with
  | refl => rfl
  | @step s1 s2 i1 o1 f1 st target hr hs hrun hf hR hs' ih =>
    have h1 := ih (by omega)
    obtain ⟨hC, hT⟩ := target_pos hs hf
    have hb := hf.spec.between
    have h2 := hf.spec.input
    have h3 := free_out _ hC (show 0 < st.next.toNat by omega) (h2.symm.trans (by omega))
    rcases lt_or_ge s1.remaining.toInt 0 with hneg | hneg
    · have := hf.spec.outputOut hneg
      omega
    · have := hf.spec.outputIn hneg
      omega

/-- A run of exact output, and one of exact input that has at least as much to spend as the first costs. -/
theorem loop_quote_in {p : Pool} {h : List Entry} {sp : Int} {z up : Bool} {limit : U256} (hf0 : 0 ≤ p.fee) (hf1 : p.fee < 1000000)
    (fuel : Nat) {s s' : SwapState} (hs : SInv h sp z false limit s) (hg : Going up sp z s)
    (hx : swapLoop p z false limit fuel s = .ok s') :
    ∃ i o f, Run p h sp z false limit s s' i o f ∧ (s.remaining.toInt = 0 → i = 0 ∧ o = 0 ∧ f = 0) ∧
      ∀ (fuel' : Nat) (t t' : SwapState), SInv h sp z true limit t → View s t → Going up sp z t → ((i + f : Nat) : Int) ≤ t.remaining.toInt →
        (up = false → t.remaining.toInt * t.price.toNat < 2 ^ 255) → swapLoop p z true limit fuel' t = .ok t' →
        ∃ i' o' f', Run p h sp z true limit t t' i' o' f' ∧ i + f ≤ i' + f' ∧ o ≤ o' ∧
          (s'.remaining.toInt = 0 → Ahead up s'.price.toNat t'.price.toNat) := by
  induction fuel generalizing s with
  | zero => cases hx
  | succ k ih =>
    by_cases hr : running limit s = true
    · have hx0 := hx
      unfold swapLoop at hx
      rw [if_pos hr] at hx
      obtain ⟨s1, hx1, hx2⟩ := bind_ok hx
      obtain ⟨hr0, hrl⟩ := running_iff.1 hr
      obtain ⟨x, T, hs1, hf, hR⟩ := step_inv hs hf0 hf1 hr hx1
      have run1 := Run.step Run.refl hs hr hf hR hs1
      have hg1 := (run_going run1 hg).1
      obtain ⟨hC, hT0⟩ := target_pos hs hf
      have hfee : p.fee.toNat < 1000000 := by omega
      have hneg : s.remaining.toInt < 0 := by have := hs.remOut rfl; omega
      obtain ⟨i, o, f, ra, zero, rest⟩ := ih hs1 hg1 hx2
      have rall := Run.trans run1 ra
      refine ⟨_, _, _, rall, fun hc => absurd hc hr0, ?_⟩
      intro fuel' t t' ht hv hgt hle hsm hy
      by_cases h0 : t.remaining.toInt = 0
      · have := loop_done h0 hy
        subst this
        have hfree := run_free rall (by omega)
        have hrem := (run_rem rall).2 rfl
        exact ⟨0, 0, 0, Run.refl, by omega, by omega, fun hc => by omega⟩
      have hpos := ht.remIn rfl
      have hr' : running limit t = true := by
        rw [running_iff, ← hv.price]
        exact ⟨h0, hrl⟩
      cases fuel' with
      | zero => cases hy
      | succ k' =>
        unfold swapLoop at hy
        rw [if_pos hr'] at hy
        obtain ⟨t1, hy1, hy2⟩ := bind_ok hy
        obtain ⟨y, T', ht1, hf', hR'⟩ := step_inv ht hf0 hf1 hr' hy1
        obtain ⟨hT, hview⟩ := step_view_kinds hv hx1 hy1 hf hf'
        subst hT
        have run1' := Run.step Run.refl ht hr' hf' hR' ht1
        have sp1 := hf.spec
        have sp2 := hf'.spec
        rw [← hv.price, ← hv.liquidity] at sp2
        have hrem := hR'.remIn rfl
        have hremS := hR.remOut rfl
        have hg1' := run_going run1' hgt
        rcases step_quote_in sp1 sp2 hneg (by omega) hfee hC hT0 (by
          intro hTC
          have hup : up = false := by
            cases up
            · rfl
            · have := (rising_step hs hf hg).1
              omega
          have h1 := hsm hup
          rw [← hv.price] at h1
          have h2 : t.remaining.toInt * (1000000 - p.fee.toNat : Nat) / 1000000 ≤ t.remaining.toInt := by
            apply Int.ediv_le_of_le_mul (by norm_num)
            exact Int.mul_le_mul_of_nonneg_left (by omega) hpos
          have h3 : t.remaining.toInt * (1000000 - p.fee.toNat : Nat) / 1000000 * s.price.toNat ≤ t.remaining.toInt * s.price.toNat :=
            Int.mul_le_mul_of_nonneg_right h2 (by omega)
          have h4 : s.liquidity.toNat < 2 ^ 128 := hs.inv.liq_lt
          have h5 : (s.liquidity.toNat : Int) * 2 ^ 96 < 2 ^ 224 := by
            have : (s.liquidity.toNat : Int) < 2 ^ 128 := by exact_mod_cast h4
            linarith
          linarith) with ⟨e0, e1, e2, e3, _⟩ | ⟨e1, e2, e3, e4⟩
        · obtain ⟨i', o', f', rb, q1, q2, q3⟩ := rest k' t1 t' ht1 (hview (ext_toNat e0.symm)) hg1'.1 (by omega) (by
            intro hup
            have h1 := hsm hup
            have h2 := hg1'.2
            subst hup
            unfold Ahead at h2
            rw [if_neg (by decide)] at h2
            refine lt_of_le_of_lt ?_ h1
            exact Int.mul_le_mul (by omega) (by omega) (by omega) (by omega)) hy2
          exact ⟨_, _, _, Run.trans run1' rb, by omega, by omega, q3⟩
        · have hstop := loop_done (by omega) hx2
          subst hstop
          obtain ⟨z1, z2, z3⟩ := zero (by omega)
          obtain ⟨⟨i', o', f', rb⟩, _, _⟩ := loop_run ht1 hf0 hf1 hy2
          refine ⟨_, _, _, Run.trans run1' rb, by omega, by omega, fun _ => ?_⟩
          have g1 := (run_going run1 hg).2
          have g2 := (run_going rb hg1'.1).2
          have g3 := hg1'.2
          rw [hf.price] at g1 ⊢
          rw [hf'.price] at g2 g3
          rw [← hv.price] at g3
          unfold Ahead Reach at *
          cases up
          · rw [if_neg (by decide)] at g1 g2 g3 ⊢; omega
          · rw [if_pos rfl] at g1 g2 g3 ⊢; omega
    · have hr' := Bool.eq_false_iff.2 hr
      have hstop := loop_halt hr' hx
      subst hstop
      refine ⟨0, 0, 0, Run.refl, fun _ => ⟨rfl, rfl, rfl⟩, ?_⟩
      intro fuel' t t' ht hv hgt hle hsm hy
      obtain ⟨⟨i', o', f', rb⟩, ht', _⟩ := loop_run ht hf0 hf1 hy
      have g2 := (run_going rb hgt).2
      rw [← hv.price] at g2
      exact ⟨i', o', f', rb, by omega, by omega, fun _ => g2⟩

end Pool
end Uni
