import Verif.Spec.SwapPath
import Verif.Proofs.Fees
import Verif.Proofs.Solvency
/-! # The path of a swap -/
namespace Uni
open U256 Spec TickData TickMath FullMath SwapMath LiquidityAmounts
namespace Pool

theorem wordMax_dvd (t : TickData) (tick : Int) : 256 * t.spacing ∣ wordMax t tick + t.spacing := by
  refine ⟨(Int.tdiv tick t.spacing + 1) / 256 + 1, ?_⟩
  unfold wordMax
  ring

/-- The target of a step is the limit or the price of a tick. -/
theorem target_at {p : Pool} {h : List Entry} {sp : Int} {z ein : Bool} {limit : U256} {s s' : SwapState} {st : Step} {target : U256}
    (hs : SInv h sp z ein limit s) (hf : StepFacts p h z ein limit s s' st target) :
    target.toNat = limit.toNat ∨ AtTick h sp z target.toNat := by
  obtain ⟨n, b, pn, h1, h2, h3⟩ := hf.tgt
  have hi := hs.inv
  have hne : s.ticks.ticks ≠ [] := by
    intro hc; rw [next_empty hc] at h1; cases h1
  have hsp : 0 < s.ticks.spacing := by rw [hi.spacing]; exact hi.sp_pos
  obtain ⟨hc1, hc2, hpn⟩ := getSqrtRatioAtTick_ok h2
  have hcl := clampTick_eq n
  cases z
  · obtain ⟨n', b', e1, q1, q2, _⟩ := next_up hi.ticks.inc hne (by omega) s.tick
    rw [h1] at e1
    obtain ⟨rfl, rfl⟩ : n = n' ∧ b = b' := by cases e1; exact ⟨rfl, rfl⟩
    have hn : s.tick < n := by
      cases b
      · rw [q2 rfl]; exact lt_wordMax hsp _
      · exact (q1 rfl).2.1
    have htlo := hi.tlo
    have hl := (hs.up rfl).2
    have hT := pickTarget_up pn limit
    rw [← h3] at hT
    by_cases hlim : limit.toNat ≤ pn.toNat
    · left; omega
    · right
      have hnmax : clampTick n ≠ 887272 := by
        intro hc
        rw [hc] at hpn
        omega
      refine ⟨clampTick n, hc1, hc2, ?_, ?_⟩
      · rw [Props.tickPrice_eq hc1 hc2, ← hpn]; omega
      · rw [show clampTick n = n by omega]
        cases b
        · right
          have := wordMax_dvd s.ticks s.tick
          rw [← q2 rfl, hi.spacing] at this
          rw [if_neg (by decide)]
          exact this
        · left
          exact hi.ticks.has.1 (q1 rfl).1
  · obtain ⟨n', b', e1, q1, q2, _⟩ := next_down hi.ticks.inc hne (by omega) s.tick
    rw [h1] at e1
    obtain ⟨rfl, rfl⟩ : n = n' ∧ b = b' := by cases e1; exact ⟨rfl, rfl⟩
    have hl := (hs.down rfl).2
    have hthi := hi.thi
    have hT := pickTarget_down pn limit
    rw [← h3] at hT
    by_cases hlim : pn.toNat ≤ limit.toNat
    · left; omega
    · right
      have hnmin : clampTick n ≠ -887272 := by
        intro hc
        rw [hc] at hpn
        omega
      refine ⟨clampTick n, hc1, hc2, ?_, ?_⟩
      · rw [Props.tickPrice_eq hc1 hc2, ← hpn]; omega
      · by_cases hm : clampTick n = n
        · rw [hm]
          cases b
          · right
            obtain ⟨q, hq⟩ := wordMin_dvd s.ticks s.tick
            rw [← q2 rfl, hi.spacing] at hq
            rw [if_pos rfl]
            exact ⟨q, by rw [hq]; ring⟩
          · left
            exact hi.ticks.has.1 (q1 rfl).1
        · exfalso
          have hn : n ≤ max s.tick 0 := by
            cases b
            · rw [q2 rfl]
              by_cases hw : s.tick < wordMin s.ticks s.tick
              · obtain ⟨k, k1, k2, k3⟩ := (wordMin_gt_iff hsp s.tick).1 hw
                rw [wordMin_eq hsp k1 k2 k3]
                have : 256 * k * s.ticks.spacing ≤ 0 := Int.mul_nonpos_of_nonpos_of_nonneg (by omega) (le_of_lt hsp)
                omega
              · omega
            · have := (q1 rfl).2.1
              omega
          omega

theorem inOut_self (z : Bool) (P L : Nat) : inAmount z P P L = 0 ∧ outAmount z P P L = 0 := by
  cases z
  · rw [inAmount_f, outAmount_f, amount1Up_self, amount0Down_self]; exact ⟨rfl, rfl⟩
  · rw [inAmount_t, outAmount_t, amount0Up_self, amount1Down_self]; exact ⟨rfl, rfl⟩

/-- An iteration is a leg. -/
theorem leg_ok {p : Pool} {h : List Entry} {sp : Int} {z ein : Bool} {limit : U256} {s s' : SwapState} {st : Step} {target : U256}
    (hs : SInv h sp z ein limit s) (hrun : running limit s = true) (hd : z = true → target.toNat ≤ s.price.toNat)
    (hf : StepFacts p h z ein limit s s' st target) (hR : RemFacts ein s s' st target) (l : Leg)
    (hl : l = ⟨s.price.toNat, s'.price.toNat, s.liquidity.toNat, st.amountIn.toNat, st.fee.toNat, st.amountOut.toNat⟩) :
    l.Ok h sp z p.fee.toNat limit.toNat s.remaining.toInt ∧ l.rest s.remaining.toInt = s'.remaining.toInt := by
  have hS := hf.spec
  rw [← hf.price] at hS
  have hr0 := (running_iff.1 hrun).1
  have hrest : l.rest s.remaining.toInt = s'.remaining.toInt := by
    unfold Leg.rest
    rw [hl]
    dsimp only
    cases ein
    · have := hs.remOut rfl
      rw [if_neg (by omega), hR.remOut rfl]
    · have := hs.remIn rfl
      rw [if_pos this, hR.remIn rfl]
      push_cast
      rfl
  have hbt := hS.between
  have hdir : if z then limit.toNat ≤ s'.price.toNat ∧ s'.price.toNat ≤ s.price.toNat
      else s.price.toNat ≤ s'.price.toNat ∧ s'.price.toNat ≤ limit.toNat := by
    cases z
    · have := hf.up rfl
      rw [if_neg (by decide)]
      omega
    · have := hf.down rfl
      have := hd rfl
      rw [if_pos rfl]
      omega
  -- either the direction of the step is that of the swap, or the price does not move
  have hz : decide (target.toNat ≤ s.price.toNat) = z ∨ (target.toNat = s.price.toNat ∧ s'.price.toNat = s.price.toNat) := by
    cases z
    · have := (hf.up rfl).1
      by_cases hc : target.toNat ≤ s.price.toNat
      · right; omega
      · left; exact decide_eq_false hc
    · left; exact decide_eq_true (hd rfl)
  have hin : inAmount (decide (target.toNat ≤ s.price.toNat)) s.price.toNat s'.price.toNat s.liquidity.toNat =
      inAmount z s.price.toNat s'.price.toNat s.liquidity.toNat := by
    rcases hz with h1 | ⟨_, h2⟩
    · rw [h1]
    · rw [h2, (inOut_self _ _ _).1, (inOut_self _ _ _).1]
  have hout : outAmount (decide (target.toNat ≤ s.price.toNat)) s.price.toNat s'.price.toNat s.liquidity.toNat =
      outAmount z s.price.toNat s'.price.toNat s.liquidity.toNat := by
    rcases hz with h1 | ⟨_, h2⟩
    · rw [h1]
    · rw [h2, (inOut_self _ _ _).2, (inOut_self _ _ _).2]
  refine ⟨⟨?_, ?_, ?_, ?_, ?_, ?_, ?_, ?_, ?_, ?_⟩, hrest⟩
  · obtain ⟨a, b, h1, h2, h3, h4, h5, h6, h7⟩ := hf.seg
    rw [hl]
    dsimp only
    refine ⟨a, b, h1, by omega, h4, ?_, ?_, ?_, h7⟩
    · rw [Props.tickPrice_eq h1 (by omega)]; exact h5
    · rw [Props.tickPrice_eq (by omega) h4]; exact h6
    · intro t t1 t2
      rw [hs.inv.liq]
      rcases le_total t s.tick with h8 | h8
      · exact (hs.inv.cov.active_const h8 (fun j j1 j2 => h7 j (by omega) (by omega))).symm
      · exact hs.inv.cov.active_const h8 (fun j j1 j2 => h7 j (by omega) (by omega))
  · rw [hl]; exact hdir
  · rw [hrest, hl]
    dsimp only
    by_cases hT : s'.price.toNat = target.toNat
    · right
      rw [hT]
      exact target_at hs hf
    · exact Or.inl (hR.done hT)
  · rw [hl]; dsimp only; rw [hS.input, hin]
  · rw [hl]; exact hS.feeRate
  · rw [hl]; exact hS.budget
  · rw [hl]; dsimp only; intro h0; rw [hS.outputIn h0, hout]
  · rw [hl]
    dsimp only
    intro h0
    by_cases hT : s'.price.toNat = target.toNat
    · exact Or.inl (hS.feeExact (Or.inr hT))
    · right
      refine ⟨hS.fullIn h0 hT, ?_⟩
      have hz' : decide (target.toNat ≤ s.price.toNat) = z := by
        rcases hz with h1 | h1
        · exact h1
        · omega
      have := hS.farIn h0 hT (further z s'.price.toNat) ?_
      · rw [hz'] at this; exact this
      · unfold further
        cases z
        · have := (hf.up rfl).1
          rw [if_neg (by decide)]
          omega
        · have := hd rfl
          rw [if_pos rfl]
          omega
  · rw [hl]; dsimp only; intro h0; exact hS.feeExact (Or.inl h0)
  · rw [hl]
    dsimp only
    intro h0
    have h1 := hS.outputOut h0
    rw [hout] at h1
    by_cases hc : (outAmount z s.price.toNat s'.price.toNat s.liquidity.toNat : Int) ≤ -s.remaining.toInt
    · left; exact ⟨by omega, by omega⟩
    · right
      refine ⟨by omega, by omega, fun hne => ?_⟩
      have hz' : decide (target.toNat ≤ s.price.toNat) = z := by
        rcases hz with h1 | h1
        · exact h1
        · omega
      have hfar : -s.remaining.toInt < (outAmount (decide (target.toNat ≤ s.price.toNat)) s.price.toNat target.toNat s.liquidity.toNat : Int) := by
        by_contra hc2
        have h2 := hS.reachOut h0 (by omega)
        rw [h2] at hc hout
        rw [hout] at hc2
        omega
      have := hS.farOut h0 hfar (before z s'.price.toNat) ?_
      · rw [hz'] at this; omega
      · unfold before
        cases z
        · have := (hf.up rfl).1
          rw [if_neg (by decide)]
          omega
        · have := hd rfl
          rw [if_pos rfl]
          omega

/-- A loop that ends is a path. -/
theorem loop_path {p : Pool} {h : List Entry} {sp : Int} {z ein : Bool} {limit : U256} {s' : SwapState} (hf0 : 0 ≤ p.fee) (hf1 : p.fee < 1000000)
    (fuel : Nat) (s : SwapState) (hs : SInv h sp z ein limit s) (hd : z = true → Falling sp z s) (hx : swapLoop p z ein limit fuel s = .ok s') :
    ∃ legs : List Leg, Run p h sp z ein limit s s' (legs.map (·.input)).sum (legs.map (·.output)).sum (legs.map (·.fee)).sum ∧
      Path h sp z p.fee.toNat limit.toNat s.price.toNat s.remaining.toInt legs s'.price.toNat s'.remaining.toInt ∧
      legs.length < fuel ∧ swapLoop p z ein limit (legs.length + 1) s = .ok s' := by
  induction fuel generalizing s with
  | zero => cases hx
  | succ n ih =>
    unfold swapLoop at hx
    by_cases hr : running limit s = true
    · rw [if_pos hr] at hx
      obtain ⟨s1, h1, hx⟩ := bind_ok hx
      obtain ⟨st, target, hs1, hf, hR⟩ := step_inv hs hf0 hf1 hr h1
      have hd1 : z = true → Falling sp z s1 := fun hz => (falling_step hs hf (hd hz)).2
      obtain ⟨legs, k1, k2, k3, k4⟩ := ih s1 hs1 hd1 hx
      obtain ⟨k5, k6⟩ := leg_ok hs hr (fun hz => (falling_step hs hf (hd hz)).1) hf hR _ rfl
      refine ⟨⟨s.price.toNat, s1.price.toNat, s.liquidity.toNat, st.amountIn.toNat, st.fee.toNat, st.amountOut.toNat⟩ :: legs, ?_, ?_, ?_, ?_⟩
      · have := Run.trans (Run.step Run.refl hs hr hf hR hs1) k1
        simp only [List.map_cons, List.sum_cons]
        rw [Nat.zero_add, Nat.zero_add, Nat.zero_add] at this
        exact this
      · have hrun := running_iff.1 hr
        refine Path.leg (l := ⟨s.price.toNat, s1.price.toNat, s.liquidity.toNat, st.amountIn.toNat, st.fee.toNat, st.amountOut.toNat⟩)
          hrun.1 hrun.2 k5 ?_
        rw [k6]
        exact k2
      · rw [List.length_cons]; omega
      · rw [List.length_cons]
        unfold swapLoop
        rw [if_pos hr, h1]
        exact k4
    · rw [if_neg hr] at hx
      cases hx
      refine ⟨[], Run.refl, Path.stop _ _ ?_, ?_, ?_⟩
      · exact not_running (Bool.eq_false_iff.2 hr)
      · rw [List.length_nil]; omega
      · unfold swapLoop
        rw [if_neg hr]

/-- A swap that returns is a path. -/
theorem swap_path {h : List Entry} {p p' : Pool} (hi : Inv h p) {fuel : Nat} {z : Bool} {amount limit r0 r1 : U256}
    (ha : amount.toInt < 2 ^ 160) (hg : z = true → Good p.spacing p.tick) (hx : p.swap fuel z amount limit = .ok (r0, r1, p')) :
    ∃ (legs : List Leg) (rem : Int),
      Path h p.spacing z p.fee.toNat (effLimit z limit).toNat p.price.toNat amount.toInt legs p'.price.toNat rem ∧
      sold z (r0, r1, p') = ((legs.map (fun l => l.input + l.fee)).sum : Nat) ∧
      bought z (r0, r1, p') = -((legs.map (·.output)).sum : Nat) ∧
      legs.length < fuel ∧ p.swap (legs.length + 1) z amount limit = .ok (r0, r1, p') := by
  obtain ⟨h1, h2, s, h3, h4, h5⟩ := swap_eq hx
  have h6 := init_sinv hi ha h2 (fun hz => clear_good (hg hz))
  obtain ⟨legs, h7, h8, h9, h10⟩ := loop_path hi.fee0 hi.fee1 fuel _ h6 (fun hz => ⟨hz, Or.inl (hg hz)⟩) h3
  obtain ⟨_, h11, _⟩ := loop_run h6 hi.fee0 hi.fee1 h3
  obtain ⟨a1, a2⟩ := swap_amounts hi h6 h7 h11 (p' := p') h4
  refine ⟨legs, s.remaining.toInt, ?_, ?_, a2, h9, ?_⟩
  · subst h5
    exact h8
  · rw [a1]
    clear * -
    induction legs with
    | nil => rfl
    | cons l ls ih =>
      simp only [List.map_cons, List.sum_cons]
      push_cast at ih ⊢
      omega
  · unfold swap at hx ⊢
    obtain ⟨_, e1, hx⟩ := bind_ok hx
    obtain ⟨_, e2, hx⟩ := bind_ok hx
    dsimp only at hx
    obtain ⟨s', e3, hx⟩ := bind_ok hx
    rw [sign_decide] at e3 hx
    rw [h3] at e3
    cases e3
    dsimp only
    rw [e1, e2, sign_decide, h10]
    exact hx

theorem up0_lt {P Q L : Nat} (hP : 0 < P) (hPQ : P ≤ Q) : (amount0Up P Q L : ℚ) < 2 ^ 96 * (1 / P - 1 / Q) * (L : ℚ) + 1 := by
  have h1 : ((amount0Up P Q L : Int) : ℚ) < exact0 P Q L + 1 := by
    rw [Props.amount0Up_eq _ _ _ hP (by omega)]; exact Int.ceil_lt_add_one _
  rw [exact0_smul, exact0_eq hP hPQ] at h1
  push_cast at h1
  linarith

theorem down0_gt {P Q L : Nat} (hP : 0 < P) (hPQ : P ≤ Q) : 2 ^ 96 * (1 / P - 1 / Q) * (L : ℚ) < (amount0Down P Q L : ℚ) + 1 := by
  have h1 : (exact0 P Q L) < ((amount0Down P Q L : Int) : ℚ) + 1 := by
    rw [Props.amount0Down_eq]; exact Int.lt_floor_add_one _
  rw [exact0_smul, exact0_eq hP hPQ] at h1
  push_cast at h1
  linarith

theorem up1_lt {P Q L : Nat} (hPQ : P ≤ Q) : (amount1Up P Q L : ℚ) < ((Q : ℚ) - P) / 2 ^ 96 * L + 1 := by
  have h1 : ((amount1Up P Q L : Int) : ℚ) < exact1 P Q L + 1 := by
    rw [Props.amount1Up_eq]; exact Int.ceil_lt_add_one _
  rw [exact1_smul, exact1_eq hPQ] at h1
  push_cast at h1
  linarith

theorem down1_gt {P Q L : Nat} (hPQ : P ≤ Q) : ((Q : ℚ) - P) / 2 ^ 96 * L < (amount1Down P Q L : ℚ) + 1 := by
  have h1 : (exact1 P Q L) < ((amount1Down P Q L : Int) : ℚ) + 1 := by
    rw [Props.amount1Down_eq]; exact Int.lt_floor_add_one _
  rw [exact1_smul, exact1_eq hPQ] at h1
  push_cast at h1
  linarith

/-- Input and output of a leg differ from the change of the principal by less than one. -/
theorem leg_fair {h : List Entry} (hc : Covered h) (hb : ∀ e ∈ h, -887272 ≤ e.lower ∧ e.upper ≤ 887272) {sp : Int} {z : Bool}
    {rate limit : Nat} {rem : Int} {l : Leg} (hl : l.Ok h sp z rate limit rem) :
    (if z then (l.input : ℚ) < principal0 h l.stop - principal0 h l.start + 1 ∧
        (0 ≤ rem → principal1 h l.start - principal1 h l.stop < l.output + 1)
      else (l.input : ℚ) < principal1 h l.stop - principal1 h l.start + 1 ∧
        (0 ≤ rem → principal0 h l.start - principal0 h l.stop < l.output + 1)) := by
  obtain ⟨a, b, h1, h2, h3, h4, h5, h6, h7⟩ := hl.liquidity
  rw [Props.tickPrice_eq h1 (by omega)] at h4
  rw [Props.tickPrice_eq (by omega) h3] at h5
  have hlo := ratioN_ge h1 (show a ≤ 887272 by omega)
  obtain ⟨e0, e1⟩ := principal_move hc hb h1 (le_refl a) h2 h3 h7 (P := l.start) (Q := l.stop) (by omega) (by omega) (by omega) (by omega)
  have eL : ((active h a : Int) : ℚ) = (l.liquidity : ℚ) := by
    rw [h6 a (le_refl _) h2]; push_cast; rfl
  rw [eL] at e0 e1
  have hd := hl.direction
  have hin := hl.input
  have hout := hl.outputIn
  cases z
  · rw [if_neg (by decide)] at hd ⊢
    rw [inAmount_f] at hin
    rw [outAmount_f] at hout
    rw [e1, hin]
    refine ⟨up1_lt hd.1, fun h0 => ?_⟩
    have := down0_gt (L := l.liquidity) (P := l.start) (Q := l.stop) (by omega) hd.1
    rw [hout h0]
    linarith
  · rw [if_pos rfl] at hd ⊢
    rw [inAmount_t, amount0Up_comm] at hin
    rw [outAmount_t, amount1Down_comm] at hout
    rw [e0, hin]
    refine ⟨up0_lt (by omega) hd.2, fun h0 => ?_⟩
    have := down1_gt (L := l.liquidity) (P := l.stop) (Q := l.start) hd.2
    rw [hout h0]
    linarith

theorem path_fair {h : List Entry} (hc : Covered h) (hb : ∀ e ∈ h, -887272 ≤ e.lower ∧ e.upper ≤ 887272) {sp : Int} {z : Bool}
    {rate limit P P' : Nat} {rem rem' : Int} {legs : List Leg} (hp : Path h sp z rate limit P rem legs P' rem') :
    (if z then (((legs.map (·.input)).sum : Nat) : ℚ) ≤ principal0 h P' - principal0 h P + legs.length ∧
        (0 ≤ rem → principal1 h P - principal1 h P' ≤ (((legs.map (·.output)).sum : Nat) : ℚ) + legs.length)
      else (((legs.map (·.input)).sum : Nat) : ℚ) ≤ principal1 h P' - principal1 h P + legs.length ∧
        (0 ≤ rem → principal0 h P - principal0 h P' ≤ (((legs.map (·.output)).sum : Nat) : ℚ) + legs.length)) := by
  induction hp with
  | stop P rem _ => cases z <;> simp
  | leg hr hl hok hp ih =>
    rename_i l rem rem' ls P'
    have hf := leg_fair hc hb hok
    have hrest : 0 ≤ rem → 0 ≤ l.rest rem := by
      intro h0
      have := hok.budget h0
      unfold Leg.rest
      rw [if_pos h0]
      omega
    simp only [List.map_cons, List.sum_cons, List.length_cons]
    push_cast
    cases z
    · rw [if_neg (by decide)] at ih hf ⊢
      refine ⟨by linarith [ih.1, hf.1], fun h0 => ?_⟩
      have := ih.2 (hrest h0)
      have := hf.2 h0
      linarith
    · rw [if_pos rfl] at ih hf ⊢
      refine ⟨by linarith [ih.1, hf.1], fun h0 => ?_⟩
      have := ih.2 (hrest h0)
      have := hf.2 h0
      linarith

/-- The fees of an exact output are the fee rate, rounded up once per leg. -/
theorem path_cost {h : List Entry} {sp : Int} {z : Bool} {rate limit P P' : Nat} {rem rem' : Int} {legs : List Leg} (hrate : rate < 1000000)
    (hp : Path h sp z rate limit P rem legs P' rem') (h0 : rem ≤ 0) :
    (legs.map (fun l => l.input + l.fee)).sum * (1000000 - rate) ≤ (legs.map (·.input)).sum * 1000000 + legs.length * (1000000 - rate) := by
  induction hp with
  | stop P rem _ => simp
  | leg hr hl hok hp ih =>
    rename_i l rem rem' ls P'
    have hneg : rem < 0 := by omega
    have hrest : l.rest rem ≤ 0 := by
      unfold Leg.rest
      rw [if_neg (by omega)]
      rcases hok.outputOut hneg with ⟨_, h1⟩ | ⟨h1, _, _⟩ <;> omega
    have hfee := hok.feeOut hneg
    have h2 : l.fee ≤ l.input * rate / (1000000 - rate) + 1 := by
      rw [hfee]; exact ceilDiv_le_div_succ _ _
    have h3 := Nat.div_mul_le_self (l.input * rate) (1000000 - rate)
    have h4 : l.fee * (1000000 - rate) ≤ l.input * rate + (1000000 - rate) := by
      refine le_trans (Nat.mul_le_mul_right _ h2) ?_
      rw [Nat.add_mul]
      omega
    have h5 := ih hrest
    simp only [List.map_cons, List.sum_cons, List.length_cons]
    have h6 : l.input * (1000000 - rate) + l.input * rate = l.input * 1000000 := by
      rw [← Nat.mul_add]; congr 1; omega
    rw [Nat.add_mul, Nat.add_mul, Nat.add_mul, Nat.add_mul, Nat.one_mul]
    omega

end Pool
end Uni
