import Verif.Spec.Dust
import Verif.Proofs.Cash
import Verif.Proofs.SwapPath
/-! # All cash of the pool belongs to somebody, apart from roundings -/
namespace Uni
open U256 Spec TickData TickMath FullMath SwapMath LiquidityAmounts
namespace Pool

/-! ### The fees of the legs of a swap -/

/-- An iteration without liquidity takes no fee. -/
theorem fee_empty {C T L fee next i o f : Nat} {rem : Int} (hs : Spec.SwapStep C T L rem fee next i o f) (h0 : L = 0) : f = 0 := by
  rw [hs.feeExact (Or.inr (hs.empty h0)), hs.input, h0]
  have : inAmount (decide (T ≤ C)) C next 0 = 0 := by
    unfold inAmount amount0Up amount1Up
    split <;> simp [ceilDiv] <;> omega
  rw [this, Nat.zero_mul]
  simp [ceilDiv]
  omega

/-- The legs of a loop and its accruals. -/
theorem loop_legs {p : Pool} {h : List Entry} {sp : Int} {z ein : Bool} {limit : U256} {s' : SwapState} (hf0 : 0 ≤ p.fee) (hf1 : p.fee < 1000000)
    (fuel : Nat) (s : SwapState) (hs : SInv h sp z ein limit s) (hd : z = true → Falling sp z s) (hx : swapLoop p z ein limit fuel s = .ok s') :
    ∃ legs : List Leg, Run p h sp z ein limit s s' (legs.map (·.input)).sum (legs.map (·.output)).sum (legs.map (·.fee)).sum ∧
      Path h sp z p.fee.toNat limit.toNat s.price.toNat s.remaining.toInt legs s'.price.toNat s'.remaining.toInt ∧
      legs.length < fuel ∧
      List.Forall₂ (fun e (l : Leg) => FeeOf h z e l.fee ∧ (active h e.tick = 0 → l.fee = 0) ∧ 0 ≤ active h e.tick ∧ active h e.tick < 2 ^ 128)
        (swapLog p z ein limit fuel s) legs := by
  induction fuel generalizing s with
  | zero => cases hx
  | succ n ih =>
    unfold swapLoop at hx
    unfold swapLog
    by_cases hr : running limit s = true
    · rw [if_pos hr] at hx ⊢
      obtain ⟨s1, h1, hx⟩ := bind_ok hx
      rw [h1]
      dsimp only
      obtain ⟨st, target, hs1, hf, hR⟩ := step_inv hs hf0 hf1 hr h1
      have hd1 : z = true → Falling sp z s1 := fun hz => (falling_step hs hf (hd hz)).2
      obtain ⟨legs, k1, k2, k3, k4⟩ := ih s1 hs1 hd1 hx
      obtain ⟨k5, k6⟩ := leg_ok hs hr (fun hz => (falling_step hs hf (hd hz)).1) hf hR _ rfl
      refine ⟨⟨s.price.toNat, s1.price.toNat, s.liquidity.toNat, st.amountIn.toNat, st.fee.toNat, st.amountOut.toNat⟩ :: legs, ?_, ?_, ?_, ?_⟩
      · have := Run.trans (Run.step Run.refl hs hr hf hR hs1) k1
        simp only [List.map_cons, List.sum_cons]
        rw [Nat.zero_add, Nat.zero_add, Nat.zero_add] at this
        exact this
      · have hrun := running_iff.1 hr
        refine Path.leg (l := ⟨s.price.toNat, s1.price.toNat, s.liquidity.toNat, st.amountIn.toNat, st.fee.toNat, st.amountOut.toNat⟩)
          hrun.1 hrun.2 k5 ?_
        rw [k6]
        exact k2
      · rw [List.length_cons]; omega
      · refine List.Forall₂.cons ⟨?_, ?_, ?_⟩ k4
        · have h2 := accrue_eq hs.inv.liq_lt hf.growth
          unfold FeeOf
          dsimp only
          have h3 : sub s1.growth s.growth = feePerUnit st.fee.toNat (active h s.tick) := by
            rw [sub_def, h2, hs.inv.liq]; abel
          cases z
          · exact ⟨h3, rfl⟩
          · exact ⟨h3, rfl⟩
        · intro h0
          dsimp only at h0 ⊢
          rw [← hs.inv.liq] at h0
          exact fee_empty hf.spec (by omega)
        · have := hs.inv.liq_lt
          dsimp only
          rw [← hs.inv.liq]
          omega
    · rw [if_neg hr] at hx ⊢
      cases hx
      refine ⟨[], Run.refl, Path.stop _ _ (not_running (Bool.eq_false_iff.2 hr)), ?_, List.Forall₂.nil⟩
      rw [List.length_nil]; omega

/-- A fee that is shared loses less than one unit. -/
theorem feePerUnit_ge {f : Nat} {A : Int} (h0 : A = 0 → f = 0) (hA : 0 ≤ A) (hA' : A < 2 ^ 128) (hf : f < 2 ^ 128) :
    f * 2 ^ 128 ≤ (feePerUnit f A).toNat * A.toNat + 2 ^ 128 := by
  unfold feePerUnit
  by_cases h : A = 0
  · rw [if_pos h, h0 h, Nat.zero_mul]
    exact Nat.zero_le _
  · rw [if_neg h, toNat_ofNat]
    obtain ⟨a, rfl⟩ := Int.eq_ofNat_of_zero_le hA
    rw [Int.toNat_natCast]
    have ha : 0 < a := by omega
    have ha' : a < 2 ^ 128 := by exact_mod_cast hA'
    have h1 : f * 2 ^ 128 / a < 2 ^ 256 := by
      refine lt_of_le_of_lt (Nat.div_le_self _ _) ?_
      calc f * 2 ^ 128 < 2 ^ 128 * 2 ^ 128 := Nat.mul_lt_mul_of_pos_right hf (by norm_num)
        _ = 2 ^ 256 := by norm_num
    rw [Nat.mod_eq_of_lt h1]
    have h2 := Nat.div_add_mod (f * 2 ^ 128) a
    have h3 := Nat.mod_lt (f * 2 ^ 128) ha
    rw [Nat.mul_comm] at h2
    generalize f * 2 ^ 128 / a * a = q at *
    omega

theorem feeN_legs {h : List Entry} {z : Bool} {log : List Accrual} {legs : List Leg}
    (hf : List.Forall₂ (fun e (l : Leg) => FeeOf h z e l.fee ∧ (active h e.tick = 0 → l.fee = 0) ∧ 0 ≤ active h e.tick ∧ active h e.tick < 2 ^ 128) log legs)
    (hF : (legs.map (·.fee)).sum < 2 ^ 128) : (legs.map (·.fee)).sum * 2 ^ 128 ≤ feeN z h log + legs.length * 2 ^ 128 := by
  induction hf with
  | nil => exact Nat.zero_le _
  | @cons e l log' legs' he _ ih =>
    obtain ⟨⟨e1, e2⟩, e3, e4, e5⟩ := he
    rw [List.map_cons, List.sum_cons] at hF ⊢
    rw [List.length_cons]
    unfold feeN
    have : ddS z e = feePerUnit l.fee (active h e.tick) := e1
    rw [this]
    have k1 := feePerUnit_ge e3 e4 e5 (show l.fee < 2 ^ 128 by omega)
    have k2 := ih (by omega)
    rw [Nat.add_mul, Nat.add_mul]
    linarith

/-- A swap: what it pays is the change of the principal and the fees, up to one unit per leg, and the fees are shared up to
one unit per leg. -/
theorem swap_dust {h : List Entry} {p p' : Pool} (hi : Inv h p) {fuel : Nat} {z : Bool} {amount limit r0 r1 : U256}
    (ha : amount.toInt < 2 ^ 160) (hg : z = true → Good p.spacing p.tick) (hx : p.swap fuel z amount limit = .ok (r0, r1, p'))
    (s : Bool) (hs : 0 ≤ amount.toInt ∨ z = s) :
    ∃ F k : Nat, k < fuel ∧ feeN s h (callLog fuel p z amount limit) ≤ F * 2 ^ 128 ∧
      prinS s h p'.price.toNat - prinS s h p.price.toNat + F ≤ ((pairS s (r0.toInt, r1.toInt) : Int) : ℚ) ∧
      ((pairS s (r0.toInt, r1.toInt) : Int) : ℚ) ≤ prinS s h p'.price.toNat - prinS s h p.price.toNat + F + k ∧
      (F < 2 ^ 128 → F * 2 ^ 128 ≤ feeN s h (callLog fuel p z amount limit) + k * 2 ^ 128) := by
  obtain ⟨h1, h2, st, h3, h4, h5⟩ := swap_eq hx
  have h6 := init_sinv hi ha h2 (fun hz => clear_good (hg hz))
  obtain ⟨legs, h7, h8, h9, h10⟩ := loop_legs hi.fee0 hi.fee1 fuel _ h6 (fun hz => ⟨hz, Or.inl (hg hz)⟩) h3
  obtain ⟨_, h11, _⟩ := loop_run h6 hi.fee0 hi.fee1 h3
  obtain ⟨a1, a2⟩ := swap_amounts hi h6 h7 h11 (p' := p') h4
  have hlog : List.Forall₂ (FeeOf h z) (callLog fuel p z amount limit) (legs.map (·.fee)) := by
    have : ∀ (log : List Accrual) (legs : List Leg), List.Forall₂ (fun e (l : Leg) => FeeOf h z e l.fee ∧ (active h e.tick = 0 → l.fee = 0) ∧
        0 ≤ active h e.tick ∧ active h e.tick < 2 ^ 128) log legs → List.Forall₂ (FeeOf h z) log (legs.map (·.fee)) := by
      intro log legs hf
      induction hf with
      | nil => exact List.Forall₂.nil
      | cons he _ ih => exact List.Forall₂.cons he.1 ih
    exact this _ _ h10
  have h12 := path_fair hi.cov hi.bounds h8
  have ep : (initState p z amount).price = p.price := rfl
  have ep' : (afterSwap p z st).price = st.price := rfl
  have er : (initState p z amount).remaining = amount := rfl
  have hN := feeN_swap hlog s
  subst h5
  rw [ep, er] at h12
  rw [ep']
  by_cases hsz : s = z
  · subst hsz
    have hN' : feeN s h (callLog fuel p s amount limit) ≤ (legs.map (·.fee)).sum * 2 ^ 128 := by
      rw [if_pos rfl] at hN
      exact hN
    have hk := feeN_legs h10
    refine ⟨(legs.map (·.fee)).sum, legs.length, h9, ?_, ?_, ?_, ?_⟩
    · exact hN'
    rotate_left 2
    · exact hk
    · cases s
      · obtain ⟨e1, e0⟩ := run_rise_principal hi.bounds h7 (Or.inl rfl)
        rw [ep] at e1
        have a1' : r1.toInt = ((legs.map (·.input)).sum : Nat) + ((legs.map (·.fee)).sum : Nat) := a1
        show principal1 _ _ - principal1 _ _ + _ ≤ ((r1.toInt : Int) : ℚ)
        rw [a1']
        push_cast at e1 ⊢
        linarith
      · obtain ⟨e0, e1⟩ := run_fall_principal hi.bounds h7 ⟨rfl, Or.inl (hg rfl)⟩
        rw [ep] at e0
        have a1' : r0.toInt = ((legs.map (·.input)).sum : Nat) + ((legs.map (·.fee)).sum : Nat) := a1
        show principal0 _ _ - principal0 _ _ + _ ≤ ((r0.toInt : Int) : ℚ)
        rw [a1']
        push_cast at e0 ⊢
        linarith
    · cases s
      · rw [if_neg (by decide)] at h12
        have a1' : r1.toInt = ((legs.map (·.input)).sum : Nat) + ((legs.map (·.fee)).sum : Nat) := a1
        show ((r1.toInt : Int) : ℚ) ≤ principal1 _ _ - principal1 _ _ + _ + _
        rw [a1']
        have := h12.1
        push_cast at this ⊢
        linarith
      · rw [if_pos rfl] at h12
        have a1' : r0.toInt = ((legs.map (·.input)).sum : Nat) + ((legs.map (·.fee)).sum : Nat) := a1
        show ((r0.toInt : Int) : ℚ) ≤ principal0 _ _ - principal0 _ _ + _ + _
        rw [a1']
        have := h12.1
        push_cast at this ⊢
        linarith
  · have h0 : 0 ≤ amount.toInt := hs.resolve_right (fun e => hsz e.symm)
    rw [if_neg hsz] at hN
    have hz : ∀ x : Nat, 0 * 2 ^ 128 ≤ x := fun x => le_of_eq_of_le (Nat.zero_mul _) (Nat.zero_le x)
    refine ⟨0, legs.length, h9, le_trans hN (hz 0), ?_, ?_, fun _ => hz _⟩
    · cases z
      · obtain rfl : s = true := by cases s <;> first | rfl | exact absurd rfl hsz
        obtain ⟨e1, e0⟩ := run_rise_principal hi.bounds h7 (Or.inl rfl)
        rw [ep] at e0
        have a2' : r0.toInt = -((legs.map (·.output)).sum : Nat) := a2
        show principal0 _ _ - principal0 _ _ + _ ≤ ((r0.toInt : Int) : ℚ)
        rw [a2']
        push_cast at e0 ⊢
        linarith
      · obtain rfl : s = false := by cases s <;> first | rfl | exact absurd rfl hsz
        obtain ⟨e0, e1⟩ := run_fall_principal hi.bounds h7 ⟨rfl, Or.inl (hg rfl)⟩
        rw [ep] at e1
        have a2' : r1.toInt = -((legs.map (·.output)).sum : Nat) := a2
        show principal1 _ _ - principal1 _ _ + _ ≤ ((r1.toInt : Int) : ℚ)
        rw [a2']
        push_cast at e1 ⊢
        linarith
    · cases z
      · obtain rfl : s = true := by cases s <;> first | rfl | exact absurd rfl hsz
        rw [if_neg (by decide)] at h12
        have a2' : r0.toInt = -((legs.map (·.output)).sum : Nat) := a2
        show ((r0.toInt : Int) : ℚ) ≤ principal0 _ _ - principal0 _ _ + _ + _
        rw [a2']
        have := h12.2 h0
        push_cast at this ⊢
        linarith
      · obtain rfl : s = false := by cases s <;> first | rfl | exact absurd rfl hsz
        rw [if_pos rfl] at h12
        have a2' : r1.toInt = -((legs.map (·.output)).sum : Nat) := a2
        show ((r1.toInt : Int) : ℚ) ≤ principal1 _ _ - principal1 _ _ + _ + _
        rw [a2']
        have := h12.2 h0
        push_cast at this ⊢
        linarith

/-! ### The claims grow by all fees -/

theorem accS_eq (s : Bool) (r : Int × Int) (log : List Accrual) (hb : accN s r log < 2 ^ 256) :
    (accS s r.1 r.2 log).toNat = accN s r log := by
  induction log with
  | nil => cases s <;> rfl
  | cons e log ih =>
    have key : accS s r.1 r.2 (e :: log) = if r.1 ≤ e.tick ∧ e.tick < r.2 then add (ddS s e) (accS s r.1 r.2 log) else accS s r.1 r.2 log := by
      cases s <;> rfl
    rw [key]
    unfold accN at hb ⊢
    by_cases hc : r.1 ≤ e.tick ∧ e.tick < r.2
    · rw [if_pos hc] at hb
      rw [if_pos hc, if_pos hc, toNat_add, ih (by omega), Nat.mod_eq_of_lt hb]
    · rw [if_neg hc] at hb
      rw [if_neg hc, if_neg hc, ih (by omega), Nat.zero_add]

/-- If all ranges that hold liquidity are listed, a weighted sum over the ledger is the sum over the listed ranges. -/
theorem ranges_eq {rs : List (Int × Int)} (hn : rs.Nodup) {f : Int → Int → Int} :
    ∀ {h : List Entry}, (∀ l u, outstanding h l u ≠ 0 → (l, u) ∈ rs) → (rs.map fun r => f r.1 r.2 * outstanding h r.1 r.2).sum = wsum f h := by
  induction rs with
  | nil =>
    intro h ho
    have h0 : ∀ l u, outstanding h l u = 0 := fun l u => by
      by_contra hc
      exact absurd (ho l u hc) (by simp)
    have h1 : 0 ≤ wsum f h := wsum_nonneg (fun l u => (h0 l u).ge) (fun e _ hp => absurd (h0 e.lower e.upper) (by omega))
    have h2 : 0 ≤ wsum (fun a b => -f a b) h := wsum_nonneg (fun l u => (h0 l u).ge) (fun e _ hp => absurd (h0 e.lower e.upper) (by omega))
    have h3 : wsum (fun a b => -f a b) h = -wsum f h := by
      unfold wsum
      clear * -
      induction h with
      | nil => rfl
      | cons e h ih =>
        simp only [List.map_cons, List.sum_cons] at ih ⊢
        rw [ih]
        ring
    show 0 = wsum f h
    omega
  | cons r rs ih =>
    intro h ho
    obtain ⟨n1, n2⟩ := List.nodup_cons.1 hn
    rw [List.map_cons, List.sum_cons, wsum_filter f r.1 r.2 h]
    have ho' : ∀ l u, outstanding (h.filter (fun e => !decide (e.lower = r.1 ∧ e.upper = r.2))) l u ≠ 0 → (l, u) ∈ rs := by
      intro l u hne
      rw [outstanding_filter] at hne
      by_cases hc : l = r.1 ∧ u = r.2
      · rw [if_pos hc] at hne
        exact absurd rfl hne
      · rw [if_neg hc] at hne
        rcases List.mem_cons.1 (ho l u hne) with he | he
        · exact absurd ⟨congrArg Prod.fst he, congrArg Prod.snd he⟩ hc
        · exact he
    have h1 := ih n2 ho'
    have h2 : (rs.map fun x => f x.1 x.2 * outstanding (h.filter (fun e => !decide (e.lower = r.1 ∧ e.upper = r.2))) x.1 x.2) =
        rs.map fun x => f x.1 x.2 * outstanding h x.1 x.2 := by
      apply List.map_congr_left
      intro x hx
      rw [outstanding_filter, if_neg]
      rintro ⟨e1, e2⟩
      apply n1
      have : x = r := Prod.ext e1 e2
      rw [← this]; exact hx
    rw [h2] at h1
    rw [h1]
    rfl

/-- Every unit of liquidity is recorded for one of the ranges. -/
def AllRecorded (rs : List (Int × Int)) (h : List Entry) (p : Pool) : Prop :=
  (∀ r ∈ rs, (liqOf p r : Int) = outstanding h r.1 r.2) ∧ ∀ l u, outstanding h l u ≠ 0 → (l, u) ∈ rs

theorem allRecorded_active {rs : List (Int × Int)} (hn : rs.Nodup) {h : List Entry} {p : Pool} (hrec : AllRecorded rs h p) (t : Int) :
    (((rs.map fun r => if r.1 ≤ t ∧ t < r.2 then liqOf p r else 0).sum : Nat) : Int) = active h t := by
  obtain ⟨h1, h2⟩ := hrec
  unfold active
  rw [← ranges_eq hn (f := fun a b => if a ≤ t ∧ t < b then 1 else 0) h2]
  clear hn h2
  induction rs with
  | nil => rfl
  | cons r rs ih =>
    rw [List.map_cons, List.map_cons, List.sum_cons, List.sum_cons, ← ih fun x hx => h1 x (List.mem_cons_of_mem _ hx)]
    have h3 := h1 r List.mem_cons_self
    push_cast
    by_cases hc : r.1 ≤ t ∧ t < r.2
    · rw [if_pos hc, if_pos hc, h3, one_mul]
    · rw [if_neg hc, if_neg hc, zero_mul]

theorem sum_accN_eq {rs : List (Int × Int)} (hn : rs.Nodup) {h : List Entry} {p : Pool} (hrec : AllRecorded rs h p) (s : Bool)
    (log : List Accrual) : (rs.map fun r => liqOf p r * accN s r log).sum = feeN s h log := by
  induction log with
  | nil =>
    show (rs.map fun r => liqOf p r * 0).sum = 0
    clear * -
    induction rs with
    | nil => rfl
    | cons r rs ih => rw [List.map_cons, List.sum_cons, ih]; rfl
  | cons e log ih =>
    have h1 : (fun r => liqOf p r * accN s r (e :: log)) = fun r =>
        (ddS s e).toNat * (if r.1 ≤ e.tick ∧ e.tick < r.2 then liqOf p r else 0) + liqOf p r * accN s r log := by
      funext r
      show liqOf p r * ((if r.1 ≤ e.tick ∧ e.tick < r.2 then (ddS s e).toNat else 0) + accN s r log) = _
      split <;> ring
    rw [h1, sum_add, ih]
    show _ = (ddS s e).toNat * (active h e.tick).toNat + feeN s h log
    have h2 : ∀ l : List (Int × Int), (l.map fun r => (ddS s e).toNat * (if r.1 ≤ e.tick ∧ e.tick < r.2 then liqOf p r else 0)).sum =
        (ddS s e).toNat * (l.map fun r => if r.1 ≤ e.tick ∧ e.tick < r.2 then liqOf p r else 0).sum := by
      intro l
      induction l with
      | nil => rfl
      | cons x l ih => rw [List.map_cons, List.map_cons, List.sum_cons, List.sum_cons, ih]; ring
    rw [h2, ← allRecorded_active hn hrec e.tick, Int.toNat_natCast]

/-- The claims of a range whose record is not used, if nothing wraps around. -/
theorem pot_eq {h h' : List Entry} {p p' : Pool} {log : List Accrual} (hi : Inv h p) (hi' : Inv h' p')
    (hg : GrowthStep p p' log) {r : Int × Int} (hpos : p'.positions (posKey r.1 r.2) = p.positions (posKey r.1 r.2))
    (h1 : (liqOf p r : Int) = outstanding h r.1 r.2) (h2 : (liqOf p r : Int) = outstanding h' r.1 r.2) (s : Bool)
    (hb : pot s p r + liqOf p r * accN s r log < 2 ^ 256) :
    pot s p' r = pot s p r + liqOf p r * accN s r log := by
  unfold pot at hb ⊢
  rw [record_congr hpos]
  rcases Nat.eq_zero_or_pos (liqOf p r) with h0 | h0
  · rw [h0]
    unfold liqOf at h0
    rw [h0, Nat.zero_mul, Nat.zero_mul, Nat.zero_mul]
  · rw [growthNow_step hi hi' hg (by omega) (by omega) s]
    have e : giS s (growthNow p r) + accS s r.1 r.2 log - laS s (recordOf p r) =
        add (giS s (growthNow p r) - laS s (recordOf p r)) (accS s r.1 r.2 log) := by rw [add_def]; abel
    rw [e, toNat_add]
    have hl : liqOf p r = (recordOf p r).liquidity.toNat := rfl
    rw [← hl] at hb ⊢
    generalize (giS s (growthNow p r) - laS s (recordOf p r)).toNat = g at hb ⊢
    generalize (owS s (recordOf p r)).toNat * 2 ^ 128 = o at hb ⊢
    have h3 : liqOf p r * (g + accN s r log) < 2 ^ 256 := by rw [Nat.mul_add]; omega
    have h4 : g + accN s r log < 2 ^ 256 := lt_of_le_of_lt (Nat.le_mul_of_pos_left _ h0) h3
    rw [accS_eq s r log (by omega), Nat.mod_eq_of_lt h4, Nat.mul_add, Nat.add_assoc]

theorem mem_le_sum {α : Type} {rs : List α} {f : α → Nat} {r : α} (hr : r ∈ rs) : f r ≤ (rs.map f).sum := by
  induction rs with
  | nil => cases hr
  | cons x rs ih =>
    rw [List.map_cons, List.sum_cons]
    rcases List.mem_cons.1 hr with rfl | h
    · exact Nat.le_add_right _ _
    · exact (ih h).trans (Nat.le_add_left _ _)

/-- All claims when no record is used and nothing wraps around. -/
theorem pots_eq {h h' : List Entry} {p p' : Pool} {log : List Accrual} {rs : List (Int × Int)} (hn : rs.Nodup) (hi : Inv h p)
    (hi' : Inv h' p') (hg : GrowthStep p p' log) (hpos : p'.positions = p.positions) (h1 : AllRecorded rs h p)
    (h2 : AllRecorded rs h' p) (s : Bool) (hb : (rs.map (pot s p)).sum + feeN s h log < 2 ^ 256) :
    (rs.map (pot s p')).sum = (rs.map (pot s p)).sum + feeN s h log := by
  have e : (rs.map (pot s p)).sum + feeN s h log = (rs.map fun r => pot s p r + liqOf p r * accN s r log).sum := by
    rw [sum_add, sum_accN_eq hn h1 s log]
  have hm : rs.map (pot s p') = rs.map fun r => pot s p r + liqOf p r * accN s r log := by
    apply List.map_congr_left
    intro r hr
    have h3 := mem_le_sum (f := fun r => pot s p r + liqOf p r * accN s r log) hr
    rw [← e] at h3
    exact pot_eq hi hi' hg (by rw [hpos]) (h1.1 r hr) (h2.1 r hr) s (lt_of_le_of_lt h3 hb)
  rw [hm, e]

/-! ### Steps -/

theorem prinS_nonneg {h : List Entry} (hc : Covered h) (s : Bool) (P : Nat) : 0 ≤ prinS s h P := by
  cases s
  · exact wsum_nonneg hc.nonneg (fun _ _ _ => holding_nonneg.2)
  · exact wsum_nonneg hc.nonneg (fun _ _ _ => holding_nonneg.1)

/-- What a step has to show. -/
structure DustStep (rs : List (Int × Int)) (s : Bool) (h h' : List Entry) (p p' : Pool) (c : Int) (k : Nat) : Prop where
  recorded : AllRecorded rs h' p'
  kept : (c : ℚ) * 2 ^ 128 + ((rs.map (pot s p)).sum : Nat) ≤
    (prinS s h' p'.price.toNat - prinS s h p.price.toNat) * 2 ^ 128 + ((rs.map (pot s p')).sum : Nat) + 2 * k * 2 ^ 128

/-- Steps that use no record. -/
theorem idle_dust {h : List Entry} {p p' : Pool} {log : List Accrual} {rs : List (Int × Int)} (hn : rs.Nodup) (hi : Inv h p)
    (hi' : Inv h p') (hg : GrowthStep p p' log) (hpos : p'.positions = p.positions) (h1 : AllRecorded rs h p) {s : Bool} {b c : Int}
    {F k : Nat} (hf : feeN s h log ≤ F * 2 ^ 128) (hc : prinS s h p'.price.toNat - prinS s h p.price.toNat + F ≤ (c : ℚ))
    (hc' : (c : ℚ) ≤ prinS s h p'.price.toNat - prinS s h p.price.toNat + F + k) (hF : F < 2 ^ 128 → F * 2 ^ 128 ≤ feeN s h log + k * 2 ^ 128)
    (hcash : prinS s h p.price.toNat * 2 ^ 128 + ((rs.map (pot s p)).sum : Nat) ≤ (b : ℚ) * 2 ^ 128) (hb : b + c < 2 ^ 128) :
    DustStep rs s h h p p' c k := by
  have n1 := prinS_nonneg hi'.cov s p'.price.toNat
  have n2 := prinS_nonneg hi.cov s p.price.toNat
  have hbq : (b : ℚ) + c < 2 ^ 128 := by exact_mod_cast hb
  have hfq : (feeN s h log : ℚ) ≤ F * 2 ^ 128 := by exact_mod_cast hf
  have hS : (0 : ℚ) ≤ ((rs.map (pot s p)).sum : Nat) := Nat.cast_nonneg _
  have h2 : (((rs.map (pot s p)).sum : Nat) : ℚ) + F * 2 ^ 128 < 2 ^ 128 * 2 ^ 128 := by nlinarith
  have h3 : F < 2 ^ 128 := by
    have : (F : ℚ) < 2 ^ 128 := by
      refine lt_of_mul_lt_mul_right ?_ (show (0 : ℚ) ≤ 2 ^ 128 by norm_num)
      linarith
    exact_mod_cast this
  have h4 : (rs.map (pot s p)).sum + feeN s h log < 2 ^ 256 := by
    have : (((rs.map (pot s p)).sum + feeN s h log : Nat) : ℚ) < 2 ^ 256 := by
      push_cast
      have : (2 : ℚ) ^ 256 = 2 ^ 128 * 2 ^ 128 := by norm_num
      rw [this]
      push_cast at h2
      linarith
    exact_mod_cast this
  have h5 := pots_eq hn hi hi' hg hpos h1 h1 s h4
  refine ⟨⟨fun r hr => ?_, h1.2⟩, ?_⟩
  · have := h1.1 r hr
    have e : recordOf p' r = recordOf p r := record_congr (by rw [hpos])
    unfold liqOf at this ⊢
    rw [e]
    exact this
  · have h6 : (F : ℚ) * 2 ^ 128 ≤ feeN s h log + k * 2 ^ 128 := by exact_mod_cast hF h3
    rw [h5]
    push_cast
    have h7 := mul_le_mul_of_nonneg_right hc' (show (0 : ℚ) ≤ 2 ^ 128 by norm_num)
    linarith

/-- The claims of a range whose record is touched lose less than one unit. -/
theorem touch_pot_ge {h : List Entry} {p p' : Pool} (hi : Inv h p) {pos : Info} {l u : Int} {d a0 a1 : U256}
    (hx : p.modifyPositionStrategy l u d = .ok (pos, a0, a1, p'))
    (h1 : (liqOf p (l, u) : Int) = outstanding h l u) (s : Bool) (hb : pot s p (l, u) < 2 ^ 256) :
    pot s p (l, u) ≤ (owS s pos).toNat * 2 ^ 128 + 2 ^ 128 := by
  obtain ⟨ins, k1, k2, k3⟩ := touch_inside hi hx
  obtain ⟨u1, u2, u3, u4, u5⟩ := update_ok k1
  have hrec : recordOf p (l, u) = posOrNew (p.positions (posKey l u)) := record_posOrNew p (l, u)
  rw [← hrec] at u4 u5
  have e : owS s pos = add (owS s (recordOf p (l, u))) (share (recordOf p (l, u)).liquidity (giS s ins - laS s (recordOf p (l, u)))) := by
    cases s
    · exact u5
    · exact u4
  have e2 : (recordOf p (l, u)).liquidity.toNat * (giS s (growthNow p (l, u)) - laS s (recordOf p (l, u))).toNat =
      (recordOf p (l, u)).liquidity.toNat * (giS s ins - laS s (recordOf p (l, u))).toNat := by
    rcases Nat.eq_zero_or_pos (liqOf p (l, u)) with h0 | h0
    · unfold liqOf at h0
      rw [h0, Nat.zero_mul, Nat.zero_mul]
    · rw [growthNow_ok (r := (l, u)) (k2 (init_of_out hi (by omega)))]
  unfold pot at hb ⊢
  rw [e2] at hb ⊢
  rw [e, toNat_add]
  unfold share
  rw [toNat_ofNat]
  generalize (recordOf p (l, u)).liquidity.toNat * (giS s ins - laS s (recordOf p (l, u))).toNat = w at hb ⊢
  generalize (owS s (recordOf p (l, u))).toNat = o at hb ⊢
  have hw : w / 2 ^ 128 < 2 ^ 256 := lt_of_le_of_lt (Nat.div_le_self _ _) (by omega)
  rw [Nat.mod_eq_of_lt hw]
  have h2 := Nat.div_add_mod w (2 ^ 128)
  have h3 := Nat.mod_lt w (show 0 < 2 ^ 128 by norm_num)
  have h4 : o + w / 2 ^ 128 < 2 ^ 256 := by omega
  rw [Nat.mod_eq_of_lt h4]
  omega

/-- Steps that use one record. -/
theorem touch_dust {h h' : List Entry} {p p' : Pool} {rs : List (Int × Int)} (ho : OwnRecords rs) (hi : Inv h p)
    (hi' : Inv h' p') (hg : GrowthStep p p' []) {l u : Int} {pos : Info} (hlu : (l, u) ∈ rs)
    (hpos : p'.positions = setPos p.positions (posKey l u) pos) (h1 : AllRecorded rs h p)
    (h2 : ∀ l' u', ¬ (l' = l ∧ u' = u) → outstanding h' l' u' = outstanding h l' u')
    (h3 : (pos.liquidity.toNat : Int) = outstanding h' l u) {s : Bool} {x y k : Nat} {c : Int}
    (hb : (rs.map (pot s p)).sum < 2 ^ 256)
    (h4 : pot s p (l, u) + y * 2 ^ 128 ≤
      (owS s pos).toNat * 2 ^ 128 + pos.liquidity.toNat * (giS s (growthNow p' (l, u)) - laS s pos).toNat + x * 2 ^ 128)
    (hc : (c : ℚ) + x - y ≤ prinS s h' p'.price.toNat - prinS s h p.price.toNat + 2 * k) : DustStep rs s h h' p p' c k := by
  have hrec : recordOf p' (l, u) = pos := by
    unfold recordOf
    rw [hpos, setPos_same]
  have hoth : ∀ r ∈ rs, r ≠ (l, u) → p'.positions (posKey r.1 r.2) = p.positions (posKey r.1 r.2) := by
    intro r hr hne
    rw [hpos, setPos_ne (ranges_key ho hr hlu hne)]
  have hne' : ∀ r : Int × Int, r ≠ (l, u) → ¬ (r.1 = l ∧ r.2 = u) := fun r hne hc => hne (Prod.ext hc.1 hc.2)
  refine ⟨⟨fun r hr => ?_, fun l' u' hne => ?_⟩, ?_⟩
  · by_cases he : r = (l, u)
    · subst he
      unfold liqOf
      rw [hrec]
      exact h3
    · have := h1.1 r hr
      rw [h2 _ _ (hne' r he), ← this]
      unfold liqOf
      rw [record_congr (hoth r hr he)]
  · by_cases he : l' = l ∧ u' = u
    · rw [he.1, he.2]; exact hlu
    · rw [h2 _ _ he] at hne
      exact h1.2 _ _ hne
  · have hm : (rs.map (pot s p)).sum + y * 2 ^ 128 ≤ (rs.map (pot s p')).sum + x * 2 ^ 128 := by
      refine sum_one ho.1 hlu (fun r hr hne => ?_) ?_
      · have h5 := h1.1 r hr
        have h6 := h2 _ _ (hne' r hne)
        have h7 := lt_of_le_of_lt (mem_le_sum (f := pot s p) hr) hb
        have h8 : pot s p r + liqOf p r * accN s r [] = pot s p r := by
          unfold accN
          rw [Nat.mul_zero, Nat.add_zero]
        have := pot_eq hi hi' hg (hoth r hr hne) h5 (by rw [h6]; exact h5) s (lt_of_eq_of_lt h8 h7)
        rw [this]
        exact Nat.le_add_right _ _
      · refine le_trans h4 (le_of_eq ?_)
        unfold pot
        rw [hrec]
    have hm' : (((rs.map (pot s p)).sum : Nat) : ℚ) + y * 2 ^ 128 ≤ ((rs.map (pot s p')).sum : Nat) + x * 2 ^ 128 := by exact_mod_cast hm
    have h8 := mul_le_mul_of_nonneg_right hc (show (0 : ℚ) ≤ 2 ^ 128 by norm_num)
    linarith

theorem prinS_cons (s : Bool) (l u d : Int) (h : List Entry) (P : Nat) :
    prinS s (⟨l, u, d⟩ :: h) P = (if s then holding0 P l u else holding1 P l u) * d + prinS s h P := by
  obtain ⟨e0, e1⟩ := principal_cons l u d h P
  cases s
  · exact e1
  · exact e0

theorem outstanding_le_total {h : List Entry} (hc : Covered h) (l u : Int) : outstanding h l u ≤ total h :=
  wsum_le hc.nonneg (fun e _ _ => by split <;> omega)

theorem dust_step {rs : List (Int × Int)} (ho : OwnRecords rs) {h : List Entry} {p p' : Pool} (hi : Inv h p) {s : Bool}
    (h1 : AllRecorded rs h p) {k : Nat} {op : PoolOp} (ha : op.Admissible p h)
    (hs : op.Safe p) (hfair : op.Fair rs p h) (hown : op.Owned s p) (hx : op.exec (k + 1) p = .ok p') {b : Int}
    (hcash : prinS s h p.price.toNat * 2 ^ 128 + ((rs.map (pot s p)).sum : Nat) ≤ (b : ℚ) * 2 ^ 128)
    (hb0 : b < 2 ^ 128) (hb : b + pairS s (op.cash (k + 1) p) < 2 ^ 128) :
    DustStep rs s h (op.ledger h) p p' (pairS s (op.cash (k + 1) p)) (op.rounds k) := by
  have hi' := exec_inv hi ha hx
  have hg := exec_growth hi ha hx
  have n2 := prinS_nonneg hi.cov s p.price.toNat
  have hpots : (rs.map (pot s p)).sum < 2 ^ 256 := by
    have hbq : (b : ℚ) < 2 ^ 128 := by exact_mod_cast hb0
    have : (((rs.map (pot s p)).sum : Nat) : ℚ) < 2 ^ 256 := by
      have : (2 : ℚ) ^ 256 = 2 ^ 128 * 2 ^ 128 := by norm_num
      rw [this]
      nlinarith
    exact_mod_cast this
  cases op with
  | mint l u a => exact hown.elim
  | burn l u a => exact hown.elim
  | mintStrategy l u a =>
    obtain ⟨⟨r0, r1, q⟩, h3, h4⟩ := bind_ok hx
    cases h4
    have ha' : total h + (a.toNat : Int) < 2 ^ 128 := ha
    dsimp only at hi' hg ⊢
    have hca : PoolOp.cash (k + 1) p (.mintStrategy l u a) = ((r0.toNat : Int), (r1.toNat : Int)) := by
      simp only [PoolOp.cash, PoolOp.flow, h3]
    obtain ⟨_, _, pos, h5⟩ := mintStrategy_eq h3
    have hlu : (l, u) ∈ rs := hfair
    obtain ⟨ins, k0, _⟩ := touch_inside hi h5
    obtain ⟨_, _, k1, _, _⟩ := update_ok k0
    have htot : outstanding h l u + (a.toNat : Int) < 2 ^ 128 := by
      have := outstanding_le_total hi.cov l u
      omega
    have hl : (pos.liquidity.toNat : Int) = outstanding (⟨l, u, a.toNat⟩ :: h) l u := by
      rw [outstanding_cons, if_pos ⟨rfl, rfl⟩]
      dsimp only
      have e1 := h1.1 (l, u) hlu
      unfold liqOf at e1
      rw [record_posOrNew] at e1
      dsimp only at e1
      rw [k1, show ∀ x y : U256, x + y = add x y from fun _ _ => rfl, toNat_add, Nat.mod_eq_of_lt (by omega)]
      omega
    obtain ⟨t1, t2⟩ := touch_pot hi hi' h5 (le_of_eq (h1.1 (l, u) hlu)) (le_of_eq hl) s
    have t3 := touch_pot_ge hi h5 (h1.1 (l, u) hlu) s (lt_of_le_of_lt (mem_le_sum (f := pot s p) hlu) hpots)
    obtain ⟨m0, m1⟩ := mintStrategy_amounts hi (by have := hi.cov.nonneg l u; omega) h3
    rw [hca]
    refine touch_dust ho hi hi' hg hlu (modifyStrategy_pos h5) h1 (fun l' u' hne => ?_) hl (x := 1) (y := 0) hpots ?_ ?_
    · show outstanding (⟨l, u, a.toNat⟩ :: h) _ _ = _
      rw [outstanding_cons, if_neg (fun hc => hne ⟨hc.1.symm, hc.2.symm⟩), zero_add]
    · rw [t2]
      linarith
    · have hpr : q.price = p.price := modifyStrategy_price hi h5
      show _ ≤ prinS s (⟨l, u, a.toNat⟩ :: h) _ - _ + _
      rw [hpr, prinS_cons]
      have hr : PoolOp.rounds k (.mintStrategy l u a) = 1 := rfl
      rw [hr]
      cases s
      · have := Int.ceil_lt_add_one ((a.toNat : ℚ) * holding1 p.price.toNat l u)
        rw [← m1] at this
        simp only [pairS, Bool.false_eq_true, if_false]
        push_cast at this ⊢
        linarith
      · have := Int.ceil_lt_add_one ((a.toNat : ℚ) * holding0 p.price.toNat l u)
        rw [← m0] at this
        simp only [pairS, if_true]
        push_cast at this ⊢
        linarith
  | burnStrategy l u a =>
    obtain ⟨⟨r0, r1, q'⟩, h3, h4⟩ := bind_ok hx
    cases h4
    dsimp only at hi' hg ⊢
    have hp := principalS hi ha hs hx s
    dsimp only at hp
    have hfl : PoolOp.flow (k + 1) p (.burnStrategy l u a) = (-(r0.toNat : Int), -(r1.toNat : Int)) := by
      simp only [PoolOp.flow, h3]
    rw [hfl] at hp
    have hca : pairS s (PoolOp.cash (k + 1) p (.burnStrategy l u a)) = 0 := by cases s <;> rfl
    rw [hca]
    obtain ⟨pos, a0, a1, q, h5, _, _, h6⟩ := burnStrategy_eq h3
    obtain ⟨hlu, hle⟩ : (l, u) ∈ rs ∧ a.toNat ≤ (recordOf p (l, u)).liquidity.toNat := hfair
    obtain ⟨ins, k0, _⟩ := touch_inside hi h5
    obtain ⟨_, _, k1, _, _⟩ := update_ok k0
    have ha' : (a.toNat : Int) ≤ outstanding h l u := ha
    have htot := outstanding_le_total hi.cov l u
    have htot' := hi.cov.total_lt
    have hiq : Inv (PoolOp.ledger h (.burnStrategy l u a)) q := by
      rw [h6] at hi'
      exact inv_same hi' rfl rfl rfl rfl rfl rfl hi'.ticks.inc (fun _ => rfl)
    have hout : outstanding (PoolOp.ledger h (.burnStrategy l u a)) l u = outstanding h l u - a.toNat := by
      show outstanding (if a.toNat = 0 then h else ⟨l, u, -a.toNat⟩ :: h) l u = _
      by_cases h0 : a.toNat = 0
      · rw [if_pos h0, h0]; simp
      · rw [if_neg h0, outstanding_cons, if_pos ⟨rfl, rfl⟩]
        dsimp only
        omega
    have hl : (pos.liquidity.toNat : Int) = outstanding (PoolOp.ledger h (.burnStrategy l u a)) l u := by
      rw [hout]
      have e1 := h1.1 (l, u) hlu
      unfold liqOf at e1
      dsimp only at e1
      rw [record_posOrNew] at e1 hle
      dsimp only at e1 hle
      have e2 : pos.liquidity.toNat = (posOrNew (p.positions (posKey l u))).liquidity.toNat - a.toNat := by
        have : pos.liquidity = sub (posOrNew (p.positions (posKey l u))).liquidity a := by
          rw [k1, neg_def, sub_def]; abel
        rw [this, toNat_sub]
        have l1 := U256.toNat_lt (posOrNew (p.positions (posKey l u))).liquidity
        have l2 := U256.toNat_lt a
        omega
      omega
    obtain ⟨t1, t2⟩ := touch_pot hi hiq h5 (le_of_eq (h1.1 (l, u) hlu)) (le_of_eq hl) s
    have t3 := touch_pot_ge hi h5 (h1.1 (l, u) hlu) s (lt_of_le_of_lt (mem_le_sum (f := pot s p) hlu) hpots)
    obtain ⟨m0, m1⟩ := burnStrategy_amounts hi (by omega) h3
    have hpos : q'.positions = setPos p.positions (posKey l u) { pos with owed0 := add pos.owed0 r0, owed1 := add pos.owed1 r1 } := by
      rw [h6]
      show setPos q.positions _ _ = _
      rw [modifyStrategy_pos h5, setPos_setPos]
    have hgr : growthNow q' (l, u) = growthNow q (l, u) := by rw [h6]; rfl
    have hpr : q'.price = p.price := by
      have h8 := modifyStrategy_price hi h5
      rw [h6]; exact h8
    have hnowrap : (owS s pos).toNat + (if s then r0 else r1).toNat < 2 ^ 256 := by
      have n1 := prinS_nonneg hi'.cov s q'.price.toNat
      have e1 : (((owS s pos).toNat * 2 ^ 128 : Nat) : ℚ) ≤ ((rs.map (pot s p)).sum : Nat) := by
        exact_mod_cast t1.trans (mem_le_sum (f := pot s p) hlu)
      have e2 : (((if s then r0 else r1).toNat : Nat) : ℚ) ≤ prinS s h p.price.toNat := by
        cases s
        · simp only [pairS, Bool.false_eq_true, if_false] at hp ⊢
          push_cast at hp
          linarith
        · simp only [pairS, if_true] at hp ⊢
          push_cast at hp
          linarith
      have hbq : (b : ℚ) < 2 ^ 128 := by exact_mod_cast hb0
      have e3 : (((owS s pos).toNat + (if s then r0 else r1).toNat : Nat) : ℚ) < 2 ^ 128 := by
        refine lt_of_mul_lt_mul_right (?_ : _ * (2 : ℚ) ^ 128 < _) (show (0 : ℚ) ≤ 2 ^ 128 by norm_num)
        push_cast at e1 ⊢
        have e4 := mul_le_mul_of_nonneg_right e2 (show (0 : ℚ) ≤ 2 ^ 128 by norm_num)
        have e5 := mul_lt_mul_of_pos_right hbq (show (0 : ℚ) < 2 ^ 128 by norm_num)
        linarith
      have e4 : (owS s pos).toNat + (if s then r0 else r1).toNat < 2 ^ 128 := by exact_mod_cast e3
      exact lt_trans e4 (by norm_num)
    refine touch_dust ho hi hi' hg hlu hpos h1 (fun l' u' hne => ?_) hl (x := 1)
      (y := (if s then r0 else r1).toNat) hpots ?_ ?_
    · show outstanding (if a.toNat = 0 then h else ⟨l, u, -a.toNat⟩ :: h) _ _ = _
      by_cases h0 : a.toNat = 0
      · rw [if_pos h0]
      · rw [if_neg h0, outstanding_cons, if_neg (fun hc => hne ⟨hc.1.symm, hc.2.symm⟩), zero_add]
    · have e : owS s { pos with owed0 := add pos.owed0 r0, owed1 := add pos.owed1 r1 } = add (owS s pos) (if s then r0 else r1) := by
        cases s <;> rfl
      have e' : laS s { pos with owed0 := add pos.owed0 r0, owed1 := add pos.owed1 r1 } = laS s pos := by
        cases s <;> rfl
      rw [e, e', hgr]
      dsimp only
      rw [t2, toNat_add, Nat.mod_eq_of_lt hnowrap]
      generalize (if s then r0 else r1).toNat = y
      omega
    · rw [hpr]
      have hr : PoolOp.rounds k (.burnStrategy l u a) = 1 := rfl
      rw [hr]
      have hled : prinS s (PoolOp.ledger h (.burnStrategy l u a)) p.price.toNat =
          prinS s h p.price.toNat - a.toNat * (if s then holding0 p.price.toNat l u else holding1 p.price.toNat l u) := by
        show prinS s (if a.toNat = 0 then h else ⟨l, u, -a.toNat⟩ :: h) _ = _
        by_cases h0 : a.toNat = 0
        · rw [if_pos h0, h0]; simp
        · rw [if_neg h0, prinS_cons]; push_cast; ring
      rw [hled]
      cases s
      · have := Int.lt_floor_add_one ((a.toNat : ℚ) * holding1 p.price.toNat l u)
        rw [← m1] at this
        simp only [Bool.false_eq_true, if_false]
        push_cast at this ⊢
        linarith
      · have := Int.lt_floor_add_one ((a.toNat : ℚ) * holding0 p.price.toNat l u)
        rw [← m0] at this
        simp only [if_true]
        push_cast at this ⊢
        linarith
  | collectStrategy l u =>
    obtain ⟨⟨r0, r1, q⟩, h3, h4⟩ := bind_ok hx
    cases h4
    have hlu : (l, u) ∈ rs := hfair
    have hz : (zero : U256).toNat = 0 := by decide
    have hca : PoolOp.cash (k + 1) p (.collectStrategy l u) = (-(r0.toNat : Int), -(r1.toNat : Int)) := by
      simp only [PoolOp.cash, h3]
    rw [hca]
    rcases hq : p.positions (posKey l u) with _ | pos
    · unfold collectStrategy at h3; rw [hq] at h3; cases h3
    have h5 := h3
    unfold collectStrategy at h5
    rw [hq] at h5
    cases h5
    have hrec : recordOf p (l, u) = pos := by unfold recordOf; rw [hq]
    have e1 := h1.1 (l, u) hlu
    unfold liqOf at e1
    rw [hrec] at e1
    refine touch_dust ho hi hi' hg hlu (pos := { pos with owed0 := zero, owed1 := zero }) rfl h1 (fun l' u' hne => rfl) e1
      (x := (owS s pos).toNat) (y := 0) hpots ?_ ?_
    · unfold pot
      rw [hrec]
      have e : (owS s { pos with owed0 := zero, owed1 := zero }).toNat = 0 := by
        cases s
        · exact hz
        · exact hz
      have e' : laS s { pos with owed0 := zero, owed1 := zero } = laS s pos := by cases s <;> rfl
      have e'' : growthNow ({ p with positions := setPos p.positions (posKey l u) { pos with owed0 := zero, owed1 := zero } } : Pool) (l, u) =
          growthNow p (l, u) := rfl
      dsimp only
      rw [e, e', e'']
      linarith
    · cases s
      · simp [pairS, owS, prinS, PoolOp.ledger, PoolOp.rounds]
      · simp [pairS, owS, prinS, PoolOp.ledger, PoolOp.rounds]
  | flash a b' =>
    obtain ⟨e, hpos0⟩ := Props.flash_exact hi hx
    have hpos : p'.positions = p.positions := by rw [e]
    have hpr : p'.price = p.price := by rw [e]
    have hlq := hi.liq
    have hll := hi.liq_lt
    have hd : ddS s { tick := p.tick, d0 := sub p'.growth0 p.growth0, d1 := sub p'.growth1 p.growth1 } =
        feePerUnit (if s then ceilDiv (a.toNat * p.fee.toNat) 1000000 else ceilDiv (b'.toNat * p.fee.toNat) 1000000) (active h p.tick) := by
      cases s
      · show sub p'.growth1 p.growth1 = feePerUnit _ _
        rw [e]
        show add p.growth1 (feePerUnit _ _) - p.growth1 = _
        rw [show ∀ x y : U256, add x y = x + y from fun _ _ => rfl, add_sub_cancel_left]
        simp only [Bool.false_eq_true, if_true, if_false]
      · show sub p'.growth0 p.growth0 = feePerUnit _ _
        rw [e]
        show add p.growth0 (feePerUnit _ _) - p.growth0 = _
        rw [show ∀ x y : U256, add x y = x + y from fun _ _ => rfl, add_sub_cancel_left]
        simp only [Bool.false_eq_true, if_true, if_false]
    have hl : feeN s h (PoolOp.log (k + 1) p p' (.flash a b')) =
        (ddS s { tick := p.tick, d0 := sub p'.growth0 p.growth0, d1 := sub p'.growth1 p.growth1 }).toNat * (active h p.tick).toNat :=
      Nat.add_zero _
    refine idle_dust ho.1 hi hi' hg hpos h1 (b := b)
      (F := if s then ceilDiv (a.toNat * p.fee.toNat) 1000000 else ceilDiv (b'.toNat * p.fee.toNat) 1000000) ?_ ?_ ?_ ?_ hcash hb
    · rw [hl, hd]
      exact feePerUnit_le
    · rw [hpr, sub_self]
      cases s
      · simp [pairS, PoolOp.cash]
      · simp [pairS, PoolOp.cash]
    · rw [hpr, sub_self]
      cases s
      · simp [pairS, PoolOp.cash]
      · simp [pairS, PoolOp.cash]
    · intro hF
      rw [hl, hd]
      have := feePerUnit_ge (A := active h p.tick) (fun h0 => absurd h0 (by omega)) (by omega) (by rw [← hlq]; exact_mod_cast hll) hF
      have hr : PoolOp.rounds k (.flash a b') = 1 := rfl
      rw [hr, Nat.one_mul]
      exact this
  | exactInput a t l =>
    obtain ⟨⟨r0, r1, q'⟩, h3, h4⟩ := bind_ok hx
    cases h4
    have e : PoolOp.cash (k + 1) p (.exactInput a t l) = (r0.toInt, r1.toInt) := by simp only [PoolOp.cash, PoolOp.flow, h3]
    rw [e] at hb ⊢
    obtain ⟨F, j, j1, j2, j3, j4, j5⟩ := swap_dust hi ha.1 (fun hz => hs (of_decide_eq_true hz)) h3 s hown
    refine idle_dust ho.1 hi hi' hg (swap_pos h3) h1 (b := b) (F := F) j2 j3 ?_ (fun hF => ?_) hcash hb
    · have : (j : ℚ) ≤ ((PoolOp.rounds k (.exactInput a t l) : Nat) : ℚ) := by exact_mod_cast Nat.le_of_lt_succ j1
      linarith
    · exact (j5 hF).trans (Nat.add_le_add_left (Nat.mul_le_mul_right _ (Nat.le_of_lt_succ j1)) _)
  | exactOutput a t l =>
    obtain ⟨⟨r0, r1, q'⟩, h3, h4⟩ := bind_ok hx
    cases h4
    have e : PoolOp.cash (k + 1) p (.exactOutput a t l) = (r0.toInt, r1.toInt) := by simp only [PoolOp.cash, PoolOp.flow, h3]
    rw [e] at hb ⊢
    obtain ⟨F, j, j1, j2, j3, j4, j5⟩ := swap_dust hi ha.1 (fun hz => hs (of_decide_eq_true hz)) h3 s hown
    refine idle_dust ho.1 hi hi' hg (swap_pos h3) h1 (b := b) (F := F) j2 j3 ?_ (fun hF => ?_) hcash hb
    · have : (j : ℚ) ≤ ((PoolOp.rounds k (.exactOutput a t l) : Nat) : ℚ) := by exact_mod_cast Nat.le_of_lt_succ j1
      linarith
    · exact (j5 hF).trans (Nat.add_le_add_left (Nat.mul_le_mul_right _ (Nat.le_of_lt_succ j1)) _)

end Pool
end Uni
