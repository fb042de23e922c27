import Verif.Props.Pool
import Verif.Proofs.Growth
/-! # Where the fees of a swap go -/
namespace Uni
open U256 Spec TickData TickMath FullMath SwapMath
namespace Pool

/-- The fee of an iteration is shared by the active liquidity. -/
theorem accrue_eq {fee L g g' : U256} (hL : L.toNat < 2 ^ 128) (hx : accrue fee L g = .ok g') :
    g' = g + feePerUnit fee.toNat L.toNat := by
  unfold accrue at hx
  have hs : sign L = (L.toNat : Int).sign := by rw [sign_eq_toInt, toInt_of_lt (by omega)]
  by_cases h0 : L.toNat = 0
  · rw [if_neg (by rw [hs, h0]; decide)] at hx
    cases hx
    unfold feePerUnit
    rw [if_pos (by omega)]
    exact (add_zero _).symm
  · rw [if_pos (by rw [hs, Int.sign_eq_one_of_pos (by omega)]; decide)] at hx
    obtain ⟨f, h1, h2⟩ := bind_ok hx
    cases h2
    rw [((mulDiv_ok_iff _ _ _ _).1 h1).2, SqrtPriceMath.toNat_q128]
    unfold feePerUnit
    rw [if_neg (by omega)]
    rfl

theorem Run.trans {p : Pool} {h : List Entry} {sp : Int} {z ein : Bool} {limit : U256} {s0 s s' : SwapState} {i o f i' o' f' : Nat}
    (h1 : Run p h sp z ein limit s0 s i o f) (h2 : Run p h sp z ein limit s s' i' o' f') :
    Run p h sp z ein limit s0 s' (i + i') (o + o') (f + f') := by
  induction h2 with
  | refl => exact h1
  | step hr hs hrun hf hR hs' ih =>
    have := Run.step ih hs hrun hf hR hs'
    rw [Nat.add_assoc, Nat.add_assoc, Nat.add_assoc] at this
    exact this

theorem run_rate {p : Pool} {h : List Entry} {sp : Int} {z ein : Bool} {limit : U256} {s0 s : SwapState} {i o f : Nat}
    (hr : Run p h sp z ein limit s0 s i o f) : i * p.fee.toNat ≤ f * (1000000 - p.fee.toNat) := by
  induction hr with
  | refl => omega
  | step hr hs hrun hf hR hs' ih =>
    have := hf.spec.feeRate
    rw [Nat.add_mul, Nat.add_mul]
    omega

theorem loop_fees {p : Pool} {h : List Entry} {sp : Int} {z ein : Bool} {limit : U256} {s' : SwapState} (hf0 : 0 ≤ p.fee) (hf1 : p.fee < 1000000)
    (fuel : Nat) (s : SwapState) (hs : SInv h sp z ein limit s) (hx : swapLoop p z ein limit fuel s = .ok s') :
    ∃ (i o : Nat) (fees : List Nat), Run p h sp z ein limit s s' i o fees.sum ∧
      List.Forall₂ (FeeOf h z) (swapLog p z ein limit fuel s) fees := by
  induction fuel generalizing s with
  | zero => cases hx
  | succ n ih =>
    unfold swapLoop at hx
    unfold swapLog
    by_cases hr : running limit s = true
    · rw [if_pos hr] at hx ⊢
      obtain ⟨s1, h1, hx⟩ := bind_ok hx
      rw [h1]
      dsimp only
      obtain ⟨st, target, hs1, hf, hR⟩ := step_inv hs hf0 hf1 hr h1
      obtain ⟨i, o, fees, k1, k2⟩ := ih s1 hs1 hx
      have h2 := accrue_eq hs.inv.liq_lt hf.growth
      refine ⟨0 + st.amountIn.toNat + i, 0 + st.amountOut.toNat + o, st.fee.toNat :: fees, ?_, List.Forall₂.cons ?_ k2⟩
      · have := Run.trans (Run.step Run.refl hs hr hf hR hs1) k1
        rw [List.sum_cons, ← Nat.zero_add st.fee.toNat]
        exact this
      · unfold FeeOf
        dsimp only
        have h3 : sub s1.growth s.growth = feePerUnit st.fee.toNat (active h s.tick) := by
          rw [sub_def, h2, hs.inv.liq]; abel
        cases z
        · exact ⟨h3, rfl⟩
        · exact ⟨h3, rfl⟩
    · rw [if_neg hr] at hx ⊢
      cases hx
      exact ⟨0, 0, [], Run.refl, List.Forall₂.nil⟩

/-- The amounts of a swap are the sums over its iterations. -/
theorem swap_amounts {h : List Entry} {p : Pool} (hi : Inv h p) {z : Bool} {amount limit : U256} {s : SwapState} {i o f : Nat}
    (hs0 : SInv h p.spacing z (decide (0 ≤ amount.toInt)) (effLimit z limit) (initState p z amount))
    (hrun : Run p h p.spacing z (decide (0 ≤ amount.toInt)) (effLimit z limit) (initState p z amount) s i o f)
    (hs : SInv h p.spacing z (decide (0 ≤ amount.toInt)) (effLimit z limit) s) {r0 r1 : U256} {p' : Pool}
    (hr : (r0, r1) = swapResult z (decide (0 ≤ amount.toInt)) amount s) :
    sold z (r0, r1, p') = i + f ∧ bought z (r0, r1, p') = -o := by
  have hrange := toInt_range amount
  have ha := hs0.rem
  change amount.toInt < 2 ^ 160 at ha
  by_cases h0 : 0 ≤ amount.toInt
  · rw [decide_eq_true h0] at *
    have hrem := (run_rem hrun).1 rfl
    have hcalc := (run_calc hi.fee0 hi.fee1 hs0 (show zero.toInt = 0 by decide +kernel) hrun).1 rfl
    have hge := hs.remIn rfl
    change s.remaining.toInt = amount.toInt - (i + f) at hrem
    have hin : (sub amount s.remaining).toInt = i + f := Props.toInt_ofNatSub hrem (by omega) (by omega)
    unfold swapResult at hr
    cases z
    · rw [if_neg (by decide)] at hr
      cases hr
      exact ⟨hin, hcalc⟩
    · rw [if_pos rfl] at hr
      cases hr
      exact ⟨hin, hcalc⟩
  · rw [decide_eq_false h0] at *
    have hrem := (run_rem hrun).2 rfl
    have hcalc := (run_calc hi.fee0 hi.fee1 hs0 (show zero.toInt = 0 by decide +kernel) hrun).2 rfl
    have hge := hs.remOut rfl
    change s.remaining.toInt = amount.toInt + o at hrem
    have hin : (sub amount s.remaining).toInt = -o := Props.toInt_ofNatSub (by omega) (by omega) (by omega)
    unfold swapResult at hr
    cases z
    · rw [if_pos rfl] at hr
      cases hr
      exact ⟨hcalc, hin⟩
    · rw [if_neg (by decide)] at hr
      cases hr
      exact ⟨hcalc, hin⟩

/-- A swap call: the fees of its iterations. -/
theorem swap_fees {h : List Entry} {p p' : Pool} (hi : Inv h p) {fuel : Nat} {z : Bool} {amount limit r0 r1 : U256}
    (ha : amount.toInt < 2 ^ 160) (hc : z = true → ClearAbove p.spacing p.tick h) (hx : p.swap fuel z amount limit = .ok (r0, r1, p')) :
    ∃ (i : Nat) (fees : List Nat), List.Forall₂ (FeeOf h z) (callLog fuel p z amount limit) fees ∧
      sold z (r0, r1, p') = i + (fees.sum : Nat) ∧ i * p.fee.toNat ≤ fees.sum * (1000000 - p.fee.toNat) := by
  obtain ⟨h1, h2, s, h3, h4, h5⟩ := swap_eq hx
  have h6 := init_sinv hi ha h2 hc
  obtain ⟨i, o, fees, h7, h8⟩ := loop_fees hi.fee0 hi.fee1 fuel _ h6 h3
  obtain ⟨_, h9, _⟩ := loop_run h6 hi.fee0 hi.fee1 h3
  exact ⟨i, fees, h8, (swap_amounts hi h6 h7 h9 h4).1, run_rate h7⟩

end Pool
end Uni
