import Verif.Props.LiquidityAmounts
import Verif.Props.Growth
import Verif.Proofs.Local
import Verif.Spec.Narrow
/-! # Narrow and wide ranges -/
namespace Uni
open U256 Spec TickData TickMath FullMath
namespace TickMath

/-- From a price of `2^56` on neighbouring ticks differ by at least three parts in a hundred thousand. -/
theorem ratio_gap (t : Int) (h1 : -887272 ≤ t) (h2 : t < 887272) (h3 : 2 ^ 56 ≤ ratioN t) :
    ratioN t * 100003 ≤ ratioN (t + 1) * 100000 := by
  unfold ratioN at *
  by_cases ht : t < 0
  · rw [if_neg (by omega)] at h3 ⊢
    rw [if_neg (by omega)]
    have e : (-t).toNat = (-(t + 1)).toNat + 1 := by omega
    rw [e] at h3 ⊢
    have hg := ch_gap (-(t + 1)).toNat (by omega)
    generalize ch ((-(t + 1)).toNat + 1) = a at *
    generalize ch (-(t + 1)).toNat = b at *
    have k1 := le_ceilDiv_mul (n := b) (d := 2 ^ 32) (by norm_num)
    have k2 := ceilDiv_le_div_succ a (2 ^ 32)
    have k3 := Nat.div_mul_le_self a (2 ^ 32)
    generalize Spec.ceilDiv a (2 ^ 32) = x at *
    generalize Spec.ceilDiv b (2 ^ 32) = y at *
    generalize a / 2 ^ 32 = c at *
    clear h1 h2 ht e
    norm_num at *
    linarith
  · have hgap := ch_gap t.toNat (by omega)
    have h52 := ch_ge (t.toNat + 1)
    have h128 := ch_le t.toNat
    by_cases h0 : t = 0
    · subst h0
      decide +kernel
    · rw [if_pos (show 0 < t by omega)] at h3 ⊢
      rw [if_pos (show 0 < t + 1 by omega), show (t + 1).toNat = t.toNat + 1 by omega]
      generalize ch t.toNat = a at *
      generalize ch (t.toNat + 1) = b at *
      have ha : 0 < a := by omega
      have g1 : (2 ^ 256 - 1) / a * a ≤ 2 ^ 256 - 1 := Nat.div_mul_le_self _ _
      have g2 : 2 ^ 256 - 1 < ((2 ^ 256 - 1) / b + 1) * b := Nat.lt_mul_of_div_lt (Nat.lt_succ_self _) (by omega)
      have k1 := le_ceilDiv_mul (n := (2 ^ 256 - 1) / b) (d := 2 ^ 32) (by norm_num)
      have k2 := ceilDiv_le_div_succ ((2 ^ 256 - 1) / a) (2 ^ 32)
      have k3 := Nat.div_mul_le_self ((2 ^ 256 - 1) / a) (2 ^ 32)
      generalize (2 ^ 256 - 1) / a = q at *
      generalize (2 ^ 256 - 1) / b = r at *
      generalize Spec.ceilDiv q (2 ^ 32) = x at *
      generalize Spec.ceilDiv r (2 ^ 32) = y at *
      -- q * a ≤ M < (r + 1) * b and b * 100004 ≤ a * 100000 + 2000000
      have g3 : q * (b * 100004) ≤ q * (a * 100000 + 2000000) := Nat.mul_le_mul_left q hgap
      have g4 : q * 2 ^ 52 ≤ q * b := Nat.mul_le_mul_left q h52
      have g5 : q * a < (r + 1) * b := lt_of_le_of_lt g1 (by omega)
      have g6 : q * 200007 * b ≤ (r + 1) * 200000 * b := by
        have : q * (a * 100000 + 2000000) = q * a * 100000 + q * 2000000 := by ring
        have e1 : q * 200007 * b = q * b * 200007 := by ring
        have e2 : (r + 1) * 200000 * b = (r + 1) * b * 200000 := by ring
        have e3 : q * (b * 100004) = q * b * 100004 := by ring
        rw [e1, e2]
        rw [e3, this] at g3
        generalize q * b = qb at *
        generalize q * a = qa at *
        generalize (r + 1) * b = rb at *
        norm_num at g4
        linarith
      have g7 : q * 200007 ≤ (r + 1) * 200000 := Nat.le_of_mul_le_mul_right g6 (show 0 < b by omega)
      generalize q / 2 ^ 32 = c at *
      norm_num at h3 k1 k2 k3
      linarith

theorem ratio_gap_lt {s t : Int} (h1 : -887272 ≤ s) (h2 : s < t) (h3 : t ≤ 887272) (h4 : 2 ^ 56 ≤ ratioN s) :
    ratioN s * 100003 ≤ ratioN t * 100000 :=
  le_trans (ratio_gap s h1 (by omega) h4) (Nat.mul_le_mul_right _ (ratioN_le (by omega) (by omega) h3))

end TickMath

namespace LiquidityAmounts
open SqrtPriceMath Pool

/-- `x0 * ⌊q b / 2^96⌋ / (b - q)`, as the code computes it. -/
def liq0 (q b x : Nat) : Nat := x * (q * b / 2 ^ 96) / (b - q)
/-- `x1 * 2^96 / (q - a)`. -/
def liq1 (a q x : Nat) : Nat := x * 2 ^ 96 / (q - a)

theorem div_le_div_cross {n d n' d' : Nat} (hd' : 0 < d') (hd : 0 < d) (h : n * d' ≤ n' * d) : n / d ≤ n' / d' := by
  rw [Nat.le_div_iff_mul_le hd']
  have h1 : n / d * d ≤ n := Nat.div_mul_le_self n d
  have h2 : n / d * d * d' ≤ n' * d := le_trans (Nat.mul_le_mul_right d' h1) h
  rw [Nat.mul_right_comm] at h2
  exact Nat.le_of_mul_le_mul_right h2 hd

theorem liq1_le {a a' q q' x : Nat} (h1 : a' < q') (h2 : q' - a' ≤ q - a) : liq1 a q x ≤ liq1 a' q' x := by
  unfold liq1
  exact Nat.div_le_div_left h2 (by omega)

theorem liq1_mono {a q x x' : Nat} (h : x ≤ x') : liq1 a q x ≤ liq1 a q x' := Nat.div_le_div_right (Nat.mul_le_mul_right _ h)
theorem liq0_mono {q b x x' : Nat} (h : x ≤ x') : liq0 q b x ≤ liq0 q b x' := Nat.div_le_div_right (Nat.mul_le_mul_right _ h)

/-- Raising the lower end. -/
theorem liq0_lower {q q' b x : Nat} (h1 : q ≤ q') (h2 : q' < b) : liq0 q b x ≤ liq0 q' b x := by
  unfold liq0
  exact Nat.div_le_div (Nat.mul_le_mul_left _ (Nat.div_le_div_right (Nat.mul_le_mul_right _ h1))) (by omega) (by omega)

/-- Lowering the upper end to a smaller tick. -/
theorem liq0_upper {q b' b x : Nat} (h1 : 2 ^ 56 ≤ q) (h2 : q < b') (h3 : b' * 100003 ≤ b * 100000) :
    liq0 q b x ≤ liq0 q b' x := by
  have hbb : b' ≤ b := by omega
  obtain ⟨e, rfl⟩ : ∃ e, b = b' + e := ⟨b - b', by omega⟩
  obtain ⟨d, rfl⟩ : ∃ d, b' = q + d := ⟨b' - q, by omega⟩
  unfold liq0
  have e1 : q + d + e - q = d + e := by omega
  have e2 : q + d - q = d := by omega
  rw [e1, e2]
  apply div_le_div_cross (by omega) (by omega)
  rw [Nat.mul_assoc, Nat.mul_assoc]
  apply Nat.mul_le_mul_left
  have k1 : q * (q + d + e) / 2 ^ 96 * 2 ^ 96 ≤ q * (q + d + e) := Nat.div_mul_le_self _ _
  have k2 : q * (q + d) < (q * (q + d) / 2 ^ 96 + 1) * 2 ^ 96 := Nat.lt_mul_of_div_lt (Nat.lt_succ_self _) (by norm_num)
  generalize q * (q + d + e) / 2 ^ 96 = F at *
  generalize q * (q + d) / 2 ^ 96 = G at *
  have k3 : 2 ^ 96 * (d + e) ≤ q * q * e := by
    have m1 : 2 ^ 56 * 2 ^ 56 ≤ q * q := Nat.mul_le_mul h1 h1
    have m2 : 2 ^ 56 * 2 ^ 56 * e ≤ q * q * e := Nat.mul_le_mul_right _ m1
    omega
  apply Nat.le_of_mul_le_mul_right (c := 2 ^ 96) _ (by norm_num)
  have k4 : F * 2 ^ 96 * d ≤ q * (q + d + e) * d := Nat.mul_le_mul_right d k1
  have k5 : q * (q + d) * (d + e) ≤ (G + 1) * 2 ^ 96 * (d + e) := Nat.mul_le_mul_right _ (le_of_lt k2)
  have k6 : q * (q + d) * (d + e) = q * (q + d + e) * d + q * q * e := by ring
  have k7 : (G + 1) * 2 ^ 96 * (d + e) = G * (d + e) * 2 ^ 96 + 2 ^ 96 * (d + e) := by ring
  have k8 : F * d * 2 ^ 96 = F * 2 ^ 96 * d := by ring
  rw [k8]
  rw [k6, k7] at k5
  omega

theorem for0_eq {a b x r : U256} (hab : a.toNat < b.toNat) (hb : b.toNat < 2 ^ 160)
    (h : getLiquidityForAmount0 a b x = .ok r) : r = ofNat (liq0 a.toNat b.toNat x.toNat) := by
  unfold getLiquidityForAmount0 at h
  dsimp only at h
  rw [order_of_le (le_of_lt hab)] at h
  obtain ⟨i, hi, h⟩ := bind_ok h
  obtain ⟨_, hi2⟩ := (mulDiv_ok_iff _ _ _ _).1 hi
  obtain ⟨_, hr⟩ := (mulDiv_ok_iff _ _ _ _).1 h
  dsimp only at hi2 hr
  rw [toNat_sub_of_le (le_of_lt hab), hi2, toNat_q96, toNat_ofNat_of_lt] at hr
  · exact hr
  · have : a.toNat * b.toNat < 2 ^ 160 * 2 ^ 160 := Nat.mul_lt_mul'' (by omega) hb
    omega

theorem for1_eq {a b x r : U256} (hab : a.toNat < b.toNat) (h : getLiquidityForAmount1 a b x = .ok r) :
    r = ofNat (liq1 a.toNat b.toNat x.toNat) := by
  unfold getLiquidityForAmount1 at h
  dsimp only at h
  rw [order_of_le (le_of_lt hab)] at h
  obtain ⟨_, hr⟩ := (mulDiv_ok_iff _ _ _ _).1 h
  rw [toNat_sub_of_le (le_of_lt hab), toNat_q96] at hr
  exact hr

theorem forAmount_le {p a b x0 x1 r : U256} (hab : a.toNat < b.toNat) (hb : b.toNat < 2 ^ 160)
    (h : getLiquidityForAmount p a b x0 x1 = .ok r) :
    (p.toNat < b.toNat → r.toNat ≤ liq0 (Spec.clamp p.toNat a.toNat b.toNat) b.toNat x0.toNat) ∧
    (a.toNat < p.toNat → r.toNat ≤ liq1 a.toNat (Spec.clamp p.toNat a.toNat b.toNat) x1.toNat) := by
  unfold getLiquidityForAmount at h
  dsimp only at h
  rw [order_of_le (le_of_lt hab)] at h
  dsimp only at h
  by_cases h1 : p.toNat ≤ a.toNat
  · rw [if_pos (by rw [cmp_le0]; exact h1)] at h
    refine ⟨fun _ => ?_, fun hc => by omega⟩
    rw [clamp_lo h1, for0_eq hab hb h]
    exact ofNat_le _
  · rw [if_neg (by rw [cmp_le0]; exact h1)] at h
    by_cases h2 : p.toNat < b.toNat
    · rw [if_pos (by rw [cmp_lt0]; exact h2)] at h
      obtain ⟨y0, k0, h⟩ := bind_ok h
      obtain ⟨y1, k1, h⟩ := bind_ok h
      have e0 := ofNat_le (liq0 p.toNat b.toNat x0.toNat)
      have e1 := ofNat_le (liq1 a.toNat p.toNat x1.toNat)
      rw [← for0_eq h2 hb k0] at e0
      rw [← for1_eq (by omega) k1] at e1
      rw [clamp_mid (by omega) (by omega)]
      have hr := (Except.ok.inj h).symm
      by_cases h3 : cmp y0 y1 < 0
      · rw [if_pos h3] at hr
        rw [cmp_lt0] at h3
        subst hr
        exact ⟨fun _ => e0, fun _ => by omega⟩
      · rw [if_neg h3] at hr
        rw [cmp_lt0] at h3
        subst hr
        exact ⟨fun _ => by omega, fun _ => e1⟩
    · rw [if_neg (by rw [cmp_lt0]; exact h2)] at h
      refine ⟨fun hc => absurd hc h2, fun _ => ?_⟩
      rw [clamp_hi (by omega) (by omega), for1_eq hab h]
      exact ofNat_le _

theorem forAmount_ge {p a b x0 x1 r : U256} (hab : a.toNat < b.toNat) (hb : b.toNat < 2 ^ 160)
    (h : getLiquidityForAmount p a b x0 x1 = .ok r)
    (hf0 : liq0 (Spec.clamp p.toNat a.toNat b.toNat) b.toNat x0.toNat < 2 ^ 256)
    (hf1 : liq1 a.toNat (Spec.clamp p.toNat a.toNat b.toNat) x1.toNat < 2 ^ 256) :
    (p.toNat < b.toNat ∧ r.toNat = liq0 (Spec.clamp p.toNat a.toNat b.toNat) b.toNat x0.toNat) ∨
    (a.toNat < p.toNat ∧ r.toNat = liq1 a.toNat (Spec.clamp p.toNat a.toNat b.toNat) x1.toNat) := by
  unfold getLiquidityForAmount at h
  dsimp only at h
  rw [order_of_le (le_of_lt hab)] at h
  dsimp only at h
  by_cases h1 : p.toNat ≤ a.toNat
  · rw [if_pos (by rw [cmp_le0]; exact h1)] at h
    rw [clamp_lo h1] at hf0 ⊢
    rw [for0_eq hab hb h, toNat_ofNat_of_lt hf0]
    exact Or.inl ⟨by omega, rfl⟩
  · rw [if_neg (by rw [cmp_le0]; exact h1)] at h
    by_cases h2 : p.toNat < b.toNat
    · rw [if_pos (by rw [cmp_lt0]; exact h2)] at h
      obtain ⟨y0, k0, h⟩ := bind_ok h
      obtain ⟨y1, k1, h⟩ := bind_ok h
      rw [clamp_mid (by omega) (by omega)] at hf0 hf1 ⊢
      have e0 := congrArg toNat (for0_eq h2 hb k0)
      have e1 := congrArg toNat (for1_eq (by omega) k1)
      rw [toNat_ofNat_of_lt hf0] at e0
      rw [toNat_ofNat_of_lt hf1] at e1
      have hr := (Except.ok.inj h).symm
      by_cases h3 : cmp y0 y1 < 0
      · rw [if_pos h3] at hr
        subst hr
        exact Or.inl ⟨h2, e0⟩
      · rw [if_neg h3] at hr
        subst hr
        exact Or.inr ⟨by omega, e1⟩
    · rw [if_neg (by rw [cmp_lt0]; exact h2)] at h
      rw [clamp_hi (by omega) (by omega)] at hf1 ⊢
      rw [for1_eq hab h, toNat_ofNat_of_lt hf1]
      exact Or.inr ⟨by omega, rfl⟩

/-- A range inside a range: the same balances buy at least as much liquidity. -/
theorem narrow_ge {p a a' b' b x0 x1 L L' : U256} (ha : a.toNat ≤ a'.toNat) (hab : a'.toNat < b'.toNat) (hbb : b'.toNat ≤ b.toNat)
    (hb : b.toNat < 2 ^ 160) (hgap : b'.toNat = b.toNat ∨ b'.toNat * 100003 ≤ b.toNat * 100000)
    (hlow : 2 ^ 56 ≤ max p.toNat a'.toNat)
    (h : getLiquidityForAmount p a b x0 x1 = .ok L) (h' : getLiquidityForAmount p a' b' x0 x1 = .ok L')
    (hf0 : liq0 (Spec.clamp p.toNat a'.toNat b'.toNat) b'.toNat x0.toNat < 2 ^ 256)
    (hf1 : liq1 a'.toNat (Spec.clamp p.toNat a'.toNat b'.toNat) x1.toNat < 2 ^ 256) : L.toNat ≤ L'.toNat := by
  obtain ⟨k1, k2⟩ := forAmount_le (by omega) hb h
  rcases forAmount_ge hab (by omega) h' hf0 hf1 with ⟨m1, m2⟩ | ⟨m1, m2⟩
  · rw [m2]
    refine le_trans (k1 (by omega)) ?_
    have e1 : Spec.clamp p.toNat a.toNat b.toNat ≤ Spec.clamp p.toNat a'.toNat b'.toNat := by unfold Spec.clamp; omega
    have e2 : Spec.clamp p.toNat a'.toNat b'.toNat < b'.toNat := by unfold Spec.clamp; omega
    have e3 : 2 ^ 56 ≤ Spec.clamp p.toNat a'.toNat b'.toNat := by unfold Spec.clamp; omega
    refine le_trans (liq0_lower e1 (by omega)) ?_
    rcases hgap with hg | hg
    · rw [hg]
    · exact liq0_upper e3 e2 hg
  · rw [m2]
    refine le_trans (k2 (by omega)) (liq1_le ?_ ?_)
    · unfold Spec.clamp; omega
    · unfold Spec.clamp; omega

end LiquidityAmounts

namespace Pool

/-- The tick moves in one direction. -/
theorem tick_going {p : Pool} {h : List Entry} {sp : Int} {z ein : Bool} {limit : U256} {s s' : SwapState} {st : SwapMath.Step} {T : U256} {up : Bool}
    (hs : SInv h sp z ein limit s) (hx : swapStep p z ein limit s = .ok s') (hf : StepFacts p h z ein limit s s' st T)
    (hg : Going up sp z s) : if up then s.tick ≤ s'.tick else s'.tick ≤ s.tick := by
  cases up
  · obtain rfl : z = true := hg.1
    exact tick_down hs hf hg
  · rw [if_pos rfl]
    rcases hg with hz | ⟨hz, hg⟩
    · subst hz
      exact tick_up hs hx hf
    · have hsp := hs.inv.spacing
      have hpos : 0 < s.ticks.spacing := by rw [hsp]; exact hs.inv.sp_pos
      rw [← hsp, good_iff hpos] at hg
      exact (hf.bad hz (by omega)).2.1

/-- The fees of a swap accrue between the tick it starts at and the tick it ends at. -/
theorem loop_log {p : Pool} {h : List Entry} {sp : Int} {z ein : Bool} {limit : U256} {s' : SwapState} {up : Bool} (hf0 : 0 ≤ p.fee)
    (hf1 : p.fee < 1000000) (fuel : Nat) (s : SwapState) (hs : SInv h sp z ein limit s) (hg : Going up sp z s)
    (hx : swapLoop p z ein limit fuel s = .ok s') :
    (if up then s.tick ≤ s'.tick else s'.tick ≤ s.tick) ∧
    ∀ e ∈ swapLog p z ein limit fuel s, min s.tick s'.tick ≤ e.tick ∧ e.tick ≤ max s.tick s'.tick := by
  induction fuel generalizing s with
  | zero => cases hx
  | succ n ih =>
    unfold swapLoop at hx
    unfold swapLog
    by_cases hr : running limit s = true
    · rw [if_pos hr] at hx ⊢
      obtain ⟨s1, h1, hx⟩ := bind_ok hx
      rw [h1]
      dsimp only
      obtain ⟨st, target, hs1, hf, hR⟩ := step_inv hs hf0 hf1 hr h1
      have k0 := tick_going hs h1 hf hg
      obtain ⟨k1, k2⟩ := ih s1 hs1 (run_going (Run.step Run.refl hs hr hf hR hs1) hg).1 hx
      have k3 : if up then s.tick ≤ s'.tick else s'.tick ≤ s.tick := by
        cases up
        · rw [if_neg (by decide)] at k0 k1 ⊢; omega
        · rw [if_pos rfl] at k0 k1 ⊢; omega
      refine ⟨k3, fun e he => ?_⟩
      rcases List.mem_cons.1 he with rfl | he
      · dsimp only; omega
      · have := k2 e he
        cases up
        · rw [if_neg (by decide)] at k0 k1 k3; omega
        · rw [if_pos rfl] at k0 k1 k3; omega
    · rw [if_neg hr] at hx ⊢
      cases hx
      refine ⟨by split <;> omega, fun e he => absurd he List.not_mem_nil⟩

theorem call_log {h : List Entry} {p p' : Pool} (hi : Inv h p) {fuel : Nat} {z : Bool} {amount limit r0 r1 : U256}
    (ha : amount.toInt < 2 ^ 160) (hc : z = true → ClearAbove p.spacing p.tick h)
    (hx : p.swap fuel z amount limit = .ok (r0, r1, p')) :
    ∀ e ∈ callLog fuel p z amount limit, min p.tick p'.tick ≤ e.tick ∧ e.tick ≤ max p.tick p'.tick := by
  obtain ⟨_, h2, s, h3, _, rfl⟩ := swap_eq hx
  have h6 := init_sinv hi ha h2 hc
  obtain ⟨up, hg⟩ : ∃ up, Going up p.spacing z (initState p z amount) := by
    cases z
    · exact ⟨true, Or.inl rfl⟩
    · by_cases hgd : Good p.spacing p.tick
      · exact ⟨false, rfl, Or.inl hgd⟩
      · exact ⟨true, Or.inr ⟨rfl, hgd⟩⟩
  exact (loop_log hi.fee0 hi.fee1 fuel _ h6 hg h3).2

/-- The fees of an operation accrue between the tick before it and the tick after it. -/
theorem op_log {h : List Entry} {p p' : Pool} (hi : Inv h p) {fuel : Nat} {op : PoolOp} (ha : op.Admissible p h)
    (hx : op.exec fuel p = .ok p') : ∀ e ∈ op.log fuel p p', min p.tick p'.tick ≤ e.tick ∧ e.tick ≤ max p.tick p'.tick := by
  cases op with
  | exactInput a t l =>
    obtain ⟨⟨r0, r1, q⟩, h1, h2⟩ := bind_ok hx
    cases h2
    exact call_log hi ha.1 (fun hz => ha.2 (of_decide_eq_true hz)) h1
  | exactOutput a t l =>
    obtain ⟨⟨r0, r1, q⟩, h1, h2⟩ := bind_ok hx
    cases h2
    exact call_log hi ha.1 (fun hz => ha.2 (of_decide_eq_true hz)) h1
  | flash a b =>
    intro e he
    rcases List.mem_cons.1 he with rfl | he
    · dsimp only; omega
    · exact absurd he List.not_mem_nil
  | _ => intro e he; exact absurd he List.not_mem_nil

theorem evolves_log {allowed : PoolOp → Prop} {h h' : List Entry} {p p' : Pool} {log : List Accrual} {l u : Int} {keep : Pool → Prop}
    (hi : Inv h p) (hk : ∀ q, keep q → TickIn l u q) (hev : Evolves allowed keep h p log h' p') :
    Inv h' p' ∧ TickIn l u p' ∧ ∀ e ∈ log, l ≤ e.tick ∧ e.tick < u := by
  induction hev with
  | refl hk0 => exact ⟨hi, hk _ hk0, fun e he => absurd he List.not_mem_nil⟩
  | step fuel op hr hal ha hx hk2 ih =>
    obtain ⟨i1, i2, i3⟩ := ih
    have k2 := hk _ hk2
    refine ⟨exec_inv i1 ha hx, k2, fun e he => ?_⟩
    rcases List.mem_append.1 he with he | he
    · exact i3 e he
    · have := op_log i1 ha hx e he
      unfold TickIn at i2 k2
      omega

theorem accrued_all {l u : Int} {log : List Accrual} (h : ∀ e ∈ log, l ≤ e.tick ∧ e.tick < u) :
    accrued0 l u log = sumAll Accrual.d0 log ∧ accrued1 l u log = sumAll Accrual.d1 log := by
  induction log with
  | nil => exact ⟨rfl, rfl⟩
  | cons e log ih =>
    obtain ⟨h1, h2⟩ := ih (fun e he => h e (List.mem_cons_of_mem _ he))
    have h3 := h e List.mem_cons_self
    unfold accrued0 accrued1 sumAll at *
    rw [List.foldr_cons, List.foldr_cons, List.foldr_cons, List.foldr_cons, if_pos h3, if_pos h3, h1, h2]
    exact ⟨rfl, rfl⟩

theorem Evolves.weaken {allowed allowed' : PoolOp → Prop} {keep keep' : Pool → Prop} {h h' : List Entry} {p p' : Pool}
    {log : List Accrual} (ha : ∀ op, allowed op → allowed' op) (hk : ∀ q, keep q → keep' q)
    (hev : Evolves allowed keep h p log h' p') : Evolves allowed' keep' h p log h' p' := by
  induction hev with
  | refl hk0 => exact .refl (hk _ hk0)
  | step fuel op hr hal had hx hk2 ih => exact .step fuel op ih (ha _ hal) had hx (hk _ hk2)

theorem Evolves.trans {allowed : PoolOp → Prop} {keep : Pool → Prop} {h h1 h' : List Entry} {p p1 p' : Pool}
    {log log' : List Accrual} (h0 : Evolves allowed keep h p log h1 p1) (hev : Evolves allowed keep h1 p1 log' h' p') :
    Evolves allowed keep h p (log ++ log') h' p' := by
  induction hev with
  | refl hk0 => rw [List.append_nil]; exact h0
  | step fuel op hr hal had hx hk2 ih => rw [← List.append_assoc]; exact .step fuel op ih hal had hx hk2

theorem evolves_inv {allowed : PoolOp → Prop} {keep : Pool → Prop} {h h' : List Entry} {p p' : Pool} {log : List Accrual}
    (hi : Inv h p) (hev : Evolves allowed keep h p log h' p') : Inv h' p' := by
  induction hev with
  | refl hk0 => exact hi
  | step fuel op hr hal ha hx hk2 ih => exact exec_inv ih ha hx

/-- The global growths record the whole log. -/
theorem evolves_sum {allowed : PoolOp → Prop} {keep : Pool → Prop} {h h' : List Entry} {p p' : Pool} {log : List Accrual}
    (hi : Inv h p) (hev : Evolves allowed keep h p log h' p') :
    p'.growth0 = p.growth0 + sumAll Accrual.d0 log ∧ p'.growth1 = p.growth1 + sumAll Accrual.d1 log := by
  induction hev with
  | refl hk0 => exact ⟨(add_zero _).symm, (add_zero _).symm⟩
  | step fuel op hr hal ha hx hk2 ih =>
    obtain ⟨i1, i2⟩ := ih
    obtain ⟨g1, g2, _⟩ := exec_growth (evolves_inv hi hr) ha hx
    exact ⟨by rw [g1, i1, sumAll_append, add_assoc], by rw [g2, i2, sumAll_append, add_assoc]⟩

theorem mintStrategy_exec {p p1 : Pool} {l u : Int} {L a0 a1 : U256} (hm : p.mintStrategy l u L = .ok (a0, a1, p1)) :
    PoolOp.exec 0 p (.mintStrategy l u L) = .ok p1 := by
  show (p.mintStrategy l u L >>= _) = _
  rw [hm]; rfl

/-- Two positions that are in range together get the same fees per unit of liquidity. -/
theorem beside {h : List Entry} {p p' : Pool} {l u m v : Int} {L M g0 g1 f0 f1 e0 e1 : U256} (hr : Reachable h p)
    (hs : SideBySide h p l u L m v M p' g0 g1) (hf : Earns p' l u L f0 f1) (he : Earns p' m v M e0 e1) :
    (f0 = share L g0 ∧ f1 = share L g1) ∧ e0 = share M g0 ∧ e1 = share M g1 := by
  obtain ⟨n1, n2, hne, ht, a0, a1, b0, b1, p1, p2, log, h', m1, m2, hev, rfl, rfl⟩ := hs
  obtain ⟨x0, x1, q, c0, c1, q', k1, k2, k3, k4⟩ := hf
  obtain ⟨y0, y1, r, d0, d1, r', j1, j2, j3, j4⟩ := he
  have x1' := mintStrategy_exec m1
  have x2' := mintStrategy_exec m2
  have ad1 : (PoolOp.mintStrategy l u L).Admissible p h := show total h + L.toNat < 2 ^ 128 by omega
  have ad2 : (PoolOp.mintStrategy m v M).Admissible p1 (⟨l, u, L.toNat⟩ :: h) := by
    show total (⟨l, u, L.toNat⟩ :: h) + M.toNat < 2 ^ 128
    have : total (⟨l, u, (L.toNat : Int)⟩ :: h) = L.toNat + total h := total_cons _ _
    omega
  have hi := Props.reachable_inv hr
  have hr1 : Reachable (⟨l, u, L.toNat⟩ :: h) p1 := by
    obtain ⟨a, b, fee, pr, p0, hf, hn, hre⟩ := hr
    exact ⟨a, b, fee, pr, p0, hf, hn, .step 0 _ hre ad1 x1'⟩
  have i1 := Props.reachable_inv hr1
  have i2 : Inv (⟨m, v, M.toNat⟩ :: ⟨l, u, L.toNat⟩ :: h) p2 := exec_inv i1 ad2 x2'
  obtain ⟨s1, s2⟩ := evolves_sum i2 hev
  obtain ⟨w1, w2, _⟩ := exec_growth hi ad1 x1'
  obtain ⟨w3, w4, _⟩ := exec_growth i1 ad2 x2'
  have t1 : p2.growth0 = p.growth0 := by
    rw [w3, w1]; show p.growth0 + 0 + 0 = _; abel
  have t2 : p2.growth1 = p.growth1 := by
    rw [w4, w2]; show p.growth1 + 0 + 0 = _; abel
  have g1 : sub p'.growth0 p.growth0 = sumAll Accrual.d0 log := by rw [sub_def, s1, t1]; abel
  have g2 : sub p'.growth1 p.growth1 = sumAll Accrual.d1 log := by rw [sub_def, s2, t2]; abel
  rw [g1, g2]
  obtain ⟨_, _, l1⟩ := evolves_log (l := l) (u := u) i2 (fun q hq => hq.1) hev
  obtain ⟨_, _, l2⟩ := evolves_log (l := m) (u := v) i2 (fun q hq => hq.2) hev
  obtain ⟨z1, z2⟩ := accrued_all l1
  obtain ⟨z3, z4⟩ := accrued_all l2
  have ev1 : Evolves (PoolOp.LeavesAlone l u) (fun _ => True) (⟨l, u, L.toNat⟩ :: h) p1 (([] ++ []) ++ log) h' p' :=
    Evolves.trans (.step 0 (.mintStrategy m v M) (.refl trivial) hne.symm ad2 x2' trivial)
      (Evolves.weaken (fun _ ha => ha.1) (fun _ _ => trivial) hev)
  have ev2 : Evolves (PoolOp.LeavesAlone m v) (fun _ => True) (⟨m, v, M.toNat⟩ :: ⟨l, u, L.toNat⟩ :: h) p2 log h' p' :=
    Evolves.weaken (fun _ ha => ha.2) (fun _ _ => trivial) hev
  obtain ⟨o1, o2, _⟩ := Props.C29_payout h h' p p1 p' q q' hr l u L n1 ad1 a0 a1 m1 _ ev1 x0 x1 k1 c0 c1 k2
  have n2' : p1.positions (posKey m v) = none := by
    obtain ⟨_, _, pos, h5⟩ := mintStrategy_eq m1
    rw [modifyStrategy_pos h5, setPos_ne hne.symm]
    exact n2
  obtain ⟨o3, o4, _⟩ := Props.C29_payout _ h' p1 p2 p' r r' hr1 m v M n2' ad2 b0 b1 m2 _ ev2 y0 y1 j1 d0 d1 j2
  rw [List.append_nil, List.nil_append, z1] at o1
  rw [List.append_nil, List.nil_append, z2] at o2
  rw [z3] at o3
  rw [z4] at o4
  have cancel : ∀ {b f g : U256}, add b f = add g b → f = g := by
    intro b f g hh
    rw [add_def, add_def, add_comm] at hh
    exact add_right_cancel hh
  exact ⟨⟨cancel (k3.symm.trans o1), cancel (k4.symm.trans o2)⟩, cancel (j3.symm.trans o3), cancel (j4.symm.trans o4)⟩

theorem share_nat {L g : U256} (hL : L.toNat < 2 ^ 128) : (share L g).toNat = L.toNat * g.toNat / 2 ^ 128 := by
  unfold share
  have hg := toNat_lt g
  apply toNat_ofNat_of_lt
  rw [Nat.div_lt_iff_lt_mul (by norm_num)]
  calc L.toNat * g.toNat ≤ 2 ^ 128 * g.toNat := Nat.mul_le_mul_right _ (by omega)
    _ < 2 ^ 256 * 2 ^ 128 := by omega

theorem share_more {L M g : U256} (h : L.toNat ≤ M.toNat) (hM : M.toNat < 2 ^ 128) : (share L g).toNat ≤ (share M g).toNat := by
  rw [share_nat (by omega), share_nat hM]
  exact Nat.div_le_div_right (Nat.mul_le_mul_right _ h)

end Pool
end Uni
