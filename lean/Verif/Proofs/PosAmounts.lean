import Verif.Proofs.Pool
import Verif.Spec.Pool
import Verif.Props.SqrtPriceMath
/-! # Token amounts of liquidity changes -/
namespace Uni
open U256 Spec TickData TickMath FullMath SqrtPriceMath
namespace Pool

theorem rounded0_ok {a b d r : U256} (ha : 0 < a.toNat) (hb : 0 < b.toNat) (ha' : a.toNat < 2 ^ 160) (hb' : b.toNat < 2 ^ 160)
    (hd : -2 ^ 128 < d.toInt) (hd' : d.toInt < 2 ^ 128) (hx : getAmount0DeltaRounded a b d = .ok r) :
    r.toInt = ⌈exact0 a.toNat b.toNat d.toInt⌉ := by
  by_cases hs : d.toInt < 0
  · obtain ⟨r', h1, h2⟩ := (Props.C18_rounded a b d ha hb ha' hb' hd hd').2 (Or.inl hs)
    rw [hx] at h1; cases h1; exact h2
  · have hn := toNat_of_nonneg (x := d) (by omega)
    have hsg : ¬ sign d = -1 := by rw [sign_eq_toInt, Int.sign_eq_neg_one_iff_neg]; exact hs
    unfold getAmount0DeltaRounded at hx
    rw [if_neg hsg] at hx
    have hL : d.toNat < 2 ^ 128 := by omega
    have hlt := amount0Up_lt ha hb hL
    rcases (Props.C18_amount0 a b d ha hb ha' hb' hL).2 with ⟨u, h1, h2⟩ | ⟨h1, _⟩
    · rw [hx] at h1; cases h1
      rw [← hn, ← h2]
      rw [← Props.amount0Up_eq _ _ _ ha hb] at h2
      have h3 : r.toNat = amount0Up a.toNat b.toNat d.toNat := by exact_mod_cast h2
      exact toInt_of_lt (by omega)
    · rw [hx] at h1; cases h1

theorem rounded1_ok {a b d r : U256} (ha : 0 < a.toNat) (hb : 0 < b.toNat) (ha' : a.toNat < 2 ^ 160) (hb' : b.toNat < 2 ^ 160)
    (hd : -2 ^ 128 < d.toInt) (hd' : d.toInt < 2 ^ 128) (hx : getAmount1DeltaRounded a b d = .ok r) :
    r.toInt = ⌈exact1 a.toNat b.toNat d.toInt⌉ := by
  obtain ⟨r', h1, h2⟩ := (Props.C18_rounded a b d ha hb ha' hb' hd hd').1
  rw [hx] at h1; cases h1; exact h2

theorem exact0_same (p : Nat) (L : Int) : exact0 p p L = 0 := by unfold exact0; simp
theorem exact1_same (p : Nat) (L : Int) : exact1 p p L = 0 := by unfold exact1; simp
theorem exact1_comm (p q : Nat) (L : Int) : exact1 p q L = exact1 q p L := by unfold exact1; rw [abs_sub_comm]

theorem ratio_ok {t : Int} {r : U256} (h1 : -887272 ≤ t) (h2 : t ≤ 887272) (hx : getSqrtRatioAtTick t = .ok r) : r.toNat = ratioN t := by
  obtain ⟨r', h3, h4⟩ := getSqrtRatioAtTick_spec t h1 h2
  rw [hx] at h3; cases h3; exact h4

theorem amountsFor_ok {p : Pool} {l u : Int} {d a0 a1 : U256} (ht1 : -887272 ≤ p.tick) (ht2 : p.tick < 887272)
    (hp1 : ratioN p.tick ≤ p.price.toNat) (hp2 : p.price.toNat ≤ ratioN (p.tick + 1)) (hlu : l < u) (hl : -887272 ≤ l) (hu : u ≤ 887272)
    (hd : -2 ^ 128 < d.toInt) (hd' : d.toInt < 2 ^ 128) (hx : p.amountsFor l u d = .ok (a0, a1)) :
    a0.toInt = ⌈exact0 (clamp p.price.toNat (ratioN l) (ratioN u)) (ratioN u) d.toInt⌉ ∧
    a1.toInt = ⌈exact1 (ratioN l) (clamp p.price.toNat (ratioN l) (ratioN u)) d.toInt⌉ := by
  have z0 : zero.toInt = ⌈(0 : ℚ)⌉ := by rw [Int.ceil_zero]; decide +kernel
  have hlt := ratioN_lt (s := l) (t := u) hl hlu hu
  have hA := ratioN_ge (t := l) hl (by omega)
  have hA' := ratioN_lt160 (t := l) hl (by omega)
  have hB := ratioN_ge (t := u) (by omega) hu
  have hB' := ratioN_lt160 (t := u) (by omega) hu
  have hP0 := ratioN_ge (t := p.tick) ht1 (by omega)
  have hP1 := ratioN_lt160 (t := p.tick + 1) (by omega) (by omega)
  unfold amountsFor at hx
  by_cases h1 : p.tick < l
  · rw [if_pos h1] at hx
    obtain ⟨a, k1, hx⟩ := bind_ok hx
    obtain ⟨b, k2, hx⟩ := bind_ok hx
    obtain ⟨x, k3, hx⟩ := bind_ok hx
    cases hx
    have e1 := ratio_ok hl (by omega) k1
    have e2 := ratio_ok (by omega) hu k2
    have hc : clamp p.price.toNat (ratioN l) (ratioN u) = ratioN l := by
      have := ratioN_le (s := p.tick + 1) (t := l) (by omega) (by omega) (by omega)
      unfold clamp; omega
    rw [hc, exact1_same, ← e1, ← e2]
    exact ⟨rounded0_ok (by omega) (by omega) (by omega) (by omega) hd hd' k3, z0⟩
  · rw [if_neg h1] at hx
    by_cases h2 : p.tick < u
    · rw [if_pos h2] at hx
      obtain ⟨b, k2, hx⟩ := bind_ok hx
      obtain ⟨x, k3, hx⟩ := bind_ok hx
      obtain ⟨a, k1, hx⟩ := bind_ok hx
      obtain ⟨y, k4, hx⟩ := bind_ok hx
      cases hx
      have e1 := ratio_ok hl (by omega) k1
      have e2 := ratio_ok (by omega) hu k2
      have hc : clamp p.price.toNat (ratioN l) (ratioN u) = p.price.toNat := by
        have := ratioN_le (s := p.tick + 1) (t := u) (by omega) (by omega) (by omega)
        have := ratioN_le (s := l) (t := p.tick) (by omega) (by omega) (by omega)
        unfold clamp; omega
      rw [hc, exact1_comm, ← e1, ← e2]
      exact ⟨rounded0_ok (by omega) (by omega) (by omega) (by omega) hd hd' k3,
        rounded1_ok (by omega) (by omega) (by omega) (by omega) hd hd' k4⟩
    · rw [if_neg h2] at hx
      obtain ⟨a, k1, hx⟩ := bind_ok hx
      obtain ⟨b, k2, hx⟩ := bind_ok hx
      obtain ⟨x, k3, hx⟩ := bind_ok hx
      cases hx
      have e1 := ratio_ok hl (by omega) k1
      have e2 := ratio_ok (by omega) hu k2
      have hc : clamp p.price.toNat (ratioN l) (ratioN u) = ratioN u := by
        have := ratioN_le (s := u) (t := p.tick) (by omega) (by omega) (by omega)
        unfold clamp; omega
      rw [hc, exact0_same, ← e1, ← e2]
      exact ⟨z0, rounded1_ok (by omega) (by omega) (by omega) (by omega) hd hd' k3⟩

/-- The amounts of a strategy liquidity change. -/
theorem modifyStrategy_amounts {h : List Entry} {p p' : Pool} (hi : Inv h p) {pos : Info} {l u : Int} {d a0 a1 : U256}
    (hd : -2 ^ 128 < d.toInt) (hd' : d.toInt < 2 ^ 128)
    (hx : p.modifyPositionStrategy l u d = .ok (pos, a0, a1, p')) :
    a0.toInt = ⌈exact0 (clamp p.price.toNat (ratioN l) (ratioN u)) (ratioN u) d.toInt⌉ ∧
    a1.toInt = ⌈exact1 (ratioN l) (clamp p.price.toNat (ratioN l) (ratioN u)) d.toInt⌉ := by
  obtain ⟨hlu, hl, hu, q, h1, h2, h3⟩ := modifyStrategy_eq hx
  by_cases hz : d.toNat = 0
  · obtain ⟨e0, e1, _⟩ := h2 hz
    have hz' : d.toInt = 0 := toInt_eq_zero.2 hz
    have z0 : zero.toInt = 0 := by decide +kernel
    rw [e0, e1, hz', z0]
    unfold exact0 exact1
    simp
  · obtain ⟨e, _⟩ := h3 hz
    obtain ⟨t2, t', ins, _, _, _, _, _, _, _, rfl⟩ := updatePosition_eq hi.ticks.inc hlu h1
    exact amountsFor_ok (p := { p with ticks := t', positions := setPos p.positions (posKey l u) pos })
      hi.tlo hi.thi hi.plo hi.phi hlu hl hu hd hd' e

end Pool
end Uni
