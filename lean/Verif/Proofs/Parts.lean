import Verif.Spec.Parts
import Verif.Proofs.Narrow
/-! # A range and its parts -/
namespace Uni
namespace Pool
open U256 Spec TickMath

theorem exact0_parts {P a b c : Nat} {L : Int} (ha : 0 < a) (hab : a ≤ b) (hbc : b ≤ c) :
    exact0 (clamp P a c) c L = exact0 (clamp P a b) b L + exact0 (clamp P b c) c L := by
  have hb : (0 : ℚ) < b := by exact_mod_cast (show 0 < b by omega)
  have hc : (0 : ℚ) < c := by exact_mod_cast (show 0 < c by omega)
  by_cases hP : P ≤ b
  · have e1 : clamp P b c = b := by unfold clamp; omega
    have e2 : clamp P a c = clamp P a b := by unfold clamp; omega
    rw [e1, e2]
    obtain ⟨x, hx⟩ : ∃ x, x = clamp P a b := ⟨_, rfl⟩
    have hx1 : 0 < x := by rw [hx]; unfold clamp; omega
    have hx2 : x ≤ b := by rw [hx]; unfold clamp; omega
    rw [← hx]
    have hxq : (0 : ℚ) < x := by exact_mod_cast hx1
    have h1 : (x : ℚ) ≤ b := by exact_mod_cast hx2
    have h2 : (b : ℚ) ≤ c := by exact_mod_cast hbc
    unfold exact0
    rw [abs_of_nonneg (by linarith), abs_of_nonneg (by linarith), abs_of_nonneg (by linarith)]
    field_simp
    ring
  · have e1 : clamp P a b = b := by unfold clamp; omega
    have e2 : clamp P b c = clamp P a c := by unfold clamp; omega
    rw [e1, e2]
    have : exact0 b b L = 0 := by unfold exact0; simp
    rw [this, zero_add]

theorem exact1_parts {P a b c : Nat} {L : Int} (hab : a ≤ b) (hbc : b ≤ c) :
    exact1 a (clamp P a c) L = exact1 a (clamp P a b) L + exact1 b (clamp P b c) L := by
  by_cases hP : P ≤ b
  · have e1 : clamp P b c = b := by unfold clamp; omega
    have e2 : clamp P a c = clamp P a b := by unfold clamp; omega
    rw [e1, e2]
    have : exact1 b b L = 0 := by unfold exact1; simp
    rw [this, add_zero]
  · have e1 : clamp P a b = b := by unfold clamp; omega
    have e2 : clamp P b c = clamp P a c := by unfold clamp; omega
    rw [e1, e2]
    have hx1 : b ≤ clamp P a c := by unfold clamp; omega
    have h1 : (b : ℚ) ≤ clamp P a c := by exact_mod_cast hx1
    have h2 : (a : ℚ) ≤ b := by exact_mod_cast hab
    unfold exact1
    rw [abs_of_nonneg (by linarith), abs_of_nonneg (by linarith), abs_of_nonneg (by linarith)]
    ring

theorem ceil_parts (x y : ℚ) : ⌈x + y⌉ ≤ ⌈x⌉ + ⌈y⌉ ∧ ⌈x⌉ + ⌈y⌉ ≤ ⌈x + y⌉ + 1 :=
  ⟨Int.ceil_add_le x y, Int.ceil_add_ceil_le x y⟩

theorem floor_parts (x y : ℚ) : ⌊x⌋ + ⌊y⌋ ≤ ⌊x + y⌋ ∧ ⌊x + y⌋ ≤ ⌊x⌋ + ⌊y⌋ + 1 :=
  ⟨Int.le_floor_add x y, by have := Int.le_floor_add_floor x y; omega⟩

theorem accrued_parts {l m u : Int} (h1 : l ≤ m) (h2 : m ≤ u) (log : List Accrual) :
    accrued0 l u log = add (accrued0 l m log) (accrued0 m u log) ∧ accrued1 l u log = add (accrued1 l m log) (accrued1 m u log) := by
  induction log with
  | nil => exact ⟨(add_zero (0 : U256)).symm, (add_zero (0 : U256)).symm⟩
  | cons e log ih =>
    obtain ⟨i1, i2⟩ := ih
    unfold accrued0 accrued1 at *
    simp only [List.foldr_cons]
    rw [i1, i2]
    simp only [add_def]
    by_cases k1 : l ≤ e.tick ∧ e.tick < m
    · rw [if_pos k1, if_pos k1, if_pos (show l ≤ e.tick ∧ e.tick < u by omega), if_pos (show l ≤ e.tick ∧ e.tick < u by omega),
        if_neg (show ¬ (m ≤ e.tick ∧ e.tick < u) by omega), if_neg (show ¬ (m ≤ e.tick ∧ e.tick < u) by omega)]
      constructor <;> abel
    · by_cases k2 : m ≤ e.tick ∧ e.tick < u
      · rw [if_neg k1, if_neg k1, if_pos k2, if_pos k2, if_pos (show l ≤ e.tick ∧ e.tick < u by omega),
          if_pos (show l ≤ e.tick ∧ e.tick < u by omega)]
        constructor <;> abel
      · rw [if_neg k1, if_neg k1, if_neg k2, if_neg k2, if_neg (show ¬ (l ≤ e.tick ∧ e.tick < u) by omega),
          if_neg (show ¬ (l ≤ e.tick ∧ e.tick < u) by omega)]
        exact ⟨rfl, rfl⟩

/-- What a position has earned since it was opened. -/
theorem earned {h h' : List Entry} {p p1 p' : Pool} {l u : Int} {L a0 a1 f0 f1 : U256} {log : List Accrual} (hr : Reachable h p)
    (hn : p.positions (posKey l u) = none) (ht : total h + L.toNat < 2 ^ 128) (hm : p.mintStrategy l u L = .ok (a0, a1, p1))
    (hev : Evolves (PoolOp.LeavesAlone l u) (fun _ => True) (⟨l, u, L.toNat⟩ :: h) p1 log h' p') (hf : Earns p' l u L f0 f1) :
    f0 = share L (accrued0 l u log) ∧ f1 = share L (accrued1 l u log) := by
  obtain ⟨x0, x1, q, c0, c1, q', k1, k2, k3, k4⟩ := hf
  obtain ⟨o1, o2, _⟩ := Props.C29_payout h h' p p1 p' q q' hr l u L hn ht a0 a1 hm _ hev x0 x1 k1 c0 c1 k2
  have cancel : ∀ {b f g : U256}, add b f = add g b → f = g := by
    intro b f g hh
    rw [add_def, add_def, add_comm] at hh
    exact add_right_cancel hh
  exact ⟨cancel (k3.symm.trans o1), cancel (k4.symm.trans o2)⟩

theorem share_parts {L g g' : U256} (hL : L.toNat < 2 ^ 128)
    (hw : (share L g).toNat + (share L g').toNat + 2 ≤ L.toNat * 2 ^ 128) :
    (share L g).toNat + (share L g').toNat ≤ (share L (add g g')).toNat ∧
    (share L (add g g')).toNat ≤ (share L g).toNat + (share L g').toNat + 1 := by
  rw [share_nat hL, share_nat hL] at hw ⊢
  rw [share_nat hL]
  have k1 : L.toNat * g.toNat < (L.toNat * g.toNat / 2 ^ 128 + 1) * 2 ^ 128 := Nat.lt_mul_of_div_lt (Nat.lt_succ_self _) (by norm_num)
  have k2 : L.toNat * g'.toNat < (L.toNat * g'.toNat / 2 ^ 128 + 1) * 2 ^ 128 := Nat.lt_mul_of_div_lt (Nat.lt_succ_self _) (by norm_num)
  have hs : (add g g').toNat = g.toNat + g'.toNat := by
    have hlt : L.toNat * (g.toNat + g'.toNat) < L.toNat * 2 ^ 256 := by
      rw [Nat.mul_add]
      calc L.toNat * g.toNat + L.toNat * g'.toNat
          < (L.toNat * g.toNat / 2 ^ 128 + 1) * 2 ^ 128 + (L.toNat * g'.toNat / 2 ^ 128 + 1) * 2 ^ 128 := by omega
        _ = (L.toNat * g.toNat / 2 ^ 128 + L.toNat * g'.toNat / 2 ^ 128 + 2) * 2 ^ 128 := by ring
        _ ≤ L.toNat * 2 ^ 128 * 2 ^ 128 := Nat.mul_le_mul_right _ hw
        _ = L.toNat * 2 ^ 256 := by ring
    have : g.toNat + g'.toNat < 2 ^ 256 := Nat.lt_of_mul_lt_mul_left hlt
    rw [toNat_add, Nat.mod_eq_of_lt this]
  rw [hs, Nat.mul_add]
  generalize L.toNat * g.toNat = a at *
  generalize L.toNat * g'.toNat = b at *
  omega

end Pool
end Uni
