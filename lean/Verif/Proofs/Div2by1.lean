import Verif.Proofs.Mul
import Mathlib.Tactic.Zify
/-! Two-by-one word division with a precomputed reciprocal (Möller–Granlund, Algorithm 4). -/
namespace Uni
namespace U256

/-- Integer core of the algorithm: bounds on the candidate remainder `R`. -/
theorem mg_core {B d uh ul v q1 q0 R : Int} (hd : B ≤ 2 * d) (hdB : d < B) (huh : 0 ≤ uh) (huh' : uh < d)
    (hul : 0 ≤ ul) (hul' : ul < B) (hv1 : (v + B) * d + 1 ≤ B * B) (hv2 : B * B ≤ (v + B + 1) * d)
    (hq : q1 * B + q0 = (v + B) * uh + ul) (hq0 : 0 ≤ q0) (hq0' : q0 < B)
    (hR : R = uh * B + ul - (q1 + 1) * d) :
    -d ≤ R ∧ R < B ∧ (R ≤ q0 ∨ R < B - d) ∧ (R < 0 → q0 < R + B) ∧ 0 ≤ q1 ∧ q1 < B := by
  obtain ⟨k, hk⟩ : ∃ k, k = B * B - (v + B) * d := ⟨_, rfl⟩
  have hk1 : 1 ≤ k := by linarith
  have hk2 : k ≤ d := by linarith
  have hB : 0 < B := by linarith
  have hd0 : 0 < d := by linarith
  have hBR : B * R = uh * k + ul * (B - d) + q0 * d - B * d := by
    rw [hR, hk]
    linear_combination (-d) * hq
  have p1 : 0 ≤ uh * k := Int.mul_nonneg huh (by linarith)
  have p2 : 0 ≤ ul * (B - d) := Int.mul_nonneg hul (by linarith)
  have p3 : 0 ≤ q0 * d := Int.mul_nonneg hq0 (by linarith)
  have p4 : uh * k ≤ (d - 1) * d := mul_le_mul (by linarith) hk2 (by linarith) (by linarith)
  have p5 : ul * (B - d) ≤ (B - 1) * (B - d) := mul_le_mul_of_nonneg_right (by linarith) (by linarith)
  have hlow : -d ≤ R := by
    by_contra h
    have : R ≤ -d - 1 := by linarith
    have : B * R ≤ B * (-d - 1) := mul_le_mul_of_nonneg_left this hB.le
    linarith
  have hup : B * R < (B - d) * (B - d) + q0 * d := by linarith
  have hmax : R ≤ q0 ∨ R < B - d := by
    by_contra h
    push Not at h
    obtain ⟨h1, h2⟩ := h
    have : d * (q0 + 1) ≤ d * R := mul_le_mul_of_nonneg_left (by linarith) hd0.le
    have : (B - d) * (B - d) ≤ (B - d) * R := mul_le_mul_of_nonneg_left h2 (by linarith)
    linarith
  have hv0 : 0 ≤ v + B := by
    by_contra h
    have : v + B + 1 ≤ 0 := by linarith
    nlinarith
  have hq1 : 0 ≤ q1 := by
    by_contra h
    have h1 : q1 ≤ -1 := by linarith
    have : q1 * B ≤ -1 * B := mul_le_mul_of_nonneg_right h1 hB.le
    have : 0 ≤ (v + B) * uh := Int.mul_nonneg hv0 huh
    linarith
  have hq1B : q1 < B := by
    by_contra h
    have h1 : B ≤ q1 := by linarith
    have h2 : B * B ≤ q1 * B := mul_le_mul_of_nonneg_right h1 hB.le
    have h3 : (v + B) * d * uh ≤ (B * B - 1) * uh := mul_le_mul_of_nonneg_right (by linarith) huh
    have h4 : d * (B * B) ≤ d * ((v + B) * uh + ul) := mul_le_mul_of_nonneg_left (by linarith) hd0.le
    have h6 : d * ul ≤ d * (B - 1) := mul_le_mul_of_nonneg_left (by linarith) hd0.le
    have hBB : 0 ≤ B * B - 1 := by nlinarith
    have h7 : (B * B - 1) * uh ≤ (B * B - 1) * (d - 1) := mul_le_mul_of_nonneg_left (by linarith) hBB
    have h8 : d * B ≤ (B - 1) * B := mul_le_mul_of_nonneg_right (by linarith) hB.le
    linarith
  refine ⟨hlow, ?_, hmax, ?_, hq1, hq1B⟩
  · rcases hmax with h | h <;> linarith
  · intro hneg
    by_contra h
    have h1 : R ≤ q0 - B := by linarith
    have h2 : B * R ≤ B * (q0 - B) := mul_le_mul_of_nonneg_left h1 hB.le
    have h4 : 0 < (B - q0) * (B - d) := mul_pos (by linarith) (by linarith)
    linarith

theorem reciprocal2by1_spec {d : Word} (hd : 2 ^ 63 ≤ d.toNat) :
    ∃ v, reciprocal2by1 d = .ok v ∧ (v.toNat + 2 ^ 64) * d.toNat + 1 ≤ 2 ^ 128 ∧
      2 ^ 128 ≤ (v.toNat + 2 ^ 64 + 1) * d.toNat := by
  have hdl := d.isLt
  have hn : (~~~d).toNat = 2 ^ 64 - 1 - d.toNat := BitVec.toNat_not
  have ha : (BitVec.allOnes 64).toNat = 2 ^ 64 - 1 := by decide
  unfold reciprocal2by1 div64
  rw [hn, ha, if_neg (by omega)]
  refine ⟨_, rfl, ?_⟩
  dsimp only
  generalize d.toNat = D at *
  have hlt : ((2 ^ 64 - 1 - D) * 2 ^ 64 + (2 ^ 64 - 1)) / D < 2 ^ 64 := by
    rw [Nat.div_lt_iff_lt_mul (by omega)]
    omega
  have hdm := Nat.div_add_mod ((2 ^ 64 - 1 - D) * 2 ^ 64 + (2 ^ 64 - 1)) D
  have hml := Nat.mod_lt ((2 ^ 64 - 1 - D) * 2 ^ 64 + (2 ^ 64 - 1)) (show 0 < D by omega)
  rw [BitVec.toNat_ofNat, Nat.mod_eq_of_lt hlt]
  generalize ((2 ^ 64 - 1 - D) * 2 ^ 64 + (2 ^ 64 - 1)) / D = q at *
  generalize ((2 ^ 64 - 1 - D) * 2 ^ 64 + (2 ^ 64 - 1)) % D = r at *
  have hx : (2 ^ 64 - 1 - D) * 2 ^ 64 + (2 ^ 64 - 1) + D * 2 ^ 64 + 1 = 2 ^ 128 := by omega
  constructor
  · rw [Nat.add_mul]
    have : q * D = D * q := Nat.mul_comm _ _
    omega
  · rw [Nat.add_mul, Nat.add_mul]
    have : q * D = D * q := Nat.mul_comm _ _
    omega

theorem udivrem2by1_spec {uh ul d v : Word} (hd : 2 ^ 63 ≤ d.toNat) (hu : uh.toNat < d.toNat)
    (hv1 : (v.toNat + 2 ^ 64) * d.toNat + 1 ≤ 2 ^ 128) (hv2 : 2 ^ 128 ≤ (v.toNat + 2 ^ 64 + 1) * d.toNat) :
    uh.toNat * 2 ^ 64 + ul.toNat =
      (udivrem2by1 uh ul d v).1.toNat * d.toNat + (udivrem2by1 uh ul d v).2.toNat ∧
    (udivrem2by1 uh ul d v).2.toNat < d.toNat := by
  have hm := mul64_spec v uh
  have s0 := add64_spec (mul64 v uh).2 ul 0 (by simp)
  have s1 := add64_spec (mul64 v uh).1 uh _ s0.2
  have hdl := d.isLt
  have hull := ul.isLt
  unfold udivrem2by1
  dsimp only
  generalize mul64 v uh = p at *
  generalize add64 p.2 ul 0 = r0 at *
  generalize add64 p.1 uh r0.2 = r1 at *
  obtain ⟨s0, s0'⟩ := s0
  obtain ⟨s1, s1'⟩ := s1
  have hr0 := r0.1.isLt
  have hr1 := r1.1.isLt
  have hqn : (r1.1.toNat + 2 ^ 64 * r1.2.toNat) * 2 ^ 64 + r0.1.toNat =
      (v.toNat + 2 ^ 64) * uh.toNat + ul.toNat := by
    rw [s1, Nat.add_mul (v.toNat), ← hm]
    simp only [word_toNat_zero] at s0
    omega
  have core := mg_core (B := 2 ^ 64) (d := d.toNat) (uh := uh.toNat) (ul := ul.toNat) (v := v.toNat)
    (q1 := ((r1.1.toNat + 2 ^ 64 * r1.2.toNat : Nat) : Int)) (q0 := r0.1.toNat)
    (R := uh.toNat * 2 ^ 64 + ul.toNat - (((r1.1.toNat + 2 ^ 64 * r1.2.toNat : Nat) : Int) + 1) * d.toNat)
    (by omega) (by omega) (by omega) (by omega) (by omega) (by omega)
    (by have := hv1; zify at this; linarith) (by have := hv2; zify at this; linarith)
    (by have := hqn; zify at this; push_cast; linarith) (by omega) (by omega) rfl
  obtain ⟨hlow, hRB, hmax, hneg, hq1, hq1B⟩ := core
  have hc : r1.2.toNat = 0 := by omega
  rw [hc, Nat.mul_zero, Nat.add_zero] at hlow hRB hmax hneg hq1 hq1B
  clear s0 s1 s0' s1' hm hqn hc hv1 hv2
  generalize hR : (uh.toNat : Int) * 2 ^ 64 + ul.toNat - ((r1.1.toNat : Int) + 1) * d.toNat = R at *
  -- the word r is R modulo 2^64
  have hr : (((ul - (r1.1 + 1) * d).toNat : Nat) : Int) = R % 2 ^ 64 := by
    have h1 : ((r1.1 + 1) * d).toNat = ((r1.1.toNat + 1) * d.toNat) % 2 ^ 64 := by
      rw [BitVec.toNat_mul, BitVec.toNat_add, word_toNat_one, Nat.mod_mul_mod]
    have h2 : R = (uh.toNat : Int) * 2 ^ 64 + ul.toNat - (((r1.1.toNat + 1) * d.toNat : Nat) : Int) := by
      rw [← hR]; push_cast; ring
    rw [BitVec.toNat_sub, h1, h2]
    generalize (r1.1.toNat + 1) * d.toNat = N
    omega
  have hdp : (0 : Int) < d.toNat := by omega
  have hu' : (uh.toNat : Int) * 2 ^ 64 + ul.toNat < d.toNat * 2 ^ 64 := by
    have : (uh.toNat : Int) + 1 ≤ d.toNat := by omega
    nlinarith
  have eqn : (uh.toNat : Int) * 2 ^ 64 + ul.toNat = (r1.1.toNat + 1) * d.toNat + R := by rw [← hR]; ring
  generalize (ul - (r1.1 + 1) * d) = r at *
  have hrl := r.isLt
  rcases lt_or_ge R 0 with h | h
  · -- too large by one
    have hgt := hneg h
    have er : (r.toNat : Int) = R + 2 ^ 64 := by omega
    have hlt : r0.1 < r := by rw [word_lt_iff]; omega
    rw [if_pos hlt]
    have e1 : (r1.1 + 1 - 1) = r1.1 := BitVec.add_sub_cancel _ _
    have e2 : (r + d).toNat = (R + d.toNat).toNat := by
      rw [BitVec.toNat_add]; omega
    dsimp only
    rw [if_neg (by rw [word_le_iff, e2]; omega)]
    dsimp only
    rw [e1, e2]
    refine ⟨?_, by omega⟩
    zify
    rw [Int.toNat_of_nonneg (by omega), eqn]
    ring
  · have er : (r.toNat : Int) = R := by omega
    have hq1' : (r1.1.toNat : Int) + 1 < 2 ^ 64 := by
      by_contra hh
      have : (2 ^ 64 : Int) * d.toNat ≤ ((r1.1.toNat : Int) + 1) * d.toNat :=
        Int.mul_le_mul_of_nonneg_right (by omega) (by omega)
      linarith
    have e1 : (r1.1 + 1).toNat = r1.1.toNat + 1 := by
      rw [BitVec.toNat_add, word_toNat_one]; omega
    by_cases hlt : r0.1 < r
    · rw [if_pos hlt]
      rw [word_lt_iff] at hlt
      have hRd : R < 2 ^ 64 - d.toNat := by omega
      have e2 : (r + d).toNat = r.toNat + d.toNat := by
        rw [BitVec.toNat_add]; omega
      dsimp only
      rw [if_pos (by rw [word_le_iff, e2]; omega)]
      dsimp only
      have e3 : (r1.1 + 1 - 1 + 1) = r1.1 + 1 := by rw [BitVec.add_sub_cancel]
      have e4 : (r + d - d) = r := BitVec.add_sub_cancel _ _
      rw [e3, e4, e1]
      refine ⟨?_, by omega⟩
      zify
      rw [er, eqn]
    · rw [if_neg hlt]
      dsimp only
      by_cases hge : d ≤ r
      · rw [if_pos hge]
        rw [word_le_iff] at hge
        have e2 : (r - d).toNat = r.toNat - d.toNat := by
          rw [BitVec.toNat_sub]; omega
        have hq2 : (r1.1.toNat : Int) + 2 < 2 ^ 64 := by
          by_contra hh
          have : (2 ^ 64 : Int) * d.toNat ≤ ((r1.1.toNat : Int) + 2) * d.toNat :=
            Int.mul_le_mul_of_nonneg_right (by omega) (by omega)
          linarith
        have e3 : (r1.1 + 1 + 1).toNat = r1.1.toNat + 2 := by
          rw [BitVec.toNat_add, e1, word_toNat_one]; omega
        dsimp only
        rw [e3, e2]
        refine ⟨?_, by omega⟩
        zify [hge]
        rw [er, eqn]
        ring
      · rw [if_neg hge]
        rw [word_le_iff] at hge
        dsimp only
        rw [e1]
        refine ⟨?_, by omega⟩
        zify
        rw [er, eqn]

end U256
end Uni
