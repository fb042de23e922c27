import Verif.Proofs.ModRecip
import Verif.Proofs.Mul
/-! `reduce4`, `MulMod` and `MulModWithReciprocal`. -/
set_option exponentiation.threshold 1000
namespace Uni.U256

theorem reduceLoop_spec (m : U256) (hm : 0 < m.toNat) : ∀ (k fuel : Nat) (r : Words5), k < fuel →
    r.toNat < (k + 1) * m.toNat → ∃ z, reduceLoop m fuel r = .ok z ∧ z.toNat = r.toNat % m.toNat := by
  have hm5 : ((⟨m.w0, m.w1, m.w2, m.w3, 0⟩ : Words5).toNat : ℤ) = m.toNat := by
    rw [Words5.toZ, U256.toZ, show ((0 : Word).toNat : ℤ) = 0 from rfl]
    ring
  have hml : m.toNat < 2 ^ 256 := toNat_lt m
  intro k
  induction k with
  | zero =>
    intro fuel r hf hr
    obtain ⟨f, rfl⟩ : ∃ f, fuel = f + 1 := ⟨fuel - 1, by omega⟩
    unfold reduceLoop
    dsimp only
    rcases sub320_spec r ⟨m.w0, m.w1, m.w2, m.w3, 0⟩ with ⟨hb, hv⟩ | ⟨hb, hv⟩
    · exfalso
      rw [hm5] at hv
      have := Int.natCast_nonneg (sub320 r ⟨m.w0, m.w1, m.w2, m.w3, 0⟩).1.toNat
      rw [hv] at this
      rw [Nat.zero_add, Nat.one_mul] at hr
      zify at hr
      linarith
    · rw [if_pos hb]
      refine ⟨_, rfl, ?_⟩
      rw [Nat.zero_add, Nat.one_mul] at hr
      rw [Nat.mod_eq_of_lt hr]
      have h4 : r.w4.toNat = 0 := by
        by_contra h
        have : 2 ^ 256 ≤ r.toNat := by
          unfold Words5.toNat
          have : 2 ^ 256 * 1 ≤ 2 ^ 256 * r.w4.toNat := Nat.mul_le_mul_left _ (by omega)
          linarith [Nat.zero_le r.w0.toNat, Nat.zero_le r.w1.toNat, Nat.zero_le r.w2.toNat, Nat.zero_le r.w3.toNat]
        linarith
      simp only [U256.toNat, Words5.toNat, h4, Nat.mul_zero, Nat.add_zero]
  | succ k ih =>
    intro fuel r hf hr
    obtain ⟨f, rfl⟩ : ∃ f, fuel = f + 1 := ⟨fuel - 1, by omega⟩
    unfold reduceLoop
    dsimp only
    rcases sub320_spec r ⟨m.w0, m.w1, m.w2, m.w3, 0⟩ with ⟨hb, hv⟩ | ⟨hb, hv⟩
    · rw [if_neg (fun h => h hb)]
      rw [hm5] at hv
      have hv' : (sub320 r ⟨m.w0, m.w1, m.w2, m.w3, 0⟩).1.toNat + m.toNat = r.toNat := by
        zify
        linarith
      generalize sub320 r ⟨m.w0, m.w1, m.w2, m.w3, 0⟩ = q at *
      obtain ⟨z, hz, hz2⟩ := ih f q.1 (by omega) (by
        have : (k + 1 + 1) * m.toNat = (k + 1) * m.toNat + m.toNat := by ring
        omega)
      exact ⟨z, hz, by rw [hz2, ← hv', Nat.add_mod_right]⟩
    · rw [if_pos hb]
      refine ⟨_, rfl, ?_⟩
      rw [hm5] at hv
      have hrm : r.toNat < m.toNat := by
        have h320 := (sub320 r ⟨m.w0, m.w1, m.w2, m.w3, 0⟩).1.lt
        rw [hv] at h320
        zify
        linarith
      rw [Nat.mod_eq_of_lt hrm]
      have h4 : r.w4.toNat = 0 := by
        by_contra h
        have : 2 ^ 256 ≤ r.toNat := by
          unfold Words5.toNat
          have : 2 ^ 256 * 1 ≤ 2 ^ 256 * r.w4.toNat := Nat.mul_le_mul_left _ (by omega)
          linarith [Nat.zero_le r.w0.toNat, Nat.zero_le r.w1.toNat, Nat.zero_le r.w2.toNat, Nat.zero_le r.w3.toNat]
        linarith
      simp only [U256.toNat, Words5.toNat, h4, Nat.mul_zero, Nat.add_zero]

/-- The quotient estimate of Barrett's method is at most five too small. -/
theorem barrett_bound {x q1 lo mu m V : ℤ} (hx : x = lo + 2 ^ 192 * q1) (hlo : 0 ≤ lo) (hlo2 : lo < 2 ^ 192)
    (hq1 : 0 ≤ q1) (hq1b : q1 < 2 ^ 320) (hmu0 : 0 ≤ mu) (hmu : mu < 2 ^ 320) (hm : 0 < m)
    (h1 : mu * m ≤ 2 ^ 512) (h2 : 2 ^ 512 < (mu + 3) * m)
    (hV1 : 2 ^ 320 * V ≤ q1 * mu) (hV2 : q1 * mu < 2 ^ 320 * (V + 2)) :
    0 ≤ x - V * m ∧ x - V * m < 8 * m := by
  have a1 : 2 ^ 320 * V * m ≤ q1 * mu * m := mul_le_mul_of_nonneg_right hV1 hm.le
  have a2 : q1 * (mu * m) ≤ q1 * 2 ^ 512 := mul_le_mul_of_nonneg_left h1 hq1
  have a3 : (q1 + 1) * 2 ^ 512 ≤ (q1 + 1) * ((mu + 3) * m) := mul_le_mul_of_nonneg_left h2.le (by linarith)
  have a4 : q1 * mu * m ≤ 2 ^ 320 * (V + 2) * m := mul_le_mul_of_nonneg_right hV2.le hm.le
  have a5 : q1 * m ≤ 2 ^ 320 * m := mul_le_mul_of_nonneg_right hq1b.le hm.le
  have a6 : (mu + 1) * m ≤ 2 ^ 320 * m := mul_le_mul_of_nonneg_right (by omega) hm.le
  have e1 : (q1 + 1) * ((mu + 3) * m) = q1 * mu * m + 3 * (q1 * m) + (mu + 1) * m + 2 * m := by ring
  have e2 : (2 : ℤ) ^ 320 * (V + 2) * m = 2 ^ 320 * (V * m) + 2 ^ 321 * m := by ring
  have e3 : q1 * (mu * m) = q1 * mu * m := by ring
  have e4 : (2 : ℤ) ^ 320 * V * m = 2 ^ 320 * (V * m) := by ring
  constructor
  · linarith
  · linarith

theorem val_hi (x0 x1 x2 x3 x4 x5 x6 x7 : Word) : ((val [x0, x1, x2, x3, x4, x5, x6, x7] : ℕ) : ℤ) =
    (x0.toNat + 2 ^ 64 * x1.toNat + 2 ^ 128 * x2.toNat) + 2 ^ 192 * (⟨x3, x4, x5, x6, x7⟩ : Words5).toNat := by
  rw [Words5.toZ]
  simp only [val]
  push_cast
  ring

theorem val_lo (x0 x1 x2 x3 x4 x5 x6 x7 : Word) : ((val [x0, x1, x2, x3, x4, x5, x6, x7] : ℕ) : ℤ) =
    (⟨x0, x1, x2, x3, x4⟩ : Words5).toNat + 2 ^ 320 * (x5.toNat + 2 ^ 64 * x6.toNat + 2 ^ 128 * x7.toNat) := by
  rw [Words5.toZ]
  simp only [val]
  push_cast
  ring

/-- The difference modulo 2^320 is the difference. -/
theorem diff_spec {X V lo hi R k d c : ℤ} (hX : X = lo + 2 ^ 320 * hi) (hk : R + 2 ^ 320 * k = V) (hd : d = lo - R + 2 ^ 320 * c)
    (h0 : 0 ≤ d) (h1 : d < 2 ^ 320) (g0 : 0 ≤ X - V) (g1 : X - V < 2 ^ 320) : d = X - V := by
  have e : d = X - V + 2 ^ 320 * (k - hi + c) := by linear_combination hd - hX - hk
  have c0 : k - hi + c = 0 := by
    have : k - hi + c < 1 := by linarith
    have : -1 < k - hi + c := by linarith
    omega
  rw [e, c0]
  ring

theorem reduce4_tail (fuel : Nat) (hf : 9 ≤ fuel) (m : U256) (hm : 0 < m.toNat) (d : Words5 × Word) (X V : ℤ)
    (hd : (d.1.toNat : ℤ) = X - V * m.toNat) (h8 : X - V * m.toNat < 8 * m.toNat) :
    ∃ z, reduceLoop m fuel (if d.2 ≠ 0 then reduceFix d.1 m else d.1) = .ok z ∧ (z.toNat : ℤ) = X % m.toNat := by
  have hml : (m.toNat : ℤ) < 2 ^ 256 := by exact_mod_cast toNat_lt m
  have hmod : X % m.toNat = (X - V * m.toNat) % m.toNat := by
    rw [Int.sub_mul_emod_self_right]
  rw [hmod]
  by_cases h : d.2 ≠ 0
  · rw [if_pos h]
    have hv := reduceFix_spec d.1 m (by linarith)
    obtain ⟨z, hz, hz2⟩ := reduceLoop_spec m hm 8 fuel (reduceFix d.1 m) (by omega) (by
      zify
      linarith)
    refine ⟨z, hz, ?_⟩
    rw [hz2]
    push_cast
    rw [hv, hd, Int.add_emod_right]
  · rw [if_neg h]
    obtain ⟨z, hz, hz2⟩ := reduceLoop_spec m hm 8 fuel d.1 (by omega) (by
      zify
      linarith)
    refine ⟨z, hz, ?_⟩
    rw [hz2]
    push_cast
    rw [hd]

theorem sub320_mod (x r : Words5) : ∃ c : ℤ, ((sub320 x r).1.toNat : ℤ) = x.toNat - r.toNat + 2 ^ 320 * c := by
  rcases sub320_spec x r with ⟨_, hv⟩ | ⟨_, hv⟩
  · exact ⟨0, by linear_combination hv⟩
  · exact ⟨1, by linear_combination hv⟩

theorem reduce4_spec (fuel : Nat) (hf : 9 ≤ fuel) (x0 x1 x2 x3 x4 x5 x6 x7 : Word) (m : U256) (mu : Words5) (hm : 2 ^ 192 ≤ m.toNat)
    (h1 : mu.toNat * m.toNat ≤ 2 ^ 512) (h2 : 2 ^ 512 < (mu.toNat + 3) * m.toNat) :
    ∃ z, reduce4 fuel [x0, x1, x2, x3, x4, x5, x6, x7] m mu = .ok z ∧
      z.toNat = val [x0, x1, x2, x3, x4, x5, x6, x7] % m.toNat := by
  obtain ⟨hV1, hV2⟩ := barrettQ_spec ⟨x3, x4, x5, x6, x7⟩ mu
  obtain ⟨k, hk⟩ := barrettR_spec (barrettQ ⟨x3, x4, x5, x6, x7⟩ mu) m
  have hmZ : (2 : ℤ) ^ 192 ≤ m.toNat := by exact_mod_cast hm
  have hml : (m.toNat : ℤ) < 2 ^ 256 := by exact_mod_cast toNat_lt m
  have hm0 : (0 : ℤ) < m.toNat := by linarith
  have hb := barrett_bound (lo := x0.toNat + 2 ^ 64 * x1.toNat + 2 ^ 128 * x2.toNat) (mu := mu.toNat) (m := m.toNat)
    (val_hi x0 x1 x2 x3 x4 x5 x6 x7)
    (by linarith [@wL x0, @wL x1, @wL x2]) (by linarith [@wU x0, @wU x1, @wU x2]) (Int.natCast_nonneg _)
    (Words5.lt _) (Int.natCast_nonneg _) (Words5.lt _) hm0
    (by exact_mod_cast h1) (by exact_mod_cast h2) (V := (barrettQ ⟨x3, x4, x5, x6, x7⟩ mu).toNat) (by linarith) (by linarith)
  obtain ⟨c, hc⟩ := sub320_mod ⟨x0, x1, x2, x3, x4⟩ (barrettR (barrettQ ⟨x3, x4, x5, x6, x7⟩ mu) m)
  have hk' : ((barrettR (barrettQ ⟨x3, x4, x5, x6, x7⟩ mu) m).toNat : ℤ) + 2 ^ 320 * k =
      (barrettQ ⟨x3, x4, x5, x6, x7⟩ mu).toNat * m.toNat := by linarith [hk]
  have hd := diff_spec (val_lo x0 x1 x2 x3 x4 x5 x6 x7) hk' hc (Int.natCast_nonneg _) (Words5.lt _) hb.1 (by linarith [hb.2])
  obtain ⟨z, hz, hz2⟩ := reduce4_tail fuel hf m (by exact_mod_cast hm0) _ _ _ hd hb.2
  exact ⟨z, hz, by exact_mod_cast hz2⟩

theorem umul_eight (x y : U256) : ∃ p0 p1 p2 p3 p4 p5 p6 p7, umul x y = [p0, p1, p2, p3, p4, p5, p6, p7] :=
  ⟨_, _, _, _, _, _, _, _, rfl⟩

theorem w3_ne_iff (m : U256) : m.w3 ≠ 0 ↔ 2 ^ 192 ≤ m.toNat := by
  have h0 := m.w0.isLt
  have h1 := m.w1.isLt
  have h2 := m.w2.isLt
  constructor
  · intro h
    have : m.w3.toNat ≠ 0 := fun h' => h (BitVec.eq_of_toNat_eq h')
    unfold U256.toNat
    omega
  · intro h h3
    rw [U256.toNat, h3, show (0 : Word).toNat = 0 from rfl] at h
    omega

theorem mulModSmall_spec (p0 p1 p2 p3 p4 p5 p6 p7 : Word) (m : U256) (hm : m.toNat ≠ 0) (hp : val [p0, p1, p2, p3, p4, p5, p6, p7] ≠ 0) :
    ∃ z, mulModSmall [p0, p1, p2, p3, p4, p5, p6, p7] m = .ok z ∧ z.toNat = val [p0, p1, p2, p3, p4, p5, p6, p7] % m.toNat := by
  unfold mulModSmall
  have hlen : [p0, p1, p2, p3, p4, p5, p6, p7].length = 8 := rfl
  by_cases hz : (ofWords ([p0, p1, p2, p3, p4, p5, p6, p7].drop 4)).isZero = true
  · rw [if_pos hz]
    obtain ⟨z, h1, h2⟩ := mod_spec (ofWords ([p0, p1, p2, p3, p4, p5, p6, p7].take 4)) m
    refine ⟨z, h1, ?_⟩
    rw [h2, if_neg hm]
    congr 1
    rw [isZero_iff, toNat_ofWords _ (by simp)] at hz
    rw [toNat_ofWords _ (by simp)]
    have := val_append [p0, p1, p2, p3] [p4, p5, p6, p7]
    simp only [List.drop, List.take] at hz ⊢
    rw [hz, Nat.mul_zero, Nat.add_zero] at this
    exact this.symm
  · rw [if_neg hz]
    have hsz : 5 ≤ sigLen [p0, p1, p2, p3, p4, p5, p6, p7] := by
      by_contra hs
      apply hz
      rw [isZero_iff, toNat_ofWords _ (by simp)]
      have h := val_take_sigLen [p0, p1, p2, p3, p4, p5, p6, p7]
      have hlt := val_lt ([p0, p1, p2, p3, p4, p5, p6, p7].take (sigLen [p0, p1, p2, p3, p4, p5, p6, p7]))
      rw [h] at hlt
      have hl : ([p0, p1, p2, p3, p4, p5, p6, p7].take (sigLen [p0, p1, p2, p3, p4, p5, p6, p7])).length ≤ 4 := by
        rw [List.length_take]
        omega
      have hlt2 : val [p0, p1, p2, p3, p4, p5, p6, p7] < 2 ^ 256 :=
        lt_of_lt_of_le hlt (Nat.pow_le_pow_right (by norm_num) (by omega))
      have hap := val_append [p0, p1, p2, p3] [p4, p5, p6, p7]
      simp only [List.drop]
      rw [show [p0, p1, p2, p3] ++ [p4, p5, p6, p7] = [p0, p1, p2, p3, p4, p5, p6, p7] from rfl] at hap
      rw [hap] at hlt2
      by_contra hne
      have : 2 ^ 256 * 1 ≤ 2 ^ (64 * [p0, p1, p2, p3].length) * val [p4, p5, p6, p7] :=
        Nat.mul_le_mul_left _ (Nat.one_le_iff_ne_zero.2 hne)
      omega
    have hd4 := limbs_take_le m
    have hd0 : sigLen m.limbs ≠ 0 := by
      intro h
      rw [sigLen_eq_zero, val_limbs] at h
      exact hm h
    have hs8 := sigLen_le [p0, p1, p2, p3, p4, p5, p6, p7]
    obtain ⟨quot, rem, e1, _, _, e4, e5⟩ := udivrem_spec [0, 0, 0, 0, 0, 0, 0, 0] [p0, p1, p2, p3, p4, p5, p6, p7] m hm hp
      (by omega) (by rw [hlen] at hs8; simp only [List.length_cons, List.length_nil]; omega)
    rw [e1, Except_bind_ok]
    refine ⟨rem, rfl, ?_⟩
    rw [e4, Nat.mul_comm, Nat.mul_add_mod, Nat.mod_eq_of_lt e5]

/-- `MulModWithReciprocal` with a reciprocal that is at most two units too small. -/
theorem mulModWithReciprocal_spec (fuel : Nat) (hf : 9 ≤ fuel) (x y m : U256) (mu : Words5)
    (h : 2 ^ 192 ≤ m.toNat → mu.toNat * m.toNat ≤ 2 ^ 512 ∧ 2 ^ 512 < (mu.toNat + 3) * m.toNat) :
    ∃ z, mulModWithReciprocal fuel x y m mu = .ok z ∧
      z.toNat = if m.toNat = 0 then 0 else x.toNat * y.toNat % m.toNat := by
  unfold mulModWithReciprocal
  by_cases hz : (x.isZero || y.isZero || m.isZero) = true
  · rw [if_pos hz]
    refine ⟨zero, rfl, ?_⟩
    rw [toNat_zero]
    rw [Bool.or_eq_true, Bool.or_eq_true, isZero_iff, isZero_iff, isZero_iff] at hz
    rcases hz with (h0 | h0) | h0 <;> simp [h0]
  · rw [if_neg hz]
    rw [Bool.or_eq_true, Bool.or_eq_true, isZero_iff, isZero_iff, isZero_iff, not_or, not_or] at hz
    obtain ⟨⟨hx, hy⟩, hm⟩ := hz
    rw [if_neg hm]
    have hv := val_umul x y
    obtain ⟨p0, p1, p2, p3, p4, p5, p6, p7, hp⟩ := umul_eight x y
    rw [hp] at hv ⊢
    rw [← hv]
    by_cases hw : m.w3 ≠ 0
    · rw [if_pos hw]
      rw [w3_ne_iff] at hw
      exact reduce4_spec fuel hf _ _ _ _ _ _ _ _ m mu hw (h hw).1 (h hw).2
    · rw [if_neg hw]
      exact mulModSmall_spec _ _ _ _ _ _ _ _ m hm (by rw [hv]; exact Nat.mul_ne_zero hx hy)

theorem reciprocal_ok (m : U256) : ∃ mu, reciprocal m = .ok mu ∧
    (m.toNat < 2 ^ 192 → mu.toNat = 0) ∧
    (2 ^ 192 ≤ m.toNat → mu.toNat * m.toNat ≤ 2 ^ 512 ∧ 2 ^ 512 < (mu.toNat + 3) * m.toNat) := by
  by_cases hm : 2 ^ 192 ≤ m.toNat
  · obtain ⟨mu, h1, h2⟩ := reciprocal_spec m hm
    exact ⟨mu, h1, fun h => by omega, fun _ => h2⟩
  · refine ⟨⟨0, 0, 0, 0, 0⟩, ?_, fun _ => rfl, fun h => absurd h hm⟩
    unfold reciprocal
    rw [if_pos (by by_contra hc; exact hm ((w3_ne_iff m).1 hc))]

theorem mulMod_spec (fuel : Nat) (hf : 9 ≤ fuel) (x y m : U256) :
    ∃ z, mulMod fuel x y m = .ok z ∧ z.toNat = if m.toNat = 0 then 0 else x.toNat * y.toNat % m.toNat := by
  obtain ⟨mu, e, _, h⟩ := reciprocal_ok m
  have := mulModWithReciprocal_spec fuel hf x y m mu h
  unfold mulModWithReciprocal at this
  unfold mulMod
  rw [e]
  exact this

end Uni.U256
