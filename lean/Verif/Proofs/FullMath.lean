import Verif.Model.FullMath
import Verif.Spec.Arith
import Verif.Proofs.Arith
/-! `MulDiv` and `MulDivRoundingUp`: exact results and exact panic set. -/
namespace Uni
namespace U256

theorem words_bounds {n w : Nat} (_ : w ≠ 0) (h1 : 2 ^ (64 * (w - 1)) ≤ n) (h2 : n < 2 ^ (64 * w)) : Spec.words n = w := by
  have hn : n ≠ 0 := by have : 0 < 2 ^ (64 * (w - 1)) := by positivity
                        omega
  unfold Spec.words
  rw [if_neg hn]
  have l1 : 64 * (w - 1) ≤ Nat.log2 n := (Nat.le_log2 hn).2 h1
  have l2 : Nat.log2 n < 64 * w := (Nat.log2_lt hn).2 h2
  omega

theorem words_sigLen (u : List Word) : Spec.words (val u) = sigLen u := by
  by_cases h : sigLen u = 0
  · rw [h, (sigLen_eq_zero u).1 h]; rfl
  · obtain ⟨h1, h2⟩ := sigLen_bounds u h
    exact words_bounds h h1 h2

theorem knuthStep_panic_or_ok (w d : List Word) (dh dl v : Word) (e : Err) (h : knuthStep w d dh dl v = .error e) :
    e = .panic := by
  have idxp : ∀ (xs : List Word) (i : Int) (e : Err), idx xs i = .error e → e = .panic := by
    intro xs i e h
    unfold idx at h
    by_cases h0 : 0 ≤ i
    · rw [if_pos h0] at h
      cases hx : xs[i.toNat]? with
      | none => rw [hx] at h; cases h; rfl
      | some a => rw [hx] at h; cases h
    · rw [if_neg h0] at h; cases h; rfl
  have setp : ∀ (xs : List Word) (i : Int) (a : Word) (e : Err), setIdx xs i a = .error e → e = .panic := by
    intro xs i a e h
    unfold setIdx at h
    split at h
    · cases h
    · cases h; rfl
  unfold knuthStep at h
  dsimp only at h
  rcases h1 : idx w (d.length : Nat) with e1 | u2
  · rw [h1] at h; cases h; exact idxp _ _ _ h1
  rw [h1] at h; simp only [Except_bind_ok] at h
  rcases h2 : idx w ((d.length : Int) - 1) with e1 | u1
  · rw [h2] at h; cases h; exact idxp _ _ _ h2
  rw [h2] at h; simp only [Except_bind_ok] at h
  rcases h3 : idx w ((d.length : Int) - 2) with e1 | u0
  · rw [h3] at h; cases h; exact idxp _ _ _ h3
  rw [h3] at h; simp only [Except_bind_ok] at h
  generalize qhatEstimate u2 u1 u0 dh dl v = qh at h
  generalize subMulTo w d qh 0 = sm at h
  rcases h4 : setIdx sm.1 (d.length : Nat) (u2 - sm.2) with e1 | w1
  · rw [h4] at h; cases h; exact setp _ _ _ _ h4
  rw [h4] at h; simp only [Except_bind_ok] at h
  split at h
  · generalize addTo w1 d 0 = ad at h
    rcases h5 : idx ad.1 (d.length : Nat) with e1 | t
    · rw [h5] at h; cases h; exact idxp _ _ _ h5
    rw [h5] at h; simp only [Except_bind_ok] at h
    rcases h6 : setIdx ad.1 (d.length : Nat) (t + ad.2) with e1 | w2
    · rw [h6] at h; cases h; exact setp _ _ _ _ h6
    rw [h6] at h; cases h
  · cases h

theorem knuthLoop_panic (d : List Word) (dh dl v : Word) (J : Nat) (quot u : List Word) (hJ : quot.length ≤ J) :
    knuthLoop d dh dl v (J + 1) quot u = .error .panic := by
  unfold knuthLoop
  rcases h : knuthStep (u.drop J) d dh dl v with e | r
  · rw [knuthStep_panic_or_ok _ _ _ _ _ _ h]; rfl
  · simp only [Except_bind_ok]
    rw [setIdx_nat_panic _ _ _ hJ]; rfl

theorem remWords_panic (un : List Word) (s n : Nat) (hn : un.length < n) (k : Nat) : 0 < k → k ≤ n →
    remWords un s n k = .error .panic := by
  induction k with
  | zero => intro h; omega
  | succ k ih =>
    intro _ hk
    unfold remWords
    dsimp only
    by_cases hi : n - (k + 1) < un.length
    · rw [idx_nat _ _ hi]
      simp only [Except_bind_ok]
      rw [if_neg (by omega)]
      rw [show ((n - (k + 1) : Nat) : Int) + 1 = ((n - k : Nat) : Int) by omega]
      by_cases hi2 : n - k < un.length
      · rw [idx_nat _ _ hi2]
        simp only [Except_bind_ok]
        rw [ih (by omega) (by omega)]; rfl
      · rw [idx_nat_panic _ _ (by omega)]; rfl
    · rw [idx_nat_panic _ _ (by omega)]; rfl

/-- The remaining panics of `Udivrem`: divisor at least two words longer than the dividend, or quotient
buffer too short. -/
theorem udivrem_panic (quot u : List Word) (d : U256) (hd : d.toNat ≠ 0) (hu : val u ≠ 0)
    (h : sigLen u + 2 ≤ sigLen d.limbs ∨ quot.length + sigLen d.limbs < sigLen u + 1) :
    udivrem quot u d = .error .panic := by
  have hdl : sigLen d.limbs ≠ 0 := by
    intro h; rw [sigLen_eq_zero, val_limbs] at h; exact hd h
  have hul : sigLen u ≠ 0 := by
    intro h; rw [sigLen_eq_zero] at h; exact hu h
  obtain ⟨lo, w, s, e, hl, hs, hidx, hs64, hvd, lo', w', e', hl', hw'⟩ := dn_spec d.limbs hdl
  obtain ⟨ulo, uw, ue, huw, hulen⟩ := sigLen_top u hul
  have hul4 := sigLen_le u
  have huidx : idx u ((sigLen u : Int) - 1) = .ok uw := by
    rw [show (sigLen u : Int) - 1 = ((sigLen u - 1 : Nat) : Int) by omega, idx_nat _ _ (by omega)]
    congr 1
    have h1 : (u.take (sigLen u))[sigLen u - 1]? = some uw := by
      rw [ue, ← hulen]; simp
    rw [List.getElem?_take_of_lt (by omega), List.getElem?_eq_getElem (by omega)] at h1
    exact Option.some.inj h1
  have hulen' : (shlWords s 0 (u.take (sigLen u))).length = sigLen u := by
    rw [length_shlWords, List.length_take, Nat.min_eq_left hul4]
  obtain ⟨v, hv0, hv1, hv2⟩ := reciprocal2by1_spec hw'
  unfold udivrem
  dsimp only
  rw [if_neg hdl, hidx]
  simp only [Except_bind_ok]
  rw [if_neg hul, huidx, ← hs]
  simp only [Except_bind_ok]
  rw [e']
  generalize hun : shlWords s 0 (u.take (sigLen u)) = un0 at *
  generalize uw >>> (64 - s) = tw at *
  by_cases h1d : sigLen d.limbs = 1
  · rw [if_pos h1d]
    have hlo0 : lo' = [] := by
      apply List.length_eq_zero_iff.1; omega
    subst hlo0
    have i0 : idx ([] ++ [w']) 0 = .ok w' := rfl
    rw [i0]
    simp only [Except_bind_ok]
    unfold udivremBy1
    rw [hv0]
    simp only [Except_bind_ok]
    have it : idx (un0 ++ [tw]) (((un0 ++ [tw]).length : Int) - 1) = .ok tw := by
      rw [show (((un0 ++ [tw]).length : Int) - 1) = ((un0.length : Nat) : Int) by simp]
      rw [idx_nat _ _ (by simp)]
      simp
    rw [it]
    simp only [Except_bind_ok]
    have hlen1 : (un0 ++ [tw]).length - 1 = (sigLen u - 1) + 1 := by simp [hulen']; omega
    rw [hlen1, udivremBy1Loop_panic _ _ _ _ _ _ (by simp [hulen']) (by omega)]
    rfl
  · rw [if_neg h1d]
    have hlo' : lo' ≠ [] := by
      intro h; rw [h] at hl'; simp at hl'; omega
    obtain ⟨dlo, dl, hdlo⟩ := list_split_last lo' hlo'
    have hdn : lo' ++ [w'] = dlo ++ [dl, w'] := by rw [hdlo]; simp
    rw [hdn]
    have hdlen : (dlo ++ [dl, w']).length = sigLen d.limbs := by rw [← hdn, ← hl]; simp [hl']
    have hdlen2 : dlo.length + 2 = sigLen d.limbs := by rw [← hdlen]; simp
    unfold udivremKnuth
    have ih : idx (dlo ++ [dl, w']) (((dlo ++ [dl, w']).length : Int) - 1) = .ok w' := by
      rw [hdlen, ← hdlen2, show ((dlo.length + 2 : Nat) : Int) - 1 = ((dlo.length + 1 : Nat) : Int) by omega]
      rw [idx_nat _ _ (by simp)]
      simp
    have il : idx (dlo ++ [dl, w']) (((dlo ++ [dl, w']).length : Int) - 2) = .ok dl := by
      rw [hdlen, ← hdlen2, show ((dlo.length + 2 : Nat) : Int) - 2 = ((dlo.length : Nat) : Int) by omega]
      rw [idx_nat _ _ (by simp)]
      simp
    rw [ih, il]
    simp only [Except_bind_ok]
    rw [hv0]
    simp only [Except_bind_ok]
    have hunlen : (un0 ++ [tw]).length = sigLen u + 1 := by simp [hulen']
    rw [hunlen, hdlen]
    rcases h with h | h
    · have hJ : sigLen u + 1 - sigLen d.limbs = 0 := by omega
      rw [hJ]
      simp only [knuthLoop, Except_bind_ok]
      rw [remWords_panic _ _ _ (by rw [hunlen]; omega) _ (by omega) (le_refl _)]
      rfl
    · have hJ : sigLen u + 1 - sigLen d.limbs = (sigLen u - sigLen d.limbs) + 1 := by omega
      rw [hJ, knuthLoop_panic _ _ _ _ _ _ _ (by omega)]
      rfl

end U256

namespace FullMath
open U256

/-- Condition under which `MulDiv` panics for a non-zero product. -/
def Panics (p d : Nat) : Prop := d = 0 ∨ Spec.words p + 2 ≤ Spec.words d ∨ Spec.words d + 5 ≤ Spec.words p

instance (p d : Nat) : Decidable (Panics p d) := by unfold Panics; infer_instance

theorem udivrem_umul (a b d : U256) (ha : a.toNat ≠ 0) (hb : b.toNat ≠ 0) (hp : ¬ Panics (a.toNat * b.toNat) d.toNat) :
    ∃ q r, udivrem [0, 0, 0, 0, 0] (umul a b) d = .ok (q, r) ∧ q.length = 5 ∧
      val q = a.toNat * b.toNat / d.toNat ∧ r.toNat = a.toNat * b.toNat % d.toNat := by
  have hab : a.toNat * b.toNat ≠ 0 := Nat.mul_ne_zero ha hb
  unfold Panics at hp
  push Not at hp
  obtain ⟨h1, h2, h3⟩ := hp
  rw [← val_umul, words_sigLen, ← val_limbs, words_sigLen] at h2 h3
  obtain ⟨q, r, hr, hl, hdq, hv, hlt⟩ := udivrem_spec [0, 0, 0, 0, 0] (umul a b) d h1 (by rw [val_umul]; exact hab)
    (by omega) (by simp; omega)
  rw [← val_quot_zeros q _ 5 hdq, val_umul] at hv
  refine ⟨q, r, hr, by simpa using hl, ?_, ?_⟩
  · rw [hv, Nat.mul_comm, Nat.mul_add_div (by omega), Nat.div_eq_of_lt hlt, Nat.add_zero]
  · rw [hv, Nat.mul_comm, Nat.mul_add_mod, Nat.mod_eq_of_lt hlt]

theorem udivrem_umul_panic (a b d : U256) (ha : a.toNat ≠ 0) (hb : b.toNat ≠ 0) (hp : Panics (a.toNat * b.toNat) d.toNat) :
    udivrem [0, 0, 0, 0, 0] (umul a b) d = .error .panic := by
  have hab : a.toNat * b.toNat ≠ 0 := Nat.mul_ne_zero ha hb
  by_cases hd : d.toNat = 0
  · exact udivrem_zero _ _ _ (Or.inl hd)
  · apply udivrem_panic _ _ _ hd (by rw [val_umul]; exact hab)
    unfold Panics at hp
    rw [← val_umul, words_sigLen, ← val_limbs, words_sigLen] at hp
    rcases hp with h | h | h
    · rw [val_limbs] at h; exact absurd h hd
    · left; omega
    · right; simp; omega

theorem toNat_take4 (q : List Word) (h : q.length = 5) : (ofWords (q.take 4)).toNat = val q % 2 ^ 256 := by
  rw [toNat_ofWords _ (by simp)]
  have h1 : val q = val (q.take 4 ++ q.drop 4) := by rw [List.take_append_drop]
  rw [h1, val_append, List.length_take, h]
  have := val_lt (q.take 4)
  rw [List.length_take, h] at this
  have h4 : min 4 5 = 4 := rfl
  rw [h4] at this ⊢
  omega

/-- Exact behaviour of `MulDiv`. -/
theorem mulDiv_eq (a b d : U256) : mulDiv a b d =
    if a.toNat = 0 ∨ b.toNat = 0 then .ok zero
    else if Panics (a.toNat * b.toNat) d.toNat then .error .panic
    else .ok (ofNat (a.toNat * b.toNat / d.toNat)) := by
  unfold mulDiv
  by_cases h : a.toNat = 0 ∨ b.toNat = 0
  · rw [if_pos h, if_pos (by rw [Bool.or_eq_true, isZero_iff, isZero_iff]; exact h)]; rfl
  · rw [if_neg h, if_neg (by rw [Bool.or_eq_true, isZero_iff, isZero_iff]; exact h)]
    push Not at h
    by_cases hp : Panics (a.toNat * b.toNat) d.toNat
    · rw [if_pos hp, udivrem_umul_panic a b d h.1 h.2 hp]; rfl
    · rw [if_neg hp]
      obtain ⟨q, r, hr, hl, hq, _⟩ := udivrem_umul a b d h.1 h.2 hp
      rw [hr]
      show Except.ok _ = _
      congr 1
      apply ext_toNat
      rw [toNat_take4 q hl, toNat_ofNat, hq]

/-- Exact behaviour of `MulDivRoundingUp`. -/
theorem mulDivRoundingUp_eq (a b d : U256) : mulDivRoundingUp a b d =
    if a.toNat = 0 ∨ b.toNat = 0 then .ok zero
    else if Panics (a.toNat * b.toNat) d.toNat then .error .panic
    else .ok (ofNat (Spec.ceilDiv (a.toNat * b.toNat) d.toNat)) := by
  unfold mulDivRoundingUp
  by_cases h : a.toNat = 0 ∨ b.toNat = 0
  · rw [if_pos h, if_pos (by rw [Bool.or_eq_true, isZero_iff, isZero_iff]; exact h)]; rfl
  · rw [if_neg h, if_neg (by rw [Bool.or_eq_true, isZero_iff, isZero_iff]; exact h)]
    push Not at h
    by_cases hp : Panics (a.toNat * b.toNat) d.toNat
    · rw [if_pos hp, udivrem_umul_panic a b d h.1 h.2 hp]; rfl
    · rw [if_neg hp]
      obtain ⟨q, r, hr, hl, hq, hrv⟩ := udivrem_umul a b d h.1 h.2 hp
      rw [hr]
      have hd : 0 < d.toNat := by
        unfold Panics at hp; push Not at hp; omega
      show Except.ok _ = _
      congr 1
      apply ext_toNat
      rw [toNat_ofNat]
      unfold Spec.ceilDiv
      generalize a.toNat * b.toNat = p at *
      have hdm := Nat.div_add_mod p d.toNat
      have hml := Nat.mod_lt p hd
      by_cases hz : r.toNat = 0
      · have : r.isZero = true := (isZero_iff r).2 hz
        rw [this]
        simp only [Bool.not_true, Bool.false_eq_true, if_false]
        rw [toNat_take4 q hl, hq]
        congr 1
        rw [hrv] at hz
        rw [hz, Nat.add_zero] at hdm
        conv_rhs => rw [← hdm]
        rw [show d.toNat * (p / d.toNat) + d.toNat - 1 = d.toNat * (p / d.toNat) + (d.toNat - 1) by omega,
          Nat.mul_add_div hd, Nat.div_eq_of_lt (show d.toNat - 1 < d.toNat by omega), Nat.add_zero]
      · have : r.isZero = false := by
          rw [← Bool.not_eq_true, isZero_iff]; exact hz
        rw [this]
        simp only [Bool.not_false, if_true]
        rw [toNat_add, toNat_take4 q hl, hq, toNat_one]
        have : (p + d.toNat - 1) / d.toNat = p / d.toNat + 1 := by
          rw [hrv] at hz
          conv_lhs => rw [← hdm]
          rw [show d.toNat * (p / d.toNat) + p % d.toNat + d.toNat - 1 =
            d.toNat * (p / d.toNat + 1) + (p % d.toNat - 1) by rw [Nat.mul_add, Nat.mul_one]; omega,
            Nat.mul_add_div hd, Nat.div_eq_of_lt (show p % d.toNat - 1 < d.toNat by omega), Nat.add_zero]
        rw [this, Nat.mod_add_mod]

end FullMath
end Uni

namespace Uni
namespace FullMath
open U256

theorem words_le {n k : Nat} (h : n < 2 ^ (64 * k)) : Spec.words n ≤ k := by
  unfold Spec.words
  by_cases hn : n = 0
  · rw [if_pos hn]; omega
  · rw [if_neg hn]
    have := (Nat.log2_lt hn).2 h
    omega

theorem lt_words (n : Nat) : n < 2 ^ (64 * Spec.words n) := by
  unfold Spec.words
  by_cases hn : n = 0
  · rw [if_pos hn, hn]; norm_num
  · rw [if_neg hn]
    exact (Nat.log2_lt hn).1 (by omega)

theorem words_ge {n : Nat} (hn : n ≠ 0) : 2 ^ (64 * (Spec.words n - 1)) ≤ n := by
  unfold Spec.words
  rw [if_neg hn]
  exact (Nat.le_log2 hn).1 (by omega)

/-- Practical no-panic condition. -/
theorem not_panics {p d : Nat} (hp : p ≠ 0) (hd : d ≠ 0) (h1 : d ≤ p * 2 ^ 64) (h2 : p / d < 2 ^ 256) : ¬ Panics p d := by
  unfold Panics
  push Not
  refine ⟨hd, ?_, ?_⟩
  · by_contra hc
    push Not at hc
    have a := words_ge hd
    have b := lt_words p
    have : 2 ^ (64 * (Spec.words p + 1)) ≤ 2 ^ (64 * (Spec.words d - 1)) := Nat.pow_le_pow_right (by norm_num) (by omega)
    rw [show 64 * (Spec.words p + 1) = 64 * Spec.words p + 64 by ring, pow_add] at this
    have := Nat.mul_lt_mul_of_pos_right b (show 0 < 2 ^ 64 by norm_num)
    omega
  · by_contra hc
    push Not at hc
    have a := words_ge hp
    have b := lt_words d
    have : 2 ^ (64 * (Spec.words d + 4)) ≤ 2 ^ (64 * (Spec.words p - 1)) := Nat.pow_le_pow_right (by norm_num) (by omega)
    rw [show 64 * (Spec.words d + 4) = 64 * Spec.words d + 256 by ring, pow_add] at this
    have c : p < d * 2 ^ 256 := by
      have := (Nat.div_lt_iff_lt_mul (by omega)).1 h2
      rw [Nat.mul_comm]; exact this
    have := Nat.mul_lt_mul_of_pos_right b (show 0 < 2 ^ 256 by norm_num)
    omega

theorem ceilDiv_zero (d : Nat) : Spec.ceilDiv 0 d = 0 := by
  unfold Spec.ceilDiv
  rcases Nat.eq_zero_or_pos d with h | h
  · subst h; simp
  · rw [Nat.zero_add]; exact Nat.div_eq_of_lt (by omega)

theorem mulDiv_ok_iff (a b d : U256) (r : U256) : mulDiv a b d = .ok r ↔
    (a.toNat * b.toNat = 0 ∨ ¬ Panics (a.toNat * b.toNat) d.toNat) ∧ r = ofNat (a.toNat * b.toNat / d.toNat) := by
  rw [mulDiv_eq]
  by_cases h : a.toNat = 0 ∨ b.toNat = 0
  · rw [if_pos h]
    have h0 : a.toNat * b.toNat = 0 := Nat.mul_eq_zero.2 h
    rw [h0, Nat.zero_div]
    have : ofNat 0 = zero := by decide
    rw [this]
    constructor
    · intro h; cases h; exact ⟨Or.inl rfl, rfl⟩
    · rintro ⟨_, rfl⟩; rfl
  · rw [if_neg h]
    have h0 : a.toNat * b.toNat ≠ 0 := fun h' => h (Nat.mul_eq_zero.1 h')
    by_cases hp : Panics (a.toNat * b.toNat) d.toNat
    · rw [if_pos hp]
      constructor
      · intro h; cases h
      · rintro ⟨h1 | h1, _⟩
        · exact absurd h1 h0
        · exact absurd hp h1
    · rw [if_neg hp]
      constructor
      · intro h; cases h; exact ⟨Or.inr hp, rfl⟩
      · rintro ⟨_, rfl⟩; rfl

theorem mulDivRoundingUp_ok_iff (a b d : U256) (r : U256) : mulDivRoundingUp a b d = .ok r ↔
    (a.toNat * b.toNat = 0 ∨ ¬ Panics (a.toNat * b.toNat) d.toNat) ∧
      r = ofNat (Spec.ceilDiv (a.toNat * b.toNat) d.toNat) := by
  rw [mulDivRoundingUp_eq]
  by_cases h : a.toNat = 0 ∨ b.toNat = 0
  · rw [if_pos h]
    have h0 : a.toNat * b.toNat = 0 := Nat.mul_eq_zero.2 h
    rw [h0, ceilDiv_zero]
    have : ofNat 0 = zero := by decide
    rw [this]
    constructor
    · intro h; cases h; exact ⟨Or.inl rfl, rfl⟩
    · rintro ⟨_, rfl⟩; rfl
  · rw [if_neg h]
    have h0 : a.toNat * b.toNat ≠ 0 := fun h' => h (Nat.mul_eq_zero.1 h')
    by_cases hp : Panics (a.toNat * b.toNat) d.toNat
    · rw [if_pos hp]
      constructor
      · intro h; cases h
      · rintro ⟨h1 | h1, _⟩
        · exact absurd h1 h0
        · exact absurd hp h1
    · rw [if_neg hp]
      constructor
      · intro h; cases h; exact ⟨Or.inr hp, rfl⟩
      · rintro ⟨_, rfl⟩; rfl

theorem mulDiv_err_iff (a b d : U256) (e : Err) : mulDiv a b d = .error e ↔
    e = .panic ∧ a.toNat * b.toNat ≠ 0 ∧ Panics (a.toNat * b.toNat) d.toNat := by
  rw [mulDiv_eq]
  by_cases h : a.toNat = 0 ∨ b.toNat = 0
  · rw [if_pos h]
    have h0 : a.toNat * b.toNat = 0 := Nat.mul_eq_zero.2 h
    constructor
    · intro h; cases h
    · rintro ⟨_, h1, _⟩; exact absurd h0 h1
  · rw [if_neg h]
    have h0 : a.toNat * b.toNat ≠ 0 := fun h' => h (Nat.mul_eq_zero.1 h')
    by_cases hp : Panics (a.toNat * b.toNat) d.toNat
    · rw [if_pos hp]
      constructor
      · intro h; cases h; exact ⟨rfl, h0, hp⟩
      · rintro ⟨rfl, _⟩; rfl
    · rw [if_neg hp]
      constructor
      · intro h; cases h
      · rintro ⟨_, _, h1⟩; exact absurd h1 hp

theorem mulDivRoundingUp_err_iff (a b d : U256) (e : Err) : mulDivRoundingUp a b d = .error e ↔
    e = .panic ∧ a.toNat * b.toNat ≠ 0 ∧ Panics (a.toNat * b.toNat) d.toNat := by
  rw [mulDivRoundingUp_eq]
  by_cases h : a.toNat = 0 ∨ b.toNat = 0
  · rw [if_pos h]
    have h0 : a.toNat * b.toNat = 0 := Nat.mul_eq_zero.2 h
    constructor
    · intro h; cases h
    · rintro ⟨_, h1, _⟩; exact absurd h0 h1
  · rw [if_neg h]
    have h0 : a.toNat * b.toNat ≠ 0 := fun h' => h (Nat.mul_eq_zero.1 h')
    by_cases hp : Panics (a.toNat * b.toNat) d.toNat
    · rw [if_pos hp]
      constructor
      · intro h; cases h; exact ⟨rfl, h0, hp⟩
      · rintro ⟨rfl, _⟩; rfl
    · rw [if_neg hp]
      constructor
      · intro h; cases h
      · rintro ⟨_, _, h1⟩; exact absurd h1 hp

theorem ceilDiv_le_iff {n d k : Nat} (hd : 0 < d) : Spec.ceilDiv n d ≤ k ↔ n ≤ k * d := by
  unfold Spec.ceilDiv
  rw [← Nat.lt_succ_iff, Nat.div_lt_iff_lt_mul hd, Nat.succ_mul]
  omega

theorem lt_ceilDiv_iff {n d k : Nat} (hd : 0 < d) : k < Spec.ceilDiv n d ↔ k * d < n := by
  rw [← not_le, ceilDiv_le_iff hd, not_le]

theorem le_ceilDiv_mul {n d : Nat} (hd : 0 < d) : n ≤ Spec.ceilDiv n d * d := (ceilDiv_le_iff hd).1 (le_refl _)

theorem div_le_ceilDiv (n d : Nat) : n / d ≤ Spec.ceilDiv n d := by
  rcases Nat.eq_zero_or_pos d with h | h
  · subst h; simp
  · unfold Spec.ceilDiv; exact Nat.div_le_div_right (by omega)

theorem ceilDiv_le_div_succ (n d : Nat) : Spec.ceilDiv n d ≤ n / d + 1 := by
  rcases Nat.eq_zero_or_pos d with h | h
  · subst h; unfold Spec.ceilDiv; simp
  · rw [ceilDiv_le_iff h, Nat.add_mul, Nat.one_mul]
    have h1 := Nat.div_add_mod n d
    have h2 := Nat.mod_lt n h
    rw [Nat.mul_comm] at h1
    omega

end FullMath
end Uni
