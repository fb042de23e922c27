import Verif.Proofs.FullMath
/-! # C12, C13: `MulDiv` and `MulDivRoundingUp` -/
namespace Uni
namespace Props
open U256 FullMath

/-- C12: whatever `MulDiv` / `MulDivRoundingUp` return is floor / ceiling of `a*b/d`, reduced modulo 2^256
(so the low 256 bits when it does not fit).  A zero denominator only returns for a zero product. -/
theorem C12_muldiv_exact (a b d r : U256) :
    (mulDiv a b d = .ok r → (d.toNat ≠ 0 ∨ a.toNat * b.toNat = 0) ∧ r.toNat = (a.toNat * b.toNat / d.toNat) % 2 ^ 256) ∧
    (mulDivRoundingUp a b d = .ok r →
      (d.toNat ≠ 0 ∨ a.toNat * b.toNat = 0) ∧ r.toNat = Spec.ceilDiv (a.toNat * b.toNat) d.toNat % 2 ^ 256) := by
  constructor
  · rw [mulDiv_ok_iff]
    rintro ⟨h, rfl⟩
    refine ⟨?_, toNat_ofNat _⟩
    rcases h with h | h
    · exact Or.inr h
    · unfold Panics at h; push Not at h; exact Or.inl h.1
  · rw [mulDivRoundingUp_ok_iff]
    rintro ⟨h, rfl⟩
    refine ⟨?_, toNat_ofNat _⟩
    rcases h with h | h
    · exact Or.inr h
    · unfold Panics at h; push Not at h; exact Or.inl h.1

/-- C12, the case a caller relies on: when the quotient fits, a returned result is the exact floor, and the
ceiling is the least `k` with `a*b ≤ k*d`. -/
theorem C12_muldiv_fits (a b d r : U256) (hd : d.toNat ≠ 0) :
    (mulDiv a b d = .ok r → a.toNat * b.toNat / d.toNat < 2 ^ 256 →
      r.toNat * d.toNat ≤ a.toNat * b.toNat ∧ a.toNat * b.toNat < (r.toNat + 1) * d.toNat) ∧
    (mulDivRoundingUp a b d = .ok r → Spec.ceilDiv (a.toNat * b.toNat) d.toNat < 2 ^ 256 →
      a.toNat * b.toNat ≤ r.toNat * d.toNat ∧ ∀ k, a.toNat * b.toNat ≤ k * d.toNat → r.toNat ≤ k) := by
  constructor
  · intro h hlt
    have := ((C12_muldiv_exact a b d r).1 h).2
    rw [Nat.mod_eq_of_lt hlt] at this
    rw [this]
    have h1 := Nat.div_add_mod (a.toNat * b.toNat) d.toNat
    have h2 := Nat.mod_lt (a.toNat * b.toNat) (Nat.pos_of_ne_zero hd)
    rw [Nat.add_mul, Nat.one_mul, Nat.mul_comm (a.toNat * b.toNat / d.toNat)]
    omega
  · intro h hlt
    have := ((C12_muldiv_exact a b d r).2 h).2
    rw [Nat.mod_eq_of_lt hlt] at this
    rw [this]
    exact ⟨le_ceilDiv_mul (Nat.pos_of_ne_zero hd), fun k hk => (ceilDiv_le_iff (Nat.pos_of_ne_zero hd)).2 hk⟩

-- the hypotheses are met: a full 512-bit intermediate
example : mulDiv allOne allOne (sub allOne one) = .ok (ofNat ((2 ^ 256 - 1) * (2 ^ 256 - 1) / (2 ^ 256 - 2))) := by
  decide +kernel
example : mulDivRoundingUp (ofNat 10) (ofNat 10) (ofNat 3) = .ok (ofNat 34) := by decide +kernel
-- silent truncation
example : mulDiv (ofNat (2 ^ 255 + 1)) (ofNat 6) one = .ok (ofNat 6) := by decide +kernel

/-- C13: the exact set of inputs on which the two functions panic. -/
theorem C13_panic_set (a b d : U256) (e : Err) :
    (mulDiv a b d = .error e ↔ e = .panic ∧ a.toNat * b.toNat ≠ 0 ∧
      (d.toNat = 0 ∨ Spec.words (a.toNat * b.toNat) + 2 ≤ Spec.words d.toNat ∨
        Spec.words d.toNat + 5 ≤ Spec.words (a.toNat * b.toNat))) ∧
    (mulDivRoundingUp a b d = .error e ↔ e = .panic ∧ a.toNat * b.toNat ≠ 0 ∧
      (d.toNat = 0 ∨ Spec.words (a.toNat * b.toNat) + 2 ≤ Spec.words d.toNat ∨
        Spec.words d.toNat + 5 ≤ Spec.words (a.toNat * b.toNat))) :=
  ⟨mulDiv_err_iff a b d e, mulDivRoundingUp_err_iff a b d e⟩

/-- `Spec.words` is the number of 64-bit words. -/
theorem words_char (n : Nat) (hn : n ≠ 0) :
    2 ^ (64 * (Spec.words n - 1)) ≤ n ∧ n < 2 ^ (64 * Spec.words n) := ⟨words_ge hn, lt_words n⟩

/-- C13: the documented expectation is false: the quotient 0 is representable, the denominator is not zero,
and yet the call panics. -/
theorem C13_expectation_false :
    ¬ ∀ a b d : U256, d.toNat ≠ 0 → a.toNat * b.toNat / d.toNat < 2 ^ 256 → ∃ r, mulDiv a b d = .ok r := by
  intro h
  obtain ⟨r, hr⟩ := h one one Cons.q128 (by decide +kernel) (by decide +kernel)
  have : mulDiv one one Cons.q128 = .error .panic := by decide +kernel
  rw [this] at hr
  cases hr

/-- C13: a fitting quotient with denominator at most 2^64 times the product never panics. -/
theorem C13_no_panic (a b d : U256) (hd : d.toNat ≠ 0) (h1 : d.toNat ≤ a.toNat * b.toNat * 2 ^ 64)
    (h2 : a.toNat * b.toNat / d.toNat < 2 ^ 256) :
    (∃ r, mulDiv a b d = .ok r) ∧ ∃ r, mulDivRoundingUp a b d = .ok r := by
  have hp : a.toNat * b.toNat ≠ 0 := by
    intro h; rw [h] at h1; omega
  exact ⟨⟨_, (mulDiv_ok_iff ..).2 ⟨Or.inr (not_panics hp hd h1 h2), rfl⟩⟩,
    ⟨_, (mulDivRoundingUp_ok_iff ..).2 ⟨Or.inr (not_panics hp hd h1 h2), rfl⟩⟩⟩

example : ∃ a b d : U256, d.toNat ≠ 0 ∧ d.toNat ≤ a.toNat * b.toNat * 2 ^ 64 ∧ a.toNat * b.toNat / d.toNat < 2 ^ 256 :=
  ⟨ofNat 7, ofNat 5, ofNat 3, by decide +kernel⟩

end Props
end Uni
