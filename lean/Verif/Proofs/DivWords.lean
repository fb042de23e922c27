import Verif.Proofs.Div2by1
/-! Word-list lemmas for multi-word division. -/
namespace Uni

theorem idx_nat {α : Type} (xs : List α) (i : Nat) (h : i < xs.length) : idx xs (i : Int) = .ok xs[i] := by
  unfold idx
  rw [if_pos (Int.natCast_nonneg i), Int.toNat_natCast, List.getElem?_eq_getElem h]

theorem idx_nat_panic {α : Type} (xs : List α) (i : Nat) (h : xs.length ≤ i) :
    idx xs (i : Int) = .error .panic := by
  unfold idx
  rw [if_pos (Int.natCast_nonneg i), Int.toNat_natCast, List.getElem?_eq_none h]

theorem setIdx_nat {α : Type} (xs : List α) (i : Nat) (a : α) (h : i < xs.length) :
    setIdx xs (i : Int) a = .ok (xs.set i a) := by
  unfold setIdx
  rw [if_pos ⟨Int.natCast_nonneg i, by simpa using h⟩, Int.toNat_natCast]

theorem setIdx_nat_panic {α : Type} (xs : List α) (i : Nat) (a : α) (h : xs.length ≤ i) :
    setIdx xs (i : Int) a = .error .panic := by
  unfold setIdx
  rw [if_neg (by rw [Int.toNat_natCast]; omega)]

theorem list_split_last {α : Type} (xs : List α) (h : xs ≠ []) : ∃ ys y, xs = ys ++ [y] :=
  ⟨xs.dropLast, xs.getLast h, (List.dropLast_concat_getLast h).symm⟩

/-- `(x << s) | (p >> (64-s))` for `s < 64` adds disjoint bits. -/
theorem shl_or_shr (x p : Word) (s : Nat) (hs : s < 64) :
    ((x <<< s) ||| (p >>> (64 - s))).toNat = x.toNat * 2 ^ s % 2 ^ 64 + p.toNat / 2 ^ (64 - s) := by
  have hp := p.isLt
  rw [BitVec.toNat_or, BitVec.toNat_shiftLeft, BitVec.toNat_ushiftRight, Nat.shiftLeft_eq, Nat.shiftRight_eq_div_pow]
  have h64 : (2 : Nat) ^ 64 = 2 ^ s * 2 ^ (64 - s) := by rw [← pow_add]; congr 1; omega
  have e : x.toNat * 2 ^ s % 2 ^ 64 = 2 ^ s * (x.toNat % 2 ^ (64 - s)) := by
    rw [h64, Nat.mul_comm (x.toNat), Nat.mul_mod_mul_left]
  have hb : p.toNat / 2 ^ (64 - s) < 2 ^ s := by
    rw [Nat.div_lt_iff_lt_mul (by positivity), ← h64]; exact hp
  rw [e, ← Nat.two_pow_add_eq_or_of_lt hb]

/-- `(x >> s) | (h << (64-s))` for `s < 64`. -/
theorem shr_or_shl (x h : Word) (s : Nat) (hs : s < 64) :
    ((x >>> s) ||| (h <<< (64 - s))).toNat = x.toNat / 2 ^ s + (h.toNat * 2 ^ (64 - s)) % 2 ^ 64 := by
  have hx := x.isLt
  rw [BitVec.toNat_or, BitVec.toNat_shiftLeft, BitVec.toNat_ushiftRight, Nat.shiftLeft_eq, Nat.shiftRight_eq_div_pow]
  have h64 : (2 : Nat) ^ 64 = 2 ^ (64 - s) * 2 ^ s := by rw [← pow_add]; congr 1; omega
  have e : h.toNat * 2 ^ (64 - s) % 2 ^ 64 = 2 ^ (64 - s) * (h.toNat % 2 ^ s) := by
    rw [h64, Nat.mul_comm (h.toNat), Nat.mul_mod_mul_left]
  have hb : x.toNat / 2 ^ s < 2 ^ (64 - s) := by
    rw [Nat.div_lt_iff_lt_mul (by positivity), ← h64]; exact hx
  rw [e, Nat.or_comm, ← Nat.two_pow_add_eq_or_of_lt hb, Nat.add_comm]

namespace U256

theorem addTo_spec (xs ys rest : List Word) (c : Word) (hl : xs.length = ys.length) (hc : c.toNat ≤ 1) :
    ∃ xs' c', addTo (xs ++ rest) ys c = (xs' ++ rest, c') ∧ xs'.length = xs.length ∧ c'.toNat ≤ 1 ∧
      val xs' + 2 ^ (64 * xs.length) * c'.toNat = val xs + val ys + c.toNat := by
  induction xs generalizing ys c with
  | nil =>
    have : ys = [] := List.length_eq_zero_iff.1 (by simpa using hl.symm)
    subst this
    refine ⟨[], c, ?_, rfl, hc, by simp⟩
    cases rest <;> simp [addTo]
  | cons x xs ih =>
    match ys, hl with
    | y :: ys, hl =>
      have s := add64_spec x y c hc
      obtain ⟨xs', c', e, hlen, hc', hv⟩ := ih ys (add64 x y c).2 (by simpa using hl) s.2
      refine ⟨(add64 x y c).1 :: xs', c', ?_, by simp [hlen], hc', ?_⟩
      · simp [addTo, e]
      · simp only [val_cons, List.length_cons]
        rw [show 64 * (xs.length + 1) = 64 + 64 * xs.length by ring, pow_add]
        have s1 := s.1
        zify at hv s1 ⊢
        linear_combination (2 : Int) ^ 64 * hv + s1

theorem subMulTo_spec (xs ys rest : List Word) (m b : Word) (hl : xs.length = ys.length) :
    ∃ xs' b', subMulTo (xs ++ rest) ys m b = (xs' ++ rest, b') ∧ xs'.length = xs.length ∧
      val xs + 2 ^ (64 * xs.length) * b'.toNat = val xs' + val ys * m.toNat + b.toNat := by
  induction xs generalizing ys b with
  | nil =>
    have : ys = [] := List.length_eq_zero_iff.1 (by simpa using hl.symm)
    subst this
    refine ⟨[], b, ?_, rfl, by simp⟩
    cases rest <;> simp [subMulTo]
  | cons x xs ih =>
    match ys, hl with
    | y :: ys, hl =>
      have s := sub64_spec x b 0 (by simp)
      have t := sub64_spec (sub64 x b 0).1 (mul64 y m).2 0 (by simp)
      have hm := mul64_spec y m
      have hx := x.isLt
      have hb := b.isLt
      have hlt := (sub64 (sub64 x b 0).1 (mul64 y m).2 0).1.isLt
      have hp : y.toNat * m.toNat ≤ (2 ^ 64 - 1) * (2 ^ 64 - 1) :=
        Nat.mul_le_mul (by have := y.isLt; omega) (by have := m.isLt; omega)
      have hbn : ((mul64 y m).1 + (sub64 x b 0).2 + (sub64 (sub64 x b 0).1 (mul64 y m).2 0).2).toNat =
          (mul64 y m).1.toNat + (sub64 x b 0).2.toNat + (sub64 (sub64 x b 0).1 (mul64 y m).2 0).2.toNat := by
        rw [BitVec.toNat_add, BitVec.toNat_add]
        simp only [word_toNat_zero] at s t
        omega
      obtain ⟨xs', b', e, hlen, hv⟩ := ih ys
        ((mul64 y m).1 + (sub64 x b 0).2 + (sub64 (sub64 x b 0).1 (mul64 y m).2 0).2) (by simpa using hl)
      refine ⟨(sub64 (sub64 x b 0).1 (mul64 y m).2 0).1 :: xs', b', ?_, by simp [hlen], ?_⟩
      · simp only [List.cons_append, subMulTo, e]
      · simp only [val_cons, List.length_cons]
        rw [show 64 * (xs.length + 1) = 64 + 64 * xs.length by ring, pow_add]
        rw [hbn] at hv
        have s1 := s.1
        have t1 := t.1
        simp only [word_toNat_zero] at s1 t1
        zify at hv s1 t1 hm ⊢
        linear_combination (2 : Int) ^ 64 * hv + s1 + t1 + hm

/-- The quotient digit estimate is exact or one too large. -/
theorem qhat_spec {u2 u1 u0 dh dl v : Word} {P lo dlo : Nat} (hlo : lo < P) (hdlo : dlo < P)
    (hd : 2 ^ 63 ≤ dh.toNat)
    (hv1 : (v.toNat + 2 ^ 64) * dh.toNat + 1 ≤ 2 ^ 128) (hv2 : 2 ^ 128 ≤ (v.toNat + 2 ^ 64 + 1) * dh.toNat)
    (hU : lo + P * (u0.toNat + 2 ^ 64 * (u1.toNat + 2 ^ 64 * u2.toNat)) <
      (dlo + P * (dl.toNat + 2 ^ 64 * dh.toNat)) * 2 ^ 64) :
    (lo + P * (u0.toNat + 2 ^ 64 * (u1.toNat + 2 ^ 64 * u2.toNat)) <
      ((qhatEstimate u2 u1 u0 dh dl v).toNat + 1) * (dlo + P * (dl.toNat + 2 ^ 64 * dh.toNat))) ∧
    (qhatEstimate u2 u1 u0 dh dl v).toNat * (dlo + P * (dl.toNat + 2 ^ 64 * dh.toNat)) ≤
      lo + P * (u0.toNat + 2 ^ 64 * (u1.toNat + 2 ^ 64 * u2.toNat)) + (dlo + P * (dl.toNat + 2 ^ 64 * dh.toNat)) := by
  have h0 := u0.isLt
  have h1 := u1.isLt
  have h2 := u2.isLt
  have hdl := dl.isLt
  have hdh := dh.isLt
  have hP : 0 < P := by omega
  unfold qhatEstimate
  dsimp only
  by_cases hc : dh ≤ u2
  · rw [if_pos hc]
    rw [word_le_iff] at hc
    have ha : (BitVec.allOnes 64).toNat = 2 ^ 64 - 1 := by decide
    rw [ha]
    constructor
    · rw [show 2 ^ 64 - 1 + 1 = 2 ^ 64 by norm_num, Nat.mul_comm (2 ^ 64) (dlo + _)]; exact hU
    · -- (B-2) * D ≤ U
      have e1 : (2 ^ 64 - 2) * (dh.toNat + 1) ≤ 2 ^ 64 * u2.toNat := by
        have : (2 ^ 64 - 2) * (dh.toNat + 1) ≤ 2 ^ 64 * dh.toNat := by omega
        exact this.trans (Nat.mul_le_mul_left _ hc)
      have e2 : (2 ^ 64 - 2) * (dlo + P * (dl.toNat + 2 ^ 64 * dh.toNat)) ≤
          (2 ^ 64 - 2) * (P * (2 ^ 64 * (dh.toNat + 1))) := by
        apply Nat.mul_le_mul_left
        calc dlo + P * (dl.toNat + 2 ^ 64 * dh.toNat) ≤ P + P * (dl.toNat + 2 ^ 64 * dh.toNat) := by omega
          _ = P * (dl.toNat + 2 ^ 64 * dh.toNat + 1) := by ring
          _ ≤ P * (2 ^ 64 * (dh.toNat + 1)) := Nat.mul_le_mul_left _ (by omega)
      have e3 : (2 ^ 64 - 2) * (P * (2 ^ 64 * (dh.toNat + 1))) =
          P * (2 ^ 64 * ((2 ^ 64 - 2) * (dh.toNat + 1))) := by ring
      have e4 : P * (2 ^ 64 * ((2 ^ 64 - 2) * (dh.toNat + 1))) ≤ P * (2 ^ 64 * (2 ^ 64 * u2.toNat)) :=
        Nat.mul_le_mul_left _ (Nat.mul_le_mul_left _ e1)
      have e5 : P * (2 ^ 64 * (2 ^ 64 * u2.toNat)) ≤
          P * (u0.toNat + 2 ^ 64 * (u1.toNat + 2 ^ 64 * u2.toNat)) := Nat.mul_le_mul_left _ (by omega)
      omega
  · rw [if_neg hc]
    rw [word_le_iff] at hc
    have hq := udivrem2by1_spec (uh := u2) (ul := u1) hd (by omega) hv1 hv2
    generalize udivrem2by1 u2 u1 dh v = qr at *
    obtain ⟨hq, hr⟩ := hq
    have hm := mul64_spec qr.1 dl
    generalize mul64 qr.1 dl = p at *
    have hp2 := p.2.isLt
    have hql := qr.1.isLt
    -- lower bound for the first digit estimate: q0 ≤ q + 2
    have hlow2 : (qr.1.toNat - 2) * (dlo + P * (dl.toNat + 2 ^ 64 * dh.toNat)) ≤
        lo + P * (u0.toNat + 2 ^ 64 * (u1.toNat + 2 ^ 64 * u2.toNat)) := by
      have e1 : (qr.1.toNat - 2) * (dh.toNat + 1) ≤ u2.toNat * 2 ^ 64 + u1.toNat := by
        rw [hq]
        rcases Nat.lt_or_ge qr.1.toNat 2 with h | h
        · rw [Nat.sub_eq_zero_of_le (by omega)]; omega
        · obtain ⟨k, hk⟩ := Nat.exists_eq_add_of_le h
          rw [hk, Nat.add_sub_cancel_left]
          have : (2 + k) * dh.toNat = 2 * dh.toNat + k * dh.toNat := by ring
          have : k * (dh.toNat + 1) = k * dh.toNat + k := by ring
          omega
      calc (qr.1.toNat - 2) * (dlo + P * (dl.toNat + 2 ^ 64 * dh.toNat))
          ≤ (qr.1.toNat - 2) * (P * (2 ^ 64 * (dh.toNat + 1))) := by
            apply Nat.mul_le_mul_left
            calc dlo + P * (dl.toNat + 2 ^ 64 * dh.toNat) ≤ P + P * (dl.toNat + 2 ^ 64 * dh.toNat) := by omega
              _ = P * (dl.toNat + 2 ^ 64 * dh.toNat + 1) := by ring
              _ ≤ P * (2 ^ 64 * (dh.toNat + 1)) := Nat.mul_le_mul_left _ (by omega)
        _ = P * (2 ^ 64 * ((qr.1.toNat - 2) * (dh.toNat + 1))) := by ring
        _ ≤ P * (2 ^ 64 * (u2.toNat * 2 ^ 64 + u1.toNat)) := Nat.mul_le_mul_left _ (Nat.mul_le_mul_left _ e1)
        _ ≤ P * (u0.toNat + 2 ^ 64 * (u1.toNat + 2 ^ 64 * u2.toNat)) := Nat.mul_le_mul_left _ (by omega)
        _ ≤ _ := Nat.le_add_left _ _
    -- q0 * (dl + B dh)
    have eqd : qr.1.toNat * (dl.toNat + 2 ^ 64 * dh.toNat) =
        qr.1.toNat * dl.toNat + 2 ^ 64 * (qr.1.toNat * dh.toNat) := by ring
    by_cases ht : qr.2 < p.1 ∨ (p.1 = qr.2 ∧ u0 < p.2)
    · rw [if_pos ht]
      have ht' : qr.2.toNat * 2 ^ 64 + u0.toNat < qr.1.toNat * dl.toNat := by
        rw [← hm]
        rcases ht with h | ⟨h, h'⟩
        · rw [word_lt_iff] at h; omega
        · rw [word_lt_iff] at h'; rw [h]; omega
      have hpos : 1 ≤ qr.1.toNat := by
        rcases Nat.eq_zero_or_pos qr.1.toNat with h | h
        · rw [h] at ht'; omega
        · exact h
      have e1 : (qr.1 - 1).toNat = qr.1.toNat - 1 := by
        rw [BitVec.toNat_sub, word_toNat_one]; omega
      rw [e1]
      constructor
      · rw [Nat.sub_add_cancel hpos]
        have e2 : u0.toNat + 2 ^ 64 * (u1.toNat + 2 ^ 64 * u2.toNat) + 1 ≤
            qr.1.toNat * (dl.toNat + 2 ^ 64 * dh.toNat) := by rw [eqd]; omega
        have e3 := Nat.mul_le_mul_left P e2
        have e4 : qr.1.toNat * (dlo + P * (dl.toNat + 2 ^ 64 * dh.toNat)) =
            qr.1.toNat * dlo + P * (qr.1.toNat * (dl.toNat + 2 ^ 64 * dh.toNat)) := by ring
        rw [e4]
        rw [Nat.mul_add, Nat.mul_one] at e3
        have : 0 ≤ qr.1.toNat * dlo := Nat.zero_le _
        omega
      · have e5 : qr.1.toNat - 1 ≤ qr.1.toNat - 2 + 1 := by omega
        have e6 := Nat.mul_le_mul_right (dlo + P * (dl.toNat + 2 ^ 64 * dh.toNat)) e5
        rw [Nat.add_mul, Nat.one_mul] at e6
        omega
    · rw [if_neg ht]
      have ht' : qr.1.toNat * dl.toNat ≤ qr.2.toNat * 2 ^ 64 + u0.toNat := by
        rw [← hm]
        rw [not_or, not_and, word_lt_iff, word_lt_iff] at ht
        obtain ⟨t1, t2⟩ := ht
        by_cases h : p.1 = qr.2
        · have := t2 h; rw [h]; omega
        · have : p.1.toNat ≠ qr.2.toNat := fun e => h (word_ext e)
          omega
      constructor
      · have e2 : u2.toNat * 2 ^ 64 + u1.toNat + 1 ≤ (qr.1.toNat + 1) * dh.toNat := by
          rw [Nat.add_mul, Nat.one_mul]; omega
        have e3 : P * (2 ^ 64 * (u2.toNat * 2 ^ 64 + u1.toNat + 1)) ≤
            (qr.1.toNat + 1) * (dlo + P * (dl.toNat + 2 ^ 64 * dh.toNat)) := by
          calc P * (2 ^ 64 * (u2.toNat * 2 ^ 64 + u1.toNat + 1))
              ≤ P * (2 ^ 64 * ((qr.1.toNat + 1) * dh.toNat)) := Nat.mul_le_mul_left _ (Nat.mul_le_mul_left _ e2)
            _ = (qr.1.toNat + 1) * (P * (2 ^ 64 * dh.toNat)) := by ring
            _ ≤ (qr.1.toNat + 1) * (dlo + P * (dl.toNat + 2 ^ 64 * dh.toNat)) := by
              apply Nat.mul_le_mul_left
              have : P * (2 ^ 64 * dh.toNat) ≤ P * (dl.toNat + 2 ^ 64 * dh.toNat) :=
                Nat.mul_le_mul_left _ (by omega)
              omega
        have e4 : P * (u0.toNat + 2 ^ 64 * (u1.toNat + 2 ^ 64 * u2.toNat) + 1) ≤
            P * (2 ^ 64 * (u2.toNat * 2 ^ 64 + u1.toNat + 1)) := Nat.mul_le_mul_left _ (by omega)
        rw [Nat.mul_add P, Nat.mul_one] at e4
        omega
      · have e2 : (qr.1.toNat - 1) * (dl.toNat + 2 ^ 64 * dh.toNat + 1) ≤
            u0.toNat + 2 ^ 64 * (u1.toNat + 2 ^ 64 * u2.toNat) := by
          rcases Nat.eq_zero_or_pos qr.1.toNat with h | h
          · rw [h]; omega
          · obtain ⟨k, hk⟩ := Nat.exists_eq_add_of_le h
            have : (qr.1.toNat - 1) * (dl.toNat + 2 ^ 64 * dh.toNat + 1) + (dl.toNat + 2 ^ 64 * dh.toNat) + 1 =
                qr.1.toNat * (dl.toNat + 2 ^ 64 * dh.toNat) + qr.1.toNat := by
              rw [hk, Nat.succ_eq_add_one, Nat.zero_add, Nat.add_sub_cancel_left]; ring
            omega
        have e3 : (qr.1.toNat - 1) * (dlo + P * (dl.toNat + 2 ^ 64 * dh.toNat)) ≤
            lo + P * (u0.toNat + 2 ^ 64 * (u1.toNat + 2 ^ 64 * u2.toNat)) := by
          calc (qr.1.toNat - 1) * (dlo + P * (dl.toNat + 2 ^ 64 * dh.toNat))
              ≤ (qr.1.toNat - 1) * (P * (dl.toNat + 2 ^ 64 * dh.toNat + 1)) := by
                apply Nat.mul_le_mul_left
                rw [Nat.mul_add P _ 1, Nat.mul_one]; omega
            _ = P * ((qr.1.toNat - 1) * (dl.toNat + 2 ^ 64 * dh.toNat + 1)) := by ring
            _ ≤ P * (u0.toNat + 2 ^ 64 * (u1.toNat + 2 ^ 64 * u2.toNat)) := Nat.mul_le_mul_left _ e2
            _ ≤ _ := Nat.le_add_left _ _
        have e5 : qr.1.toNat ≤ (qr.1.toNat - 1) + 1 := by omega
        have e6 := Nat.mul_le_mul_right (dlo + P * (dl.toNat + 2 ^ 64 * dh.toNat)) e5
        rw [Nat.add_mul, Nat.one_mul] at e6
        omega

end U256
end Uni
