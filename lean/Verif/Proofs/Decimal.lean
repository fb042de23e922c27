import Verif.Model.Decimal
import Verif.Spec.Transaction
import Mathlib.Tactic.Ring
import Mathlib.Tactic.Linarith
/-! Proofs about decimal texts. -/
namespace Uni
namespace Dec
open Spec

theorem digit_toNat {d : Nat} (h : d < 10) : (digit d).toNat = 48 + d := by
  unfold digit
  have : ∀ d : Fin 10, (Char.ofNat (48 + d.1)).toNat = 48 + d.1 := by decide
  exact this ⟨d, h⟩

theorem char_le (c : Char) : ('0' ≤ c ∧ c ≤ '9') ↔ ('0'.toNat ≤ c.toNat ∧ c.toNat ≤ '9'.toNat) := Iff.rfl

theorem decSum_append (a b : List Char) : decSum (a ++ b) = decSum a * 10 ^ b.length + decSum b := by
  induction a with
  | nil => simp [decSum]
  | cons c cs ih =>
    show (c.toNat - '0'.toNat) * 10 ^ (cs ++ b).length + decSum (cs ++ b) = _
    rw [ih, List.length_append]
    show _ = ((c.toNat - '0'.toNat) * 10 ^ cs.length + decSum cs) * 10 ^ b.length + decSum b
    rw [pow_add]; ring

theorem digits_spec (n : Nat) : DecDigits (digits n) n ∧ (1 < (digits n).length → (digits n).head? ≠ some '0') ∧
    (0 < n → (digits n).head? ≠ some '0') := by
  have h0 : '0'.toNat = 48 := rfl
  have h9 : '9'.toNat = 57 := rfl
  induction n using Nat.strong_induction_on with
  | h n ih =>
    rw [digits]
    by_cases h : n < 10
    · rw [if_pos h]
      have hd := digit_toNat h
      refine ⟨⟨by simp, ?_, ?_⟩, ?_, ?_⟩
      · intro c hc
        rw [List.mem_singleton.1 hc, hd, h0, h9]; omega
      · show ((digit n).toNat - '0'.toNat) * 10 ^ 0 + 0 = n
        rw [hd, h0]; omega
      · intro h1; simp at h1
      · intro hp h1
        have : digit n = '0' := by simpa using h1
        rw [this, h0] at hd; omega
    · rw [if_neg h]
      obtain ⟨⟨a1, a2, a3⟩, _, a5⟩ := ih (n / 10) (by omega)
      have hd := digit_toNat (Nat.mod_lt n (by omega : 10 > 0))
      have hh : (digits (n / 10) ++ [digit (n % 10)]).head? = (digits (n / 10)).head? := by
        cases hx : digits (n / 10) with
        | nil => exact absurd hx a1
        | cons _ _ => rfl
      refine ⟨⟨by simp, ?_, ?_⟩, ?_, ?_⟩
      · intro c hc
        rcases List.mem_append.1 hc with hc | hc
        · exact a2 c hc
        · rw [List.mem_singleton.1 hc, hd, h0, h9]; omega
      · rw [decSum_append, a3]
        show n / 10 * 10 ^ 1 + (((digit (n % 10)).toNat - '0'.toNat) * 10 ^ 0 + 0) = n
        rw [hd, h0]; omega
      · intro _; rw [hh]; exact a5 (by omega)
      · intro _; rw [hh]; exact a5 (by omega)

theorem scan_fold (cs : List Char) (a : Nat) (n : Nat) :
    cs.foldl (fun acc c => acc.bind fun a => if '0' ≤ c ∧ c ≤ '9' then some (10 * a + (c.toNat - 48)) else none) (some a) =
      some n ↔ (∀ c ∈ cs, '0'.toNat ≤ c.toNat ∧ c.toNat ≤ '9'.toNat) ∧ a * 10 ^ cs.length + decSum cs = n := by
  induction cs generalizing a with
  | nil => simp [decSum]
  | cons c cs ih =>
    rw [List.foldl_cons]
    show List.foldl _ (if '0' ≤ c ∧ c ≤ '9' then some (10 * a + (c.toNat - 48)) else none) cs = some n ↔ _
    by_cases hc : '0' ≤ c ∧ c ≤ '9'
    · rw [if_pos hc, ih]
      have e : (10 * a + (c.toNat - 48)) * 10 ^ cs.length + decSum cs = a * 10 ^ (c :: cs).length + decSum (c :: cs) := by
        show _ = a * 10 ^ (cs.length + 1) + ((c.toNat - 48) * 10 ^ cs.length + decSum cs)
        ring
      rw [e]
      constructor
      · rintro ⟨h1, h2⟩
        refine ⟨?_, h2⟩
        intro x hx
        rcases List.mem_cons.1 hx with h | h
        · rw [h]; exact (char_le c).1 hc
        · exact h1 x h
      · rintro ⟨h1, h2⟩
        exact ⟨fun x hx => h1 x (List.mem_cons_of_mem _ hx), h2⟩
    · rw [if_neg hc]
      have hn : ∀ cs : List Char, cs.foldl (fun acc c => acc.bind fun a => if '0' ≤ c ∧ c ≤ '9' then
          some (10 * a + (c.toNat - 48)) else none) (none : Option Nat) = none := by
        intro cs
        induction cs with
        | nil => rfl
        | cons _ _ ih => rw [List.foldl_cons]; exact ih
      rw [hn]
      constructor
      · intro h; cases h
      · rintro ⟨h1, _⟩
        exact absurd ((char_le c).2 (h1 c (List.mem_cons_self))) hc

theorem scanDigits_iff (cs : List Char) (n : Nat) : scanDigits cs = some n ↔ DecDigits cs n := by
  cases cs with
  | nil =>
    constructor
    · intro h; cases h
    · intro h; exact absurd rfl h.1
  | cons c cs =>
    show List.foldl _ (some 0) (c :: cs) = some n ↔ _
    rw [scan_fold]
    constructor
    · rintro ⟨h1, h2⟩; exact ⟨by simp, h1, by omega⟩
    · rintro ⟨_, h1, h2⟩; exact ⟨h1, by omega⟩

theorem map_some_iff {α β : Type} (o : Option α) (f : α → β) (b : β) : o.map f = some b ↔ ∃ a, o = some a ∧ f a = b := by
  cases o <;> simp

theorem not_sign {c : Char} {cs : List Char} {n : Nat} (h : DecDigits (c :: cs) n) : c ≠ '-' ∧ c ≠ '+' := by
  have := h.2.1 c (List.mem_cons_self)
  constructor
  · rintro rfl; revert this; decide
  · rintro rfl; revert this; decide

theorem setString_iff (s : String) (b : Int) : setString s = some b ↔ DecText s b := by
  unfold setString DecText
  generalize s.toList = l
  split
  · next cs =>
    rw [map_some_iff]
    constructor
    · rintro ⟨n, h, rfl⟩
      exact ⟨cs, n, (scanDigits_iff _ _).1 h, Or.inr (Or.inr ⟨rfl, rfl⟩)⟩
    · rintro ⟨ds, n, h, h1 | h1 | h1⟩
      · obtain ⟨h1, _⟩ := h1
        rw [← h1] at h
        exact absurd rfl (not_sign h).1
      · exact absurd (List.cons.inj h1.1).1 (by decide)
      · refine ⟨n, (scanDigits_iff _ _).2 ?_, h1.2.symm⟩
        rw [(List.cons.inj h1.1).2]; exact h
  · next cs =>
    rw [map_some_iff]
    constructor
    · rintro ⟨n, h, rfl⟩
      exact ⟨cs, n, (scanDigits_iff _ _).1 h, Or.inr (Or.inl ⟨rfl, rfl⟩)⟩
    · rintro ⟨ds, n, h, h1 | h1 | h1⟩
      · obtain ⟨h1, _⟩ := h1
        rw [← h1] at h
        exact absurd rfl (not_sign h).2
      · refine ⟨n, (scanDigits_iff _ _).2 ?_, h1.2.symm⟩
        rw [(List.cons.inj h1.1).2]; exact h
      · exact absurd (List.cons.inj h1.1).1 (by decide)
  · next hm hp =>
    rw [map_some_iff]
    constructor
    · rintro ⟨n, h, rfl⟩
      exact ⟨_, n, (scanDigits_iff _ _).1 h, Or.inl ⟨rfl, rfl⟩⟩
    · rintro ⟨ds, n, h, h1 | h1 | h1⟩
      · exact ⟨n, (scanDigits_iff _ _).2 (h1.1 ▸ h), h1.2.symm⟩
      · exact absurd h1.1 (hp _)
      · exact absurd h1.1 (hm _)

theorem bigString_canonical (b : Int) : DecCanonical (bigString b) b := by
  obtain ⟨h1, h2, _⟩ := digits_spec b.natAbs
  exact ⟨digits b.natAbs, h1, by unfold bigString; rw [String.toList_ofList], h2⟩

theorem canonical_text {s : String} {b : Int} (h : DecCanonical s b) : DecText s b := by
  obtain ⟨ds, h1, h2, _⟩ := h
  refine ⟨ds, _, h1, ?_⟩
  by_cases hb : b < 0
  · rw [if_pos hb] at h2; exact Or.inr (Or.inr ⟨h2, by omega⟩)
  · rw [if_neg hb] at h2; exact Or.inl ⟨h2, by omega⟩

theorem setString_bigString (b : Int) : setString (bigString b) = some b :=
  (setString_iff _ _).2 (canonical_text (bigString_canonical b))

/-- A text has at most one value. -/
theorem decText_unique {s : String} {a b : Int} (ha : DecText s a) (hb : DecText s b) : a = b :=
  Option.some.inj (((setString_iff s a).2 ha).symm.trans ((setString_iff s b).2 hb))

theorem decText_ne_empty {s : String} {b : Int} (h : DecText s b) : s ≠ "" := by
  rintro rfl
  have := (setString_iff "" b).2 h
  cases this

end Dec
end Uni
