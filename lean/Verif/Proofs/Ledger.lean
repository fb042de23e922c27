import Verif.Spec.Ledger
import Mathlib.Tactic.Ring
import Mathlib.Tactic.Linarith
import Mathlib.Algebra.Order.Field.Rat
/-! # Facts about ledgers -/
namespace Uni
namespace Spec
section
set_option linter.unusedSectionVars false
variable {R : Type} [CommRing R] [LinearOrder R] [IsStrictOrderedRing R]

theorem wsum_nil (f : Int → Int → R) : wsum f [] = 0 := rfl
theorem wsum_cons (f : Int → Int → R) (e : Entry) (h : List Entry) :
    wsum f (e :: h) = f e.lower e.upper * (e.delta : R) + wsum f h := by
  unfold wsum; rw [List.map_cons, List.sum_cons]

theorem wsum_add (f g : Int → Int → R) (h : List Entry) : wsum (fun a b => f a b + g a b) h = wsum f h + wsum g h := by
  induction h with
  | nil => simp [wsum_nil]
  | cons e h ih => rw [wsum_cons, wsum_cons, wsum_cons, ih]; ring

theorem wsum_sub (f g : Int → Int → R) (h : List Entry) : wsum (fun a b => f a b - g a b) h = wsum f h - wsum g h := by
  induction h with
  | nil => simp [wsum_nil]
  | cons e h ih => rw [wsum_cons, wsum_cons, wsum_cons, ih]; ring

theorem wsum_smul (c : R) (f : Int → Int → R) (h : List Entry) : wsum (fun a b => c * f a b) h = c * wsum f h := by
  induction h with
  | nil => simp [wsum_nil]
  | cons e h ih => rw [wsum_cons, wsum_cons, ih]; ring

theorem wsum_congr {f g : Int → Int → R} {h : List Entry} (hfg : ∀ e ∈ h, f e.lower e.upper = g e.lower e.upper) :
    wsum f h = wsum g h := by
  unfold wsum
  congr 1
  exact List.map_congr_left (fun e he => by rw [hfg e he])

/-- Split off all entries of one range. -/
theorem wsum_filter (f : Int → Int → R) (l u : Int) (h : List Entry) :
    wsum f h = f l u * ((outstanding h l u : Int) : R) + wsum f (h.filter (fun e => !decide (e.lower = l ∧ e.upper = u))) := by
  induction h with
  | nil => simp [wsum_nil, outstanding]
  | cons e h ih =>
    unfold outstanding at ih ⊢
    rw [wsum_cons, wsum_cons, ih]
    by_cases he : e.lower = l ∧ e.upper = u
    · rw [List.filter_cons_of_neg (by simp [he]), if_pos he, he.1, he.2]
      push_cast; ring
    · rw [List.filter_cons_of_pos (by simp only [decide_eq_false he, Bool.not_false]), if_neg he, wsum_cons]
      push_cast; ring

theorem outstanding_filter (h : List Entry) (l u l' u' : Int) :
    outstanding (h.filter (fun e => !decide (e.lower = l ∧ e.upper = u))) l' u' =
      if l' = l ∧ u' = u then 0 else outstanding h l' u' := by
  induction h with
  | nil => simp [wsum_nil, outstanding]
  | cons e h ih =>
    by_cases he : e.lower = l ∧ e.upper = u
    · rw [List.filter_cons_of_neg (by simp [he]), ih]
      by_cases h2 : l' = l ∧ u' = u
      · rw [if_pos h2, if_pos h2]
      · rw [if_neg h2, if_neg h2]
        unfold outstanding
        rw [wsum_cons, if_neg (by rintro ⟨h3, h4⟩; exact h2 ⟨by omega, by omega⟩)]
        push_cast; ring
    · rw [List.filter_cons_of_pos (by simp only [decide_eq_false he, Bool.not_false])]
      unfold outstanding at ih ⊢
      rw [wsum_cons, wsum_cons, ih]
      by_cases h2 : l' = l ∧ u' = u
      · rw [if_pos h2, if_pos h2, if_neg (by rintro ⟨h3, h4⟩; exact he ⟨by omega, by omega⟩)]
        simp
      · rw [if_neg h2, if_neg h2]

theorem wsum_nonneg_aux (f : Int → Int → R) (n : Nat) : ∀ h : List Entry, h.length ≤ n →
    (∀ l u, 0 ≤ outstanding h l u) → (∀ e ∈ h, 0 < outstanding h e.lower e.upper → 0 ≤ f e.lower e.upper) → 0 ≤ wsum f h := by
  induction n with
  | zero =>
    intro h hl _ _
    have : h = [] := List.length_eq_zero_iff.1 (by omega)
    rw [this]
    exact le_refl _
  | succ n ih =>
    intro h hl ho hf
    cases h with
    | nil => exact le_refl _
    | cons e h =>
      rw [wsum_filter f e.lower e.upper]
      apply add_nonneg
      · rcases lt_or_eq_of_le (ho e.lower e.upper) with h1 | h1
        · exact mul_nonneg (hf e List.mem_cons_self h1) (by exact_mod_cast le_of_lt h1)
        · rw [← h1]; simp
      · apply ih
        · rw [List.filter_cons_of_neg (by simp)]
          have := List.length_filter_le (fun x : Entry => !decide (x.lower = e.lower ∧ x.upper = e.upper)) h
          simp only [List.length_cons] at hl
          omega
        · intro l u
          rw [outstanding_filter]
          split
          · exact le_refl _
          · exact ho l u
        · intro x hx hpos
          rw [List.mem_filter] at hx
          rw [outstanding_filter] at hpos
          split at hpos
          · omega
          · exact hf x hx.1 hpos

/-- A sum with non-negative weights over a ledger without overdrawn ranges is non-negative.  Only ranges with
liquidity left count. -/
theorem wsum_nonneg {f : Int → Int → R} {h : List Entry} (ho : ∀ l u, 0 ≤ outstanding h l u)
    (hf : ∀ e ∈ h, 0 < outstanding h e.lower e.upper → 0 ≤ f e.lower e.upper) : 0 ≤ wsum f h :=
  wsum_nonneg_aux f h.length h (le_refl _) ho hf

theorem wsum_le {f g : Int → Int → R} {h : List Entry} (ho : ∀ l u, 0 ≤ outstanding h l u)
    (hf : ∀ e ∈ h, 0 < outstanding h e.lower e.upper → f e.lower e.upper ≤ g e.lower e.upper) : wsum f h ≤ wsum g h := by
  have := wsum_nonneg (f := fun a b => g a b - f a b) ho (fun e he hp => by have := hf e he hp; linarith)
  rw [wsum_sub] at this
  linarith

theorem wsum_eq {f g : Int → Int → R} {h : List Entry} (ho : ∀ l u, 0 ≤ outstanding h l u)
    (hf : ∀ e ∈ h, 0 < outstanding h e.lower e.upper → f e.lower e.upper = g e.lower e.upper) : wsum f h = wsum g h :=
  le_antisymm (wsum_le ho (fun e he hp => le_of_eq (hf e he hp))) (wsum_le ho (fun e he hp => le_of_eq (hf e he hp).symm))

end

/-! ### Covered ledgers -/

theorem Covered.tail {e : Entry} {h : List Entry} (hc : Covered (e :: h)) : Covered h := hc.1

theorem outstanding_cons (e : Entry) (h : List Entry) (l u : Int) :
    outstanding (e :: h) l u = (if e.lower = l ∧ e.upper = u then e.delta else 0) + outstanding h l u := by
  unfold outstanding
  rw [wsum_cons]
  split <;> simp

theorem total_cons (e : Entry) (h : List Entry) : total (e :: h) = e.delta + total h := by
  unfold total; rw [wsum_cons]; simp

theorem Covered.nonneg {h : List Entry} (hc : Covered h) (l u : Int) : 0 ≤ outstanding h l u := by
  induction h with
  | nil => exact le_refl _
  | cons e h ih =>
    by_cases he : e.lower = l ∧ e.upper = u
    · have := hc.2.2.1
      rw [he.1, he.2] at this; exact this
    · rw [outstanding_cons, if_neg he, zero_add]
      exact ih hc.tail

theorem Covered.range {h : List Entry} (hc : Covered h) : ∀ e ∈ h, e.lower < e.upper := by
  induction h with
  | nil => intro e he; cases he
  | cons x h ih =>
    intro e he
    rcases List.mem_cons.1 he with h1 | h1
    · subst h1; exact hc.2.1
    · exact ih hc.tail e h1

theorem Covered.total_lt {h : List Entry} (hc : Covered h) : total h < 2 ^ 128 := by
  cases h with
  | nil => simp [total, wsum_nil]
  | cons e h => exact hc.2.2.2

theorem Covered.outstanding_lt {h : List Entry} (hc : Covered h) (l u : Int) : outstanding h l u < 2 ^ 128 := by
  refine lt_of_le_of_lt ?_ hc.total_lt
  exact wsum_le hc.nonneg (fun e _ _ => by split <;> omega)

theorem Covered.active_nonneg {h : List Entry} (hc : Covered h) (t : Int) : 0 ≤ active h t :=
  wsum_nonneg hc.nonneg (fun e _ _ => by split <;> omega)

theorem Covered.active_lt {h : List Entry} (hc : Covered h) (t : Int) : active h t < 2 ^ 128 := by
  refine lt_of_le_of_lt ?_ hc.total_lt
  exact wsum_le hc.nonneg (fun e _ _ => by split <;> omega)

theorem Covered.gross_nonneg {h : List Entry} (hc : Covered h) (t : Int) : 0 ≤ grossAt h t :=
  wsum_nonneg hc.nonneg (fun e _ _ => by split <;> split <;> omega)

theorem Covered.gross_lt {h : List Entry} (hc : Covered h) (t : Int) : grossAt h t < 2 ^ 128 := by
  refine lt_of_le_of_lt ?_ hc.total_lt
  refine wsum_le hc.nonneg (fun e he _ => ?_)
  have := hc.range e he
  split <;> split <;> omega

theorem Covered.net_le {h : List Entry} (hc : Covered h) (t : Int) : netAt h t ≤ grossAt h t :=
  wsum_le hc.nonneg (fun e _ _ => by split <;> split <;> omega)

theorem Covered.neg_net_le {h : List Entry} (hc : Covered h) (t : Int) : - grossAt h t ≤ netAt h t := by
  have := wsum_nonneg (f := fun a b => ((if a = t then 1 else 0) - (if b = t then 1 else 0)) + ((if a = t then 1 else 0) + (if b = t then (1 : Int) else 0)))
    hc.nonneg (fun e _ _ => by split <;> split <;> omega)
  rw [wsum_add] at this
  unfold grossAt netAt
  omega

/-- A range with liquidity left keeps both of its boundary ticks referenced. -/
theorem Covered.gross_pos {h : List Entry} (hc : Covered h) {l u : Int} (ho : 0 < outstanding h l u) :
    0 < grossAt h l ∧ 0 < grossAt h u := by
  have h1 : outstanding h l u ≤ grossAt h l := wsum_le hc.nonneg (fun e _ _ => by split <;> split <;> split <;> omega)
  have h2 : outstanding h l u ≤ grossAt h u := wsum_le hc.nonneg (fun e _ _ => by split <;> split <;> split <;> omega)
  omega

theorem Covered.net_zero {h : List Entry} (hc : Covered h) {t : Int} (hg : grossAt h t = 0) : netAt h t = 0 := by
  have h1 := hc.net_le t
  have h2 := hc.neg_net_le t
  omega

theorem Covered.active_step {h : List Entry} (hc : Covered h) (t : Int) :
    active h t = active h (t - 1) + netAt h t := by
  unfold active netAt
  rw [← wsum_add]
  refine wsum_congr (fun e he => ?_)
  have := hc.range e he
  split <;> split <;> split <;> split <;> omega

/-- The active liquidity is the same at two ticks with no referenced tick in between. -/
theorem Covered.active_const {h : List Entry} (hc : Covered h) {a b : Int} (hab : a ≤ b)
    (hg : ∀ j, a < j → j ≤ b → grossAt h j = 0) : active h b = active h a := by
  obtain ⟨n, rfl⟩ := Int.le.dest hab
  induction n with
  | zero => simp
  | succ n ih =>
    have e : a + ((n + 1 : Nat) : Int) = a + n + 1 := by push_cast; ring
    rw [e, hc.active_step, hc.net_zero (hg _ (by omega) (by omega)), add_zero, show a + (n : Int) + 1 - 1 = a + n by ring]
    exact ih (by omega) (fun j h1 h2 => hg j h1 (by push_cast; omega))

end Spec
end Uni
