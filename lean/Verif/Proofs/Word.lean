import Verif.Model.Word
import Mathlib.Tactic.Ring
import Mathlib.Tactic.Linarith
/-! Arithmetic meaning of the word primitives. -/
namespace Uni

theorem add64_spec (x y c : Word) (hc : c.toNat ≤ 1) :
    (add64 x y c).1.toNat + 2 ^ 64 * (add64 x y c).2.toNat = x.toNat + y.toNat + c.toNat ∧
    (add64 x y c).2.toNat ≤ 1 := by
  have hx := x.isLt
  have hy := y.isLt
  simp only [add64, BitVec.toNat_ofNat]
  omega

theorem sub64_spec (x y b : Word) (hb : b.toNat ≤ 1) :
    x.toNat + 2 ^ 64 * (sub64 x y b).2.toNat = (sub64 x y b).1.toNat + y.toNat + b.toNat ∧
    (sub64 x y b).2.toNat ≤ 1 := by
  have hx := x.isLt
  have hy := y.isLt
  simp only [sub64, BitVec.toNat_sub]
  split <;> simp <;> omega

theorem mul64_spec (x y : Word) :
    (mul64 x y).2.toNat + 2 ^ 64 * (mul64 x y).1.toNat = x.toNat * y.toNat := by
  have hx := x.isLt
  have hy := y.isLt
  have h : x.toNat * y.toNat < 2 ^ 64 * 2 ^ 64 := Nat.mul_lt_mul'' hx hy
  simp only [mul64, BitVec.toNat_ofNat]
  generalize x.toNat * y.toNat = p at *
  omega

theorem mul64_hi_le (x y : Word) : (mul64 x y).1.toNat ≤ 2 ^ 64 - 2 := by
  have hx := x.isLt
  have hy := y.isLt
  have h := mul64_spec x y
  have h2 : x.toNat * y.toNat ≤ (2 ^ 64 - 1) * (2 ^ 64 - 1) := Nat.mul_le_mul (by omega) (by omega)
  have := (mul64 x y).2.isLt
  generalize x.toNat * y.toNat = p at *
  omega

@[simp] theorem val_nil : val [] = 0 := rfl
@[simp] theorem val_cons (w : Word) (ws : List Word) : val (w :: ws) = w.toNat + 2 ^ 64 * val ws := rfl

theorem val_append (a b : List Word) : val (a ++ b) = val a + 2 ^ (64 * a.length) * val b := by
  induction a with
  | nil => simp
  | cons w ws ih =>
    simp only [List.cons_append, val_cons, ih, List.length_cons]
    rw [show 64 * (ws.length + 1) = 64 + 64 * ws.length by ring, pow_add]
    ring

theorem val_lt (a : List Word) : val a < 2 ^ (64 * a.length) := by
  induction a with
  | nil => simp
  | cons w ws ih =>
    simp only [val_cons, List.length_cons]
    rw [show 64 * (ws.length + 1) = 64 + 64 * ws.length by ring, pow_add]
    have hw := w.isLt
    have : val ws + 1 ≤ 2 ^ (64 * ws.length) := ih
    have h2 : 2 ^ 64 * (val ws + 1) ≤ 2 ^ 64 * 2 ^ (64 * ws.length) := Nat.mul_le_mul_left _ this
    omega

theorem len64_spec (x : Word) : x.toNat < 2 ^ len64 x ∧ (x.toNat ≠ 0 → 2 ^ (len64 x - 1) ≤ x.toNat) ∧
    (x.toNat ≠ 0 → 1 ≤ len64 x) ∧ len64 x ≤ 64 := by
  unfold len64
  split
  · rename_i h; simp [h]
  · rename_i h
    refine ⟨Nat.lt_log2_self, fun _ => by simpa using Nat.log2_self_le h, fun _ => by omega, ?_⟩
    have := (Nat.log2_lt h).2 x.isLt
    omega

theorem word_ext {a b : Word} (h : a.toNat = b.toNat) : a = b := BitVec.eq_of_toNat_eq h

@[simp] theorem word_toNat_zero : (0 : Word).toNat = 0 := rfl
@[simp] theorem word_toNat_one : (1 : Word).toNat = 1 := rfl

theorem word_lt_iff (a b : Word) : a < b ↔ a.toNat < b.toNat := BitVec.lt_def
theorem word_le_iff (a b : Word) : a ≤ b ↔ a.toNat ≤ b.toNat := BitVec.le_def

theorem word_or_eq_zero (a b : Word) : a ||| b = 0 ↔ a = 0 ∧ b = 0 := by
  constructor
  · intro h
    have h' : (a ||| b).toNat = 0 := by rw [h]; rfl
    rw [BitVec.toNat_or] at h'
    have ha : a.toNat ≤ a.toNat ||| b.toNat := Nat.left_le_or
    have hb : b.toNat ≤ a.toNat ||| b.toNat := Nat.right_le_or
    exact ⟨word_ext (by simp; omega), word_ext (by simp; omega)⟩
  · rintro ⟨rfl, rfl⟩; rfl

end Uni
