import Verif.Model.Conversion
import Verif.Spec.Text
import Verif.Proofs.Arith
import Verif.Proofs.Cmp
import Mathlib.Tactic.Ring
/-! Byte strings, hexadecimal text, math/big conversions. -/
namespace Uni
namespace U256
open Spec

theorem toNat_zext (b : Byte) : (zext b).toNat = b.toNat := by
  unfold zext
  rw [BitVec.toNat_setWidth]
  have := b.isLt
  omega

theorem shl_or (w v : Word) (k : Nat) (h : w.toNat * 2 ^ k < 2 ^ 64) (hv : v.toNat < 2 ^ k) :
    ((w <<< k) ||| v).toNat = w.toNat * 2 ^ k + v.toNat := by
  rw [BitVec.toNat_or, BitVec.toNat_shiftLeft, Nat.shiftLeft_eq, Nat.mod_eq_of_lt h, ← Nat.shiftLeft_eq,
    ← Nat.shiftLeft_add_eq_or_of_lt hv]

theorem beVal_aux (l : List Byte) (a : Nat) : l.foldl (fun a b => 256 * a + b.toNat) a = a * 256 ^ l.length + beVal l := by
  induction l generalizing a with
  | nil => simp [beVal]
  | cons b l ih =>
    unfold beVal
    rw [List.foldl_cons, List.foldl_cons, ih, ih (256 * 0 + b.toNat), List.length_cons, pow_succ]
    ring

theorem beVal_cons (b : Byte) (l : List Byte) : beVal (b :: l) = b.toNat * 256 ^ l.length + beVal l := by
  show (b :: l).foldl (fun a b => 256 * a + b.toNat) 0 = _
  rw [List.foldl_cons, beVal_aux]; simp

theorem beVal_append (a b : List Byte) : beVal (a ++ b) = beVal a * 256 ^ b.length + beVal b := by
  unfold beVal
  rw [List.foldl_append, beVal_aux b]
  rfl

theorem beVal_lt (l : List Byte) : beVal l < 256 ^ l.length := by
  induction l with
  | nil => decide
  | cons b l ih =>
    rw [beVal_cons, List.length_cons, pow_succ]
    have := b.isLt
    have : b.toNat * 256 ^ l.length ≤ 255 * 256 ^ l.length := Nat.mul_le_mul_right _ (by omega)
    omega

theorem toNat_be_aux (l : List Byte) (w : Word) (h : (w.toNat + 1) * 256 ^ l.length ≤ 2 ^ 64) :
    (l.foldl (fun (w : Word) (b : Byte) => (w <<< 8) ||| zext b) w).toNat = w.toNat * 256 ^ l.length + beVal l := by
  induction l generalizing w with
  | nil => simp [beVal]
  | cons b l ih =>
    rw [List.length_cons, pow_succ] at h
    have hp : 1 ≤ 256 ^ l.length := Nat.one_le_pow _ _ (by omega)
    have hb := b.isLt
    have h1 : w.toNat * 2 ^ 8 < 2 ^ 64 := by
      have : (w.toNat + 1) * (1 * 256) ≤ (w.toNat + 1) * (256 ^ l.length * 256) := Nat.mul_le_mul_left _ (Nat.mul_le_mul_right _ hp)
      omega
    have e : ((w <<< 8) ||| zext b).toNat = w.toNat * 256 + b.toNat := by
      rw [shl_or w (zext b) 8 h1 (by rw [toNat_zext]; exact hb), toNat_zext]; rfl
    rw [List.foldl_cons, ih, e, beVal_cons]
    · rw [List.length_cons, pow_succ]; ring
    · rw [e]
      refine le_trans ?_ h
      have : (w.toNat * 256 + b.toNat + 1) * 256 ^ l.length ≤ ((w.toNat + 1) * 256) * 256 ^ l.length := Nat.mul_le_mul_right _ (by omega)
      refine le_trans this (le_of_eq ?_)
      ring

theorem toNat_be {l : List Byte} (h : l.length ≤ 8) : (be l).toNat = beVal l := by
  unfold be
  rw [toNat_be_aux]
  · simp
  · have : 256 ^ l.length ≤ 256 ^ 8 := Nat.pow_le_pow_right (by omega) h
    show (0 + 1) * _ ≤ _
    omega

theorem be40_eq {l : List Byte} (h : l.length = 5) : be40 l = be l := by
  match l, h with
  | [b0, b1, b2, b3, b4], _ =>
    simp only [be40, be, List.getD_cons_zero, List.getD_cons_succ, List.foldl_cons, List.foldl_nil, BitVec.shiftLeft_or_distrib,
      ← BitVec.shiftLeft_add, BitVec.ofNat_eq_ofNat, BitVec.zero_shiftLeft, BitVec.zero_or, Nat.reduceAdd]
    generalize zext b0 <<< 32 = a0
    generalize zext b1 <<< 24 = a1
    generalize zext b2 <<< 16 = a2
    generalize zext b3 <<< 8 = a3
    generalize zext b4 = a4
    clear *-
    ac_rfl

theorem be48_eq {l : List Byte} (h : l.length = 6) : be48 l = be l := by
  match l, h with
  | [b0, b1, b2, b3, b4, b5], _ =>
    simp only [be48, be, List.getD_cons_zero, List.getD_cons_succ, List.foldl_cons, List.foldl_nil, BitVec.shiftLeft_or_distrib,
      ← BitVec.shiftLeft_add, BitVec.ofNat_eq_ofNat, BitVec.zero_shiftLeft, BitVec.zero_or, Nat.reduceAdd]
    generalize zext b0 <<< 40 = a0
    generalize zext b1 <<< 32 = a1
    generalize zext b2 <<< 24 = a2
    generalize zext b3 <<< 16 = a3
    generalize zext b4 <<< 8 = a4
    generalize zext b5 = a5
    clear *-
    ac_rfl

theorem be56_eq {l : List Byte} (h : l.length = 7) : be56 l = be l := by
  match l, h with
  | [b0, b1, b2, b3, b4, b5, b6], _ =>
    simp only [be56, be, List.getD_cons_zero, List.getD_cons_succ, List.foldl_cons, List.foldl_nil, BitVec.shiftLeft_or_distrib,
      ← BitVec.shiftLeft_add, BitVec.ofNat_eq_ofNat, BitVec.zero_shiftLeft, BitVec.zero_or, Nat.reduceAdd]
    generalize zext b0 <<< 48 = a0
    generalize zext b1 <<< 40 = a1
    generalize zext b2 <<< 32 = a2
    generalize zext b3 <<< 24 = a3
    generalize zext b4 <<< 16 = a4
    generalize zext b5 <<< 8 = a5
    generalize zext b6 = a6
    clear *-
    ac_rfl

end U256
end Uni
