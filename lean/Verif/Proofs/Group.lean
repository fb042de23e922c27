import Verif.Proofs.Arith
import Mathlib.Algebra.Group.Defs
import Mathlib.Tactic.Abel
/-! # 256-bit words form a commutative group under wrapping addition -/
namespace Uni
namespace U256

instance : Add U256 := ⟨add⟩
instance : Neg U256 := ⟨neg⟩
instance : Sub U256 := ⟨sub⟩
instance : Zero U256 := ⟨zero⟩

theorem add_def (a b : U256) : add a b = a + b := rfl
theorem sub_def (a b : U256) : sub a b = a - b := rfl
theorem neg_def (a : U256) : neg a = -a := rfl
theorem zero_def : zero = (0 : U256) := rfl

instance : AddCommGroup U256 where
  add := add
  zero := zero
  neg := neg
  sub := sub
  add_assoc a b c := by
    apply ext_toNat
    show (add (add a b) c).toNat = (add a (add b c)).toNat
    rw [toNat_add, toNat_add, toNat_add, toNat_add]; omega
  zero_add a := by
    apply ext_toNat
    show (add zero a).toNat = a.toNat
    have := a.toNat_lt
    rw [toNat_add, toNat_zero]; omega
  add_zero a := by
    apply ext_toNat
    show (add a zero).toNat = a.toNat
    have := a.toNat_lt
    rw [toNat_add, toNat_zero]; omega
  add_comm a b := by
    apply ext_toNat
    show (add a b).toNat = (add b a).toNat
    rw [toNat_add, toNat_add, Nat.add_comm]
  neg_add_cancel a := by
    apply ext_toNat
    show (add (neg a) a).toNat = zero.toNat
    have := a.toNat_lt
    rw [toNat_add, toNat_neg, toNat_zero]; omega
  sub_eq_add_neg a b := by
    apply ext_toNat
    show (sub a b).toNat = (add a (neg b)).toNat
    have := a.toNat_lt
    have := b.toNat_lt
    rw [toNat_add, toNat_neg, toNat_sub]; omega
  nsmul := nsmulRec
  zsmul := zsmulRec

end U256
end Uni
