import Verif.Model.InPlace
/-! # What a method of `Int` may do to memory

`Stores m h z v a`: the call `m` on the heap `h` returns `a`, leaves the value `v` in the number `z`, and no other number
that existed before the call has changed.  `Writes m h z g` is the same for a computation `g` on values that may panic: then
the call panics too. -/
namespace Uni.Spec

def Stores {α : Type} (m : HM α) (h : Heap) (z : Nat) (v : U256) (a : α) : Prop :=
  ∃ h', m h = .ok (a, h') ∧ h.next ≤ h'.next ∧ h'.cell z = v ∧ ∀ r, r < h.next → r ≠ z → h'.cell r = h.cell r

/-- The same with a description `P` of the value left in `z` and of the returned value. -/
def Leaves {α : Type} (m : HM α) (h : Heap) (z : Nat) (P : U256 → α → Prop) : Prop :=
  ∃ a h', m h = .ok (a, h') ∧ h.next ≤ h'.next ∧ P (h'.cell z) a ∧ ∀ r, r < h.next → r ≠ z → h'.cell r = h.cell r

def Writes (m : HM Unit) (h : Heap) (z : Nat) (g : Go U256) : Prop :=
  match g with
  | .error e => m h = .error e
  | .ok v => Stores m h z v ()

end Uni.Spec
