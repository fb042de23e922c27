import Verif.Model.Fuzz
import Verif.Spec.InPlace
/-! # What a method under test computes -/
namespace Uni
namespace Spec

/-- On every memory and for every choice of the pointers, coincidences included, `op z x` leaves `f` of the operand in `z`, returns
`z` and changes no other number. -/
def Computes1 (op : Nat → Nat → HM Nat) (f : U256 → U256) : Prop :=
  ∀ (h : Heap) (z x : Nat), z < h.next → x < h.next → Stores (op z x) h z (f (h.cell x)) z

/-- The same for two operands. -/
def Computes2 (op : Nat → Nat → Nat → HM Nat) (f : U256 → U256 → U256) : Prop :=
  ∀ (h : Heap) (z x y : Nat), z < h.next → x < h.next → y < h.next → Stores (op z x y) h z (f (h.cell x) (h.cell y)) z

/-- The same for three operands. -/
def Computes3 (op : Nat → Nat → Nat → Nat → HM Nat) (f : U256 → U256 → U256 → U256) : Prop :=
  ∀ (h : Heap) (z x y w : Nat), z < h.next → x < h.next → y < h.next → w < h.next →
    Stores (op z x y w) h z (f (h.cell x) (h.cell y) (h.cell w)) z

/-- Apart from new numbers, `m` changes only numbers that are in `used`. -/
def Within {α : Type} (m : HM α) (used : List Nat) : Prop :=
  ∀ (h h' : Heap) (r : α), m h = .ok (r, h') → ∀ q, q < h.next → q ∉ used → h'.cell q = h.cell q

/-- On the memory `h` the program returns the pointer `z`, with the number `v` in it. -/
def Gives (m : HM Nat) (h : Heap) (z : Nat) (v : U256) (h' : Heap) : Prop := m h = .ok (z, h') ∧ h'.cell z = v

/-- What a passed check says about a method with one operand at the input `a`: there are three runs that give `v`.  In the first
the receiver is a new number, and the operand is unchanged; in the second the receiver holds another number; the third is in
place, on what the second has left in the operand. -/
def Tested1 (op : Nat → Nat → HM Nat) (a v : U256) : Prop :=
  ∃ (x r g : Nat) (h1 h1' h2 h2' h3 : Heap), x ≠ r ∧ x ≠ g ∧
    (h1.cell x = a ∧ h1.cell r = U256.zero ∧ Gives (op r x) h1 r v h1' ∧ h1'.cell x = a) ∧
    (h2.cell x = a ∧ (h2.cell g).toNat = 2 ^ 256 - 1 ∧ Gives (op g x) h2 g v h2') ∧
    Gives (op x x) h2' x v h3

/-- The same for two operands: a new receiver, another receiver (in both cases the operands are unchanged), in place of the first
operand, and in place of the second, on what the run before has left in it. -/
def Tested2 (op : Nat → Nat → Nat → HM Nat) (a b v : U256) : Prop :=
  ∃ (x y o r g : Nat) (h1 h1' h2 h2' h3 h4 : Heap), [x, y, o, r].Nodup ∧ [x, y, o, g].Nodup ∧
    (h1.cell x = a ∧ h1.cell y = b ∧ h1.cell r = U256.zero ∧ Gives (op r x y) h1 r v h1' ∧ h1'.cell x = a ∧ h1'.cell y = b) ∧
    (h2.cell x = a ∧ h2.cell y = b ∧ (h2.cell g).toNat = a.toNat ^^^ b.toNat ∧ Gives (op g x y) h2 g v h2' ∧ h2'.cell x = a ∧ h2'.cell y = b) ∧
    Gives (op x x y) h2' x v h3 ∧
    (h3.cell o = a ∧ Gives (op y o y) h3 y v h4)

/-- The same for three operands; the last three runs, in place of an operand, are one after the other. -/
def Tested3 (op : Nat → Nat → Nat → Nat → HM Nat) (a b c v : U256) : Prop :=
  ∃ (x y z o o' r g : Nat) (h1 h1' h2 h2' h3 h4 h5 : Heap), [x, y, z, o, o', r].Nodup ∧ [x, y, z, o, o', g].Nodup ∧
    (h1.cell x = a ∧ h1.cell y = b ∧ h1.cell z = c ∧ h1.cell r = U256.zero ∧ Gives (op r x y z) h1 r v h1' ∧
      h1'.cell x = a ∧ h1'.cell y = b ∧ h1'.cell z = c) ∧
    (h2.cell x = a ∧ h2.cell y = b ∧ h2.cell z = c ∧ (h2.cell g).toNat = a.toNat ^^^ b.toNat ∧ Gives (op g x y z) h2 g v h2' ∧
      h2'.cell x = a ∧ h2'.cell y = b ∧ h2'.cell z = c) ∧
    Gives (op x x y z) h2' x v h3 ∧
    (h3.cell o = a ∧ Gives (op y o y z) h3 y v h4) ∧
    (h4.cell o' = b ∧ Gives (op z o o' z) h4 z v h5)

end Spec
end Uni
