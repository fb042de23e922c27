import Verif.Model.InPlace
/-! # Which numbers a program may touch

A program that starts when the cells below `base` exist may be allowed to read some of them and to write some of them.  The
cells from `base` on are its own: it allocates them itself. -/
namespace Uni

/-- Rights to the cells below `base`.  A cell that may be written may be read. -/
structure Rights where
  base : Nat
  read : Nat → Prop
  write : Nat → Prop

namespace Rights

def canRead (c : Rights) (x : Nat) : Prop := c.read x ∨ c.write x ∨ c.base ≤ x

def canWrite (c : Rights) (x : Nat) : Prop := c.write x ∨ c.base ≤ x

end Rights

/-- The program `m`, run alone on the heap `h`, keeps to the rights `c`: every word it reads belongs to a number it may
read, every word it writes belongs to a number it may write, up to the end or to the panic. -/
def HM.Keeps {α : Type} (c : Rights) (m : HM α) (h : Heap) : Prop :=
  match m with
  | .ret _ => True
  | .fail _ => True
  | .rd x i k => c.canRead x ∧ (k ((h.cell x).word i)).Keeps c h
  | .wr z i w k => c.canWrite z ∧ k.Keeps c (h.write z ((h.cell z).setWord i w))
  | .new v k => (k (h.alloc v).1).Keeps c (h.alloc v).2

end Uni
