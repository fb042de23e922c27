import Verif.Model.U256
/-! # A heap of 256-bit numbers

`*ui.Int` pointers are addresses of cells. -/
namespace Uni
open U256

/-- A heap of 256-bit numbers; the cells from `next` on are not allocated.  The run-time behaviour of `new(ui.Int)`. -/
structure Heap where
  cell : Nat → U256
  next : Nat

namespace Heap

/-- In-place update of the number a pointer refers to. -/
def write (h : Heap) (r : Nat) (v : U256) : Heap := { h with cell := fun k => if k = r then v else h.cell k }

/-- A new number: its reference and the heap.  (`new(ui.Int).Set(v)`, `v.Clone()`, `ui.NewInt(v)`.) -/
def alloc (h : Heap) (v : U256) : Nat × Heap :=
  (h.next, { cell := fun k => if k = h.next then v else h.cell k, next := h.next + 1 })

end Heap
end Uni
