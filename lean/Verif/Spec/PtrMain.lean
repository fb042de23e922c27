import Verif.Model.PtrMain
import Verif.Spec.PtrRuns
/-! # Data races

A goroutine that is about to read or to write something is described by what it touches.  There is a race when two goroutines are about
to touch the same thing and at least one of them to write it. -/
namespace Uni
namespace Spec
open Conc

/-- What goroutines can share: a 256-bit number or an entry of the slice of results. -/
inductive Place where
  | number (x : Nat)
  | slot (i : Nat)

/-- The next step of the program writes (`w = true`) or reads (`w = false`) a word of number `x`. -/
def Touches {α : Type} (m : HM α) (w : Bool) (x : Nat) : Prop :=
  match m with
  | .rd y _ _ => w = false ∧ x = y
  | .wr y _ _ _ => w = true ∧ x = y
  | _ => False

/-- What a started goroutine touches with its next step; numbers of its own do not count. -/
def threadTouches {β : Type} (t : Thread β) (w : Bool) (p : Place) : Prop :=
  match t.phase, p with
  | .running m, .number x => Touches m w x ∧ x < t.base
  | .computed _, .slot i => w = true ∧ i = t.i
  | _, _ => False

/-- What the main goroutine touches with its next step; `saveFile` reads all results. -/
def mainTouches {γ β : Type} (N : Nat) (c : Cfg γ β) (w : Bool) (p : Place) : Prop :=
  match c.pc, p with
  | .making m, .number x => Touches m w x
  | .outer, .slot _ => w = false ∧ ¬ c.mul < N
  | _, _ => False

/-- `none` is the main goroutine, `some k` the `k`-th started one. -/
def touches {γ β : Type} (N : Nat) (c : Cfg γ β) (g : Option Nat) (w : Bool) (p : Place) : Prop :=
  match g with
  | none => mainTouches N c w p
  | some k => ∃ t, c.threads[k]? = some t ∧ threadTouches t w p

/-- Two goroutines are about to touch the same thing, one of them to write it. -/
def Race {γ β : Type} (N : Nat) (c : Cfg γ β) : Prop :=
  ∃ g g' p w, g ≠ g' ∧ touches N c g true p ∧ touches N c g' w p

/-! ### The program -/

/-- What `main` does with the pointers: `N` is `mulUpperBound`, `B` the size of a batch; simulation `mul` has the parameters
`job mul`. -/
structure Params where
  N : Nat
  B : Nat
  fuel : Nat
  duration : Int
  updateInterval : Int
  job : Nat → Job

variable (q : Params) (x : PInputs) (pool : HPool)

def Params.make (mul : Nat) : HM Ptr.HExec :=
  let j := q.job mul
  makeExecution j.kind x.amount0 x.amount1 pool j.startTime j.endTime j.updateInterval j.snapShotInterval j.priceSnapshotInterval
    x.transactions

noncomputable def Params.prog (mul : Nat) (e : Ptr.HExec) : HM Main.RunResult :=
  runExecution q.fuel e mul q.duration q.updateInterval

/-- The states of the program from the memory `h` on, with the pool of the simulations. -/
abbrev Params.Reach (h : Heap) (c : Cfg Ptr.HExec Main.RunResult) : Prop := Conc.Reach q.N q.B (q.make x pool) q.prog h c

abbrev Params.Step (c c' : Cfg Ptr.HExec Main.RunResult) : Prop := Conc.Step q.N q.B (q.make x pool) q.prog c c'

/-- Simulation `mul` alone, on values: nothing is shared and nothing is interleaved. -/
noncomputable def Params.alone (v : VInputs) (mul : Nat) : Go Main.RunResult := do
  let pool ← Pool.new v.token0 v.token1 v.fee v.price
  let e ← (q.job mul).onValues q.fuel v pool
  Main.report e.snapshots mul q.duration q.updateInterval

end Spec
end Uni
