import Verif.Model.PtrStrategy
import Verif.Model.Main
/-! # The goroutines of `main` on memory

`Model/Parallel.lean` lets a goroutine compute in private.  Here the goroutines are programs on memory and the scheduler picks, for
every single access to a word of a number, who goes on: the main goroutine, which constructs the strategies and executions, or one
of the started goroutines, which run them.  The numbers that existed when a goroutine was started are shared: it sees what the others
write there, at once, and they see what it writes.

Simplification: a goroutine numbers the numbers it allocates itself, from `base` on, and they live in an arena of its own
(`own`); a pointer below `base` is a shared number, one from `base` on is its own.  Go gives such numbers addresses that no other
goroutine has; nothing in the program depends on the value of an address.  What a number holds before it is allocated does not
matter.

The reports are computed from the recorded numbers as in `Model/Main.lean`: each recorded number is read once. -/
namespace Uni
namespace Conc
open U256 InPlace

/-- Where a goroutine is in `runAndAppend`.  `/repo/main.go:185-215` -/
inductive Phase (β : Type) where
  /-- in `execution.Run()` or the computation of the statistics: what it still has to do -/
  | running (m : HM β)
  /-- about to execute `results[i] = res` -/
  | computed (v : β)
  /-- returned, the deferred `wg.Done()` is still to be executed -/
  | wrote
  /-- `wg.Done()` executed -/
  | finished

/-- A started goroutine with its argument `i` (`/repo/main.go:85`) and the numbers it has allocated. -/
structure Thread (β : Type) where
  i : Nat
  base : Nat
  phase : Phase β
  own : Nat → U256
  next : Nat

/-- Where the main goroutine is.  `/repo/main.go:76-90` -/
inductive MainPc (γ : Type) where
  /-- at `for mul < mulUpperBound` -/
  | outer
  /-- at the condition of the inner loop -/
  | inner
  /-- constructing the strategy and the execution: what it still has to do -/
  | making (m : HM γ)
  /-- the execution is made, `wg.Add(1)` not yet executed -/
  | made (e : γ)
  /-- `wg.Add(1)` executed, `go runAndAppend` not yet -/
  | added (e : γ)
  /-- at `wg.Wait()` -/
  | waiting
  /-- after the loop: `saveFile` has read the results -/
  | saved

/-- A global state (`/repo/main.go:68-90`).  `heap` holds the shared numbers.  `saved` is the content of `results` at the call of
`saveFile`; `crashed` is the panic that has ended the program. -/
structure Cfg (γ β : Type) where
  pc : MainPc γ
  mul : Nat
  j : Nat
  count : Nat
  heap : Heap
  threads : List (Thread β)
  results : List (Option β)
  saved : Option (List (Option β))
  writes : List Nat
  crashed : Option Err

variable {γ β : Type} (N B : Nat) (make : Nat → HM γ) (prog : Nat → γ → HM β)

/-- `/repo/main.go:69-76` the state before the loop, on the memory `h`. -/
def init (h : Heap) : Cfg γ β :=
  { pc := .outer, mul := 1, j := 0, count := 0, heap := h, threads := [], results := List.replicate (N - 1) none, saved := none,
    writes := [], crashed := none }

/-- A step of the main goroutine.  `/repo/main.go:77-90`.  `none`: it is blocked in `wg.Wait()` or has ended. -/
def mainStep (c : Cfg γ β) : Option (Cfg γ β) :=
  match c.pc with
  | .outer =>
    if c.mul < N then some { c with pc := .inner, j := 0 }
    else some { c with pc := .saved, saved := some c.results }
  | .inner =>
    if c.j < B ∧ c.mul < N then some { c with pc := .making (make c.mul) }
    else some { c with pc := .waiting }
  | .making m =>
    match m with
    | .ret e => some { c with pc := .made e }
    | .fail e => some { c with crashed := some e }
    | .rd x i k => some { c with pc := .making (k ((c.heap.cell x).word i)) }
    | .wr z i w k => some { c with pc := .making k, heap := c.heap.write z ((c.heap.cell z).setWord i w) }
    | .new v k => some { c with pc := .making (k (c.heap.alloc v).1), heap := (c.heap.alloc v).2 }
  | .made e => some { c with pc := .added e, count := c.count + 1 }
  | .added e =>
    let i := c.mul - 1
    let t : Thread β := ⟨i, c.heap.next, .running (prog c.mul e), c.heap.cell, c.heap.next⟩
    some { c with pc := .inner, threads := c.threads ++ [t], j := c.j + 1, mul := c.mul + 1 }
  | .waiting => if c.count = 0 then some { c with pc := .outer } else none
  | .saved => none

/-- The memory as a goroutine sees it: the shared numbers and its own ones (`/repo/main.go:185-215`). -/
def Thread.view (t : Thread β) (h : Heap) : Heap := ⟨fun x => if x < t.base then h.cell x else t.own x, t.next⟩

/-- A step of the `k`-th started goroutine.  `/repo/main.go:185-215`.  `none`: there is no such goroutine or it has ended. -/
def threadStep (k : Nat) (c : Cfg γ β) : Option (Cfg γ β) :=
  match c.threads[k]? with
  | none => none
  | some t =>
    match t.phase with
    | .running m =>
      match m with
      | .ret v => some { c with threads := c.threads.set k { t with phase := .computed v } }
      | .fail e => some { c with crashed := some e }
      | .rd x i m => some { c with threads := c.threads.set k { t with phase := .running (m (((t.view c.heap).cell x).word i)) } }
      | .wr z i w m =>
        let v := ((t.view c.heap).cell z).setWord i w
        if z < t.base then some { c with threads := c.threads.set k { t with phase := .running m }, heap := c.heap.write z v }
        else some { c with threads := c.threads.set k { t with phase := .running m, own := fun y => if y = z then v else t.own y } }
      | .new v m =>
        some { c with threads := c.threads.set k { t with
          phase := .running (m t.next), own := fun y => if y = t.next then v else t.own y, next := t.next + 1 } }
    | .computed v =>
      if t.i < c.results.length then
        some { c with threads := c.threads.set k { t with phase := .wrote }, results := c.results.set t.i (some v),
                      writes := c.writes ++ [t.i] }
      else some { c with crashed := some .panic }
    | .wrote =>
      if 0 < c.count then some { c with threads := c.threads.set k { t with phase := .finished }, count := c.count - 1 }
      else some { c with crashed := some .panic }
    | .finished => none

/-- One step of the program under some choice of the scheduler; nothing runs after a panic. -/
inductive Step (c : Cfg γ β) : Cfg γ β → Prop
  | main {c'} : c.crashed = none → mainStep N B make prog c = some c' → Step c c'
  | thread {k c'} : c.crashed = none → threadStep k c = some c' → Step c c'

/-- The states the program can reach from the memory `h`. -/
inductive Reach (h : Heap) : Cfg γ β → Prop
  | init : Reach h (init N h)
  | step {c c'} : Reach h c → Step N B make prog c c' → Reach h c'

/-! ### The programs of the goroutines -/

/-- `/repo/main.go:80-84` the main goroutine constructs strategy and execution for one multiplier; `kind` is the strategy
(`NewBollingerBandsFillUpStrategy(…, amountHistorySnapshots, mul)`). -/
def makeExecution (kind : Kind) (startAmount0 startAmount1 : Nat) (pool : HPool)
    (startTime endTime updateInterval snapshotInterval priceHistoryInterval : Int) (transactions : List Ptr.HTrans) : HM Ptr.HExec := do
  let strategy ← Ptr.newStrat kind startAmount0 startAmount1 pool
  lift (Ptr.create strategy startTime endTime updateInterval snapshotInterval priceHistoryInterval transactions)

/-- `/repo/main.go:192-200` the values of the recorded numbers. -/
def loads : List Nat → HM (List U256)
  | [] => return []
  | x :: xs => do
    let v ← load x
    let vs ← loads xs
    return v :: vs

/-- `/repo/main.go:185-213` `runAndAppend` without the store into `results`. -/
noncomputable def runExecution (fuel : Nat) (execution : Ptr.HExec) (mul duration updateInterval : Int) : HM Main.RunResult := do
  let r ← Ptr.run execution fuel
  let snapshots ← loads r.snapshots
  lift (Main.report snapshots mul duration updateInterval)

end Conc
end Uni
