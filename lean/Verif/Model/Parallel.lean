import Verif.Model.Go
/-! # The goroutines of `main`

Small-step interleaving semantics: at each step the scheduler picks the main goroutine or one of the started
goroutines.  `N` is `mulUpperBound`, `B` the batch size (5000).  A goroutine computes its result in private steps
(`step`, from `start mul`); that its pool, strategy and snapshots are not shared with another goroutine is the subject
of `Model/Heap.lean`.  The slice `results` is shared.  Each access to `results` and each operation on the wait group is
one atomic step; the run-time panics of these (index out of range, negative counter) set `crashed`. -/
namespace Uni
namespace Parallel

/-- Where a goroutine is in `runAndAppend`.  `/repo/main.go:185-215` -/
inductive Phase (σ β : Type) where
  /-- in `execution.Run()` or the computation of the statistics -/
  | running (s : σ)
  /-- about to execute `results[i] = res` -/
  | computed (v : β)
  /-- returned, the deferred `wg.Done()` is still to be executed -/
  | wrote
  /-- `wg.Done()` executed -/
  | finished

/-- A started goroutine with its argument `i`. -/
structure Thread (σ β : Type) where
  i : Nat
  phase : Phase σ β

/-- Where the main goroutine is.  `/repo/main.go:76-90` -/
inductive MainPc where
  /-- at `for mul < mulUpperBound` -/
  | outer
  /-- at the condition of the inner loop -/
  | inner
  /-- `wg.Add(1)` executed, `go runAndAppend` not yet -/
  | added
  /-- at `wg.Wait()` -/
  | waiting
  /-- after the loop: `saveFile` has read the results -/
  | saved
  deriving DecidableEq

/-- A global state.  `saved` is the content of `results` at the call of `saveFile`; `writes` is a ghost variable: the
indices of `results` written so far, in order. -/
structure Cfg (σ β : Type) where
  pc : MainPc
  mul : Nat
  j : Nat
  count : Nat
  threads : List (Thread σ β)
  results : List (Option β)
  saved : Option (List (Option β))
  writes : List Nat
  crashed : Bool

variable {σ β : Type} (N B : Nat) (start : Nat → σ) (step : σ → σ ⊕ β)

/-- `/repo/main.go:69-76` the state before the loop; `none` is the zero value of a slot. -/
def init : Cfg σ β :=
  { pc := .outer, mul := 1, j := 0, count := 0, threads := [], results := List.replicate (N - 1) none, saved := none,
    writes := [], crashed := false }

/-- A step of the main goroutine.  `/repo/main.go:77-90`.  `none`: it is blocked in `wg.Wait()` or has ended. -/
def mainStep (c : Cfg σ β) : Option (Cfg σ β) :=
  match c.pc with
  | .outer =>
    if c.mul < N then some { c with pc := .inner, j := 0 }
    else some { c with pc := .saved, saved := some c.results }
  | .inner =>
    if c.j < B ∧ c.mul < N then some { c with pc := .added, count := c.count + 1 }
    else some { c with pc := .waiting }
  | .added =>
    let i := c.mul - 1
    some { c with pc := .inner, threads := c.threads ++ [⟨i, .running (start c.mul)⟩], j := c.j + 1, mul := c.mul + 1 }
  | .waiting => if c.count = 0 then some { c with pc := .outer } else none
  | .saved => none

/-- A step of the `k`-th started goroutine.  `/repo/main.go:185-215`.  `none`: there is no such goroutine or it has
ended. -/
def threadStep (k : Nat) (c : Cfg σ β) : Option (Cfg σ β) :=
  match c.threads[k]? with
  | none => none
  | some t =>
    match t.phase with
    | .running s =>
      match step s with
      | .inl s' => some { c with threads := c.threads.set k { t with phase := .running s' } }
      | .inr v => some { c with threads := c.threads.set k { t with phase := .computed v } }
    | .computed v =>
      if t.i < c.results.length then
        some { c with threads := c.threads.set k { t with phase := .wrote }, results := c.results.set t.i (some v),
                      writes := c.writes ++ [t.i] }
      else some { c with crashed := true }
    | .wrote =>
      if 0 < c.count then some { c with threads := c.threads.set k { t with phase := .finished }, count := c.count - 1 }
      else some { c with crashed := true }
    | .finished => none

/-- One step of the program under some choice of the scheduler; nothing runs after a panic. -/
inductive Step (c : Cfg σ β) : Cfg σ β → Prop
  | main {c'} : c.crashed = false → mainStep N B start c = some c' → Step c c'
  | thread {k c'} : c.crashed = false → threadStep step k c = some c' → Step c c'

/-- Reachable in `n` steps from the initial state. -/
inductive Runs : Nat → Cfg σ β → Prop
  | init : Runs 0 (init N)
  | step {n c c'} : Runs n c → Step N B start step c c' → Runs (n + 1) c'

end Parallel
end Uni
