/-!
# Go run time behaviour used by the model

Panics are explicit values.  `Err.panic` is any Go run-time panic (index out of range, integer division by
zero, `invariant.Invariant` failing); `Err.fuel` says that a loop of the model used up its step budget, i.e.
nothing is known about the Go loop except that it has not finished after that many iterations.
-/
namespace Uni

/-- Outcomes of a Go call that are not a normal return. -/
inductive Err where
  | panic
  | fuel
  deriving DecidableEq, Repr

/-- A Go computation that may panic. -/
abbrev Go (α : Type) := Except Err α

/-- Go panics are values in the model. -/
def goPanic {α : Type} : Go α := .error .panic

/-- `/repo/lib/invariant/invariant.go:3-7` `Invariant`: panic unless the condition holds. -/
def invariant (c : Bool) : Go Unit := if c then .ok () else .error .panic

/-- Slice read `xs[i]` with Go's bounds check (index given as a Go `int`). -/
def idx {α : Type} (xs : List α) (i : Int) : Go α :=
  if 0 ≤ i then
    match xs[i.toNat]? with
    | some a => .ok a
    | none => .error .panic
  else .error .panic

/-- Slice write `xs[i] = a` with Go's bounds check. -/
def setIdx {α : Type} (xs : List α) (i : Int) (a : α) : Go (List α) :=
  if 0 ≤ i ∧ i.toNat < xs.length then .ok (xs.set i.toNat a) else .error .panic

end Uni
