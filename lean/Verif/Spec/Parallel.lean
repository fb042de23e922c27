import Mathlib.Data.List.Perm.Basic
/-! # A sequential run of one simulation -/
namespace Uni.Spec

/-- Running alone from state `s`, the program returns `v` after `n` steps. -/
def ReturnsIn {σ β : Type} (step : σ → σ ⊕ β) : Nat → σ → β → Prop
  | 0, _, _ => False
  | n + 1, s, v => match step s with
    | .inl s' => ReturnsIn step n s' v
    | .inr w => n = 0 ∧ w = v

/-- Running alone from state `s`, the program returns `v`. -/
def Returns {σ β : Type} (step : σ → σ ⊕ β) (s : σ) (v : β) : Prop := ∃ n, ReturnsIn step n s v

end Uni.Spec
