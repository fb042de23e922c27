import Verif.Spec.Pool
/-! # Vocabulary of the properties of sales of token0 (C88) -/
namespace Uni
namespace Spec
open U256

/-- A wall of a pool with the given tick spacing: a multiple of 256 spacings at or below tick zero, inside the global
tick range. -/
def Wall (spacing w : Int) : Prop := w ≤ 0 ∧ -887272 ≤ w ∧ ∃ k : Int, w = 256 * k * spacing

/-- The whole amount was traded: an exact input (a positive amount) was sold, or an exact output (a negative amount)
was bought, in full. -/
def FullyTraded (zeroForOne : Bool) (amount : U256) (r : U256 × U256 × Pool) : Prop :=
  if 0 ≤ amount.toInt then sold zeroForOne r = amount.toInt else bought zeroForOne r = amount.toInt

/-- The second of two amounts of the same kind is at least as large: both are sold, or both are bought. -/
def AtLeast (a b : U256) : Prop := (0 < a.toInt ∧ a.toInt ≤ b.toInt) ∨ (b.toInt ≤ a.toInt ∧ a.toInt < 0)

/-- The call returns, if it is given enough time. -/
def Finishes {α : Type} (call : Nat → Go α) : Prop := ∃ fuel r, call fuel = .ok r

/-- The call runs for ever. -/
def Hangs {α : Type} (call : Nat → Go α) : Prop := ∀ fuel, call fuel = .error .fuel

end Spec
end Uni
