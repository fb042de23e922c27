import Verif.Spec.Pool
/-! # Vocabulary for positions -/
namespace Uni
namespace Spec

/-- Is the integer a Unicode scalar value (a code point that is not a surrogate)? -/
def IsScalar (t : Int) : Prop := (0 ≤ t ∧ t < 0xD800) ∨ (0xDFFF < t ∧ t < 0x110000)

instance (t : Int) : Decidable (IsScalar t) := by unfold IsScalar; infer_instance

/-- The code point a tick is turned into: itself if it is a scalar value, the replacement character otherwise. -/
def codePoint (t : Int) : Int := if IsScalar t then t else 0xFFFD

/-- The operation reads or writes the position record of the range `[a, b)`. -/
def PoolOp.usesRecord (a b : Int) : PoolOp → Prop
  | .mintStrategy l u _ => l = a ∧ u = b
  | .burnStrategy l u _ => l = a ∧ u = b
  | .collectStrategy l u => l = a ∧ u = b
  | _ => False

end Spec
end Uni
