import Mathlib.Data.Int.Basic
/-! # Where the upward search for the next tick skips the end of a word

The tick store is searched in words of 256 ticks.  The code computes the word of a tick with Go's division, which rounds towards zero.
Upwards from a negative tick that lies strictly inside the last spacing before the end of a word (`/repo/lib/tickdata/tickdata.go:167-189`
adds one to the quotient first) it therefore searches the following word, and a swap does not stop at the end of the first one. -/
namespace Uni
namespace Spec

/-- The upward search from `tick` skips the end of the word `tick` is in. -/
def Skips (sp tick : Int) : Prop := tick < 0 ∧ ¬ sp ∣ tick ∧ 256 ∣ Int.tdiv tick sp + 1

instance (sp tick : Int) : Decidable (Skips sp tick) := by unfold Skips; infer_instance

end Spec
end Uni
