import Verif.Spec.Main
/-! # Accuracy of the statistics -/
namespace Uni.Spec

/-- The function is the natural logarithm up to one unit in the last place. -/
def LogUlp (lg : ℚ → ℚ) : Prop := ∀ x : ℚ, 0 < x → |(lg x : ℝ) - Real.log x| ≤ |Real.log x| / 2 ^ 52

/-- The root of the sum of the squares divided by one less than the number of returns: about the size of a typical return. -/
noncomputable def typical (rs : List ℝ) : ℝ := Real.sqrt ((rs.map fun r => r ^ 2).sum / ((rs.length : ℝ) - 1))

/-- The accuracy of the standard deviation: `2^-41` plus `sqrt n * 2^-23` times the size of a typical return. -/
noncomputable def tolerance (rs : List ℝ) : ℝ := 1 / 2 ^ 41 + Real.sqrt rs.length / 2 ^ 23 * typical rs

end Uni.Spec
