import Verif.Model.IEEE
/-! # The two number formats side by side -/
namespace Uni
namespace Spec

/-- A number of the simplified format (one zero, unlimited exponent) in the IEEE 754 format: the zero is the positive one. -/
def ieee : F64 → B64
  | .nan => .nan
  | .inf s => .inf s
  | .fin q => if q = 0 then .zero false else .num q

/-- NaN, an infinity, the positive zero, or a number whose size is between `2^-k` and `2^k`. -/
def Normal (k : Int) : B64 → Prop
  | .nan => True
  | .inf _ => True
  | .zero s => s = false
  | .num q => 2 ^ (-k) ≤ |q| ∧ |q| ≤ 2 ^ k

/-- The results of the function are float64 numbers (53-bit significand). -/
def Rounded (lg : ℚ → ℚ) : Prop := ∀ x, ∃ m e : Int, |m| ≤ 2 ^ 53 ∧ lg x = m * 2 ^ e

end Spec
end Uni
