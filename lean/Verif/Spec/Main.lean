import Mathlib.Analysis.Real.Sqrt
import Mathlib.Analysis.SpecialFunctions.Log.Basic
/-! # What the reported statistics mean (independent of the model) -/
namespace Uni.Spec

/-- Relative change from `a` to `b`. -/
def change (a b : Nat) : ℚ := ((b : ℚ) - a) / a

/-- `q` is the worst relative change from an earlier (or the same) non-zero value to a later one, up to an error of
`ε`: it exceeds none of them by more than `ε`, and it is within `ε` of one of them. -/
def WorstLoss (vs : List Nat) (q ε : ℚ) : Prop :=
  (∀ (i j a b : Nat), i ≤ j → vs[i]? = some a → vs[j]? = some b → 0 < a → q ≤ change a b + ε) ∧
  ∃ (i j a b : Nat), i ≤ j ∧ vs[i]? = some a ∧ vs[j]? = some b ∧ 0 < a ∧ |q - change a b| ≤ ε

/-- `ys` consists of the entries of `xs` at the multiples of `k`. -/
def EveryNth {α : Type} (k : Nat) (xs ys : List α) : Prop :=
  (∀ j, ys[j]? = xs[k * j]?) ∧ ys.length = (xs.length + (k - 1)) / k

/-- The log returns of a series: one entry per pair of neighbours. -/
def LogReturns (vs : List Nat) (rs : List ℝ) : Prop :=
  rs.length = vs.length - 1 ∧
  ∀ (i a b : Nat), vs[i]? = some a → vs[i + 1]? = some b → rs[i]? = some (Real.log b - Real.log a)

/-- Arithmetic mean. -/
noncomputable def mean (rs : List ℝ) : ℝ := rs.sum / rs.length

/-- Sample variance (Bessel's correction). -/
noncomputable def variance (rs : List ℝ) : ℝ := (rs.map fun r => (r - mean rs) ^ 2).sum / ((rs.length : ℝ) - 1)

/-- Mean of the squares of the losses (gains count as zero). -/
noncomputable def lossSquare (rs : List ℝ) : ℝ := (rs.map fun r => (min r 0) ^ 2).sum / rs.length

open Classical in
/-- `v` is the entry with `k` entries before it when `rs` is sorted. -/
def AtRank (rs : List ℝ) (k : Nat) (v : ℝ) : Prop :=
  v ∈ rs ∧ rs.countP (fun r => decide (r < v)) ≤ k ∧ k < rs.countP (fun r => decide (r ≤ v))

/-- `x` is the sample standard deviation of the log returns of the series; 0 for fewer than two returns. -/
def StdOf (vs : List Nat) (x : ℝ) : Prop :=
  (vs.length ≤ 2 → x = 0) ∧ (3 ≤ vs.length → ∃ rs, LogReturns vs rs ∧ x = Real.sqrt (variance rs))

/-- `x` is the root of the mean square of the negative log returns of the series; 0 for fewer than two returns. -/
def DownOf (vs : List Nat) (x : ℝ) : Prop :=
  (vs.length ≤ 2 → x = 0) ∧ (3 ≤ vs.length → ∃ rs, LogReturns vs rs ∧ x = Real.sqrt (lossSquare rs))

/-- `x` is the 5% quantile of the log returns of the series: the entry that has a twentieth of the returns (rounded
down) before it in sorted order; 0 for fewer than two returns. -/
def VarOf (vs : List Nat) (x : ℝ) : Prop :=
  (vs.length ≤ 2 → x = 0) ∧ (3 ≤ vs.length → ∃ rs, LogReturns vs rs ∧ AtRank rs (rs.length / 20) x)

end Uni.Spec
