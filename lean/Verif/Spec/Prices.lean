/-! Specification of the price history. -/
namespace Uni
namespace Spec

/-- The last `n` values recorded, zero where fewer than `n` have been recorded. -/
def window (n : Nat) (vs : List Nat) : List Nat := (List.replicate n 0 ++ vs).drop vs.length

/-- Sum of squared deviations from `a`. -/
def deviation (a : Nat) (vs : List Nat) : Nat := (vs.map fun (v : Nat) => (((v : Int) - a) * ((v : Int) - a)).toNat).sum

end Spec
end Uni
