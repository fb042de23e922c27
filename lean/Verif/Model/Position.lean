import Verif.Model.FullMath
/-! # `lib/position` -/
namespace Uni
open U256 FullMath

/-- `/repo/lib/position/position.go:19-25` `Info`. -/
structure Info where
  liquidity : U256
  inside0 : U256
  inside1 : U256
  owed0 : U256
  owed1 : U256
  deriving DecidableEq, Repr

namespace Info

/-- `/repo/lib/position/position.go:27-35` `NewPosition`. -/
def new : Info := ⟨zero, zero, zero, zero, zero⟩

/-- `/repo/lib/position/position.go:9-17` `Clone` (the owed amount of token0 is taken from token1, as in the code). -/
def clone (i : Info) : Info := ⟨i.liquidity, i.inside0, i.inside1, i.owed1, i.owed1⟩

/-- `/repo/lib/position/position.go:37-48` `Update`. -/
def update (i : Info) (delta in0 in1 : U256) : Go Info := do
  let owed0 ← mulDiv (sub in0 i.inside0) i.liquidity Cons.q128
  let owed1 ← mulDiv (sub in1 i.inside1) i.liquidity Cons.q128
  return ⟨add i.liquidity delta, in0, in1, add i.owed0 owed0, add i.owed1 owed1⟩

end Info
end Uni
