import Verif.Spec.Market
import Verif.Proofs.Market
import Verif.Proofs.Demo
/-! # Swaps depend on the market only, not on the history behind it -/
namespace Uni
namespace Props
open U256 Pool Spec

/-- C74: two pools with the same fee rate, price, tick and outstanding liquidity in every range answer every swap in the same
way - the same amounts of both tokens, or the same error, or no answer within the same number of steps - and are still the
same market afterwards.  The order of their mints and burns, how a deposit was split, the swaps that brought them there, the
fees collected so far and the positions recorded make no difference. -/
theorem C74_history {h h' : List Entry} {p q : Pool} (hr : Reachable h p) (hr' : Reachable h' q) (hs : SameMarket h h' p q)
    (fuel : Nat) (z : Bool) (amount limit : U256) :
    SameEnd (fun r r' => r.1 = r'.1 ∧ r.2.1 = r'.2.1 ∧ r.2.2.liquidity = r'.2.2.liquidity ∧ SameMarket h h' r.2.2 r'.2.2)
      (p.swap fuel z amount limit) (q.swap fuel z amount limit) :=
  swap_same hr hr' hs fuel z amount limit

/-- The other history: the deposit on `[-120, 180)` made by plain mints, in two parts, the one on `[60, 240)` between them. -/
def demoLedger : List Entry := [⟨-120, 180, 600000⟩, ⟨60, 240, 2000000⟩, ⟨-120, 180, 400000⟩]

example : ∃ q, Reachable Demo.h3 Demo.p2 ∧ Reachable demoLedger q ∧ SameMarket Demo.h3 demoLedger Demo.p2 q ∧
    isOk (Demo.p2.swap 10 false (ofNat 8000) zero) = true := by
  have k1 : Reaches Demo.p0 [⟨-120, 180, 400000⟩] _ :=
    .step 10 (.mint (-120) 180 (ofNat 400000)) Demo.r0 (show total [] + ((ofNat 400000).toNat : Int) < 2 ^ 128 by decide +kernel)
      (eq_getOk _ (by decide +kernel))
  have k2 : Reaches Demo.p0 [⟨60, 240, 2000000⟩, ⟨-120, 180, 400000⟩] _ :=
    .step 10 (.mint 60 240 (ofNat 2000000)) k1
      (show total [⟨-120, 180, 400000⟩] + ((ofNat 2000000).toNat : Int) < 2 ^ 128 by decide +kernel) (eq_getOk _ (by decide +kernel))
  have k3 : Reaches Demo.p0 demoLedger _ :=
    .step 10 (.mint (-120) 180 (ofNat 600000)) k2
      (show total [⟨60, 240, 2000000⟩, ⟨-120, 180, 400000⟩] + ((ofNat 600000).toNat : Int) < 2 ^ 128 by decide +kernel)
      (eq_getOk _ (by decide +kernel))
  refine ⟨_, Demo.reachable Demo.r2, Demo.reachable k3, ⟨by decide +kernel, by decide +kernel, by decide +kernel, ?_⟩, by decide +kernel⟩
  intro l u
  by_cases a : (-120 : Int) = l ∧ (180 : Int) = u
  · obtain ⟨rfl, rfl⟩ := a; decide +kernel
  · by_cases b : (60 : Int) = l ∧ (240 : Int) = u
    · obtain ⟨rfl, rfl⟩ := b; decide +kernel
    · simp [outstanding, wsum, Demo.h3, demoLedger, a, b]

end Props
end Uni
