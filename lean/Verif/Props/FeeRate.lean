import Verif.Proofs.FeeRate
import Verif.Props.Monotone
/-! # C104: a higher fee is never better for the trader -/
namespace Uni
namespace Props
open U256 Pool Spec

/-- C104: the same exact-input swap on the same pool at two fee rates: at the lower rate it pays out at least as much and moves the
price at least as far. -/
theorem C104_input {h : List Entry} {p : Pool} (hr : Reachable h p) {high low : Int} (h0 : 0 ≤ low) (hle : low ≤ high)
    (h1 : high < 1000000) {fuel fuel' : Nat} {z : Bool} {a limit : U256} {r r' : U256 × U256 × Pool}
    (hc : z = true → ClearAbove p.spacing p.tick h) (ha : 0 < a.toInt) (hb : a.toInt < 2 ^ 160)
    (hx : swap fuel { p with fee := high } z a limit = .ok r) (hy : swap fuel' { p with fee := low } z a limit = .ok r') :
    -bought z r ≤ -bought z r' ∧ Further p.price.toNat r.2.2.price.toNat r'.2.2.price.toNat := by
  obtain ⟨k1, _, k2, k3⟩ := swap_fee_in (reachable_inv hr) h0 hle h1 hc ha hb hx hy
  exact ⟨by omega, further_of k2 k3⟩

/-- C104: the same exact-output swap at two fee rates pays out the same and moves the price to the same place, and at the lower rate
it costs no more. -/
theorem C104_output {h : List Entry} {p : Pool} (hr : Reachable h p) {high low : Int} (h0 : 0 ≤ low) (hle : low ≤ high)
    (h1 : high < 1000000) {fuel fuel' : Nat} {z : Bool} {a limit : U256} {r r' : U256 × U256 × Pool}
    (hc : z = true → ClearAbove p.spacing p.tick h) (ha : a.toInt < 0)
    (hx : swap fuel { p with fee := high } z a limit = .ok r) (hy : swap fuel' { p with fee := low } z a limit = .ok r') :
    bought z r' = bought z r ∧ sold z r' ≤ sold z r ∧ r'.2.2.price = r.2.2.price :=
  swap_fee_out (reachable_inv hr) h0 hle h1 hc ha hx hy

-- a purchase of token0 for 8000 token1, which crosses a tick, at 10% and at 0.05%
example : ∃ r r', Reachable Demo.h3 Demo.p2 ∧ swap 10 { Demo.p2 with fee := 100000 } false (ofNat 8000) zero = .ok r ∧
    swap 10 { Demo.p2 with fee := 500 } false (ofNat 8000) zero = .ok r' ∧ bought false r' < bought false r ∧
    r.2.2.price.toNat < r'.2.2.price.toNat :=
  ⟨_, _, Demo.reachable Demo.r2, eq_getOk _ (by decide +kernel), eq_getOk _ (by decide +kernel), by decide +kernel, by decide +kernel⟩
example : ∃ r r', Reachable Demo.h3 Demo.p3 ∧ swap 10 { Demo.p3 with fee := 100000 } true (ofNat (2 ^ 256 - 5000)) zero = .ok r ∧
    swap 10 { Demo.p3 with fee := 0 } true (ofNat (2 ^ 256 - 5000)) zero = .ok r' ∧ sold true r' < sold true r ∧
    ClearAbove Demo.p3.spacing Demo.p3.tick Demo.h3 :=
  ⟨_, _, Demo.reachable Demo.r3, eq_getOk _ (by decide +kernel), eq_getOk _ (by decide +kernel), by decide +kernel, clear_good Demo.good93⟩

end Props
end Uni
