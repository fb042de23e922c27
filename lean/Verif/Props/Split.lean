import Verif.Proofs.Split
import Verif.Props.Monotone
/-! # Splitting a trade -/
namespace Uni
namespace Props
open U256 Pool Spec

/-- C84: an exact-input swap pays out at least as much, takes no more, and moves the price at least as far, as the same input
swapped in two parts, one after the other, with the same price limit.  When token0 is sold the input must be below `2^95`; when token1 is
sold the first part must not leave the price where the search for the next tick skips the end of a word. -/
theorem C84_input {h : List Entry} {p : Pool} (hr : Reachable h p) {fuel1 fuel2 fuel : Nat} {z : Bool} {a1 a2 a limit : U256}
    {r1 r2 r : U256 × U256 × Pool} (hc : z = true → ClearAbove p.spacing p.tick h) (h1 : 0 < a1.toInt) (h2 : 0 < a2.toInt)
    (ha : a.toInt = a1.toInt + a2.toInt) (hb : a.toInt < 2 ^ 160) (hb' : z = true → a.toInt < 2 ^ 95)
    (hk : z = false → ¬ Skips p.spacing r1.2.2.tick) (hx1 : p.swap fuel1 z a1 limit = .ok r1)
    (hx2 : r1.2.2.swap fuel2 z a2 limit = .ok r2) (hx : p.swap fuel z a limit = .ok r) :
    -bought z r1 + -bought z r2 ≤ -bought z r ∧ sold z r ≤ sold z r1 + sold z r2 ∧
      Further p.price.toNat r2.2.2.price.toNat r.2.2.price.toNat := by
  obtain ⟨q1, q2, _, q3, _⟩ := swap_split (reachable_inv hr) hc ha (Or.inl ⟨h1, h2, hb, hb'⟩) hk hx1 hx2 hx
  exact ⟨by omega, q1, further_of (q3 h1).1 (q3 h1).2⟩

/-- C84: an exact-output swap costs no more, pays out at least as much, and moves the price no further, than the same output
bought in two parts, one after the other, with the same price limit.  When token1 is sold the first part must not leave the price where
the search for the next tick skips the end of a word. -/
theorem C84_output {h : List Entry} {p : Pool} (hr : Reachable h p) {fuel1 fuel2 fuel : Nat} {z : Bool} {a1 a2 a limit : U256}
    {r1 r2 r : U256 × U256 × Pool} (hc : z = true → ClearAbove p.spacing p.tick h) (h1 : a1.toInt < 0) (h2 : a2.toInt < 0)
    (ha : a.toInt = a1.toInt + a2.toInt) (hk : z = false → ¬ Skips p.spacing r1.2.2.tick) (hx1 : p.swap fuel1 z a1 limit = .ok r1)
    (hx2 : r1.2.2.swap fuel2 z a2 limit = .ok r2) (hx : p.swap fuel z a limit = .ok r) :
    sold z r ≤ sold z r1 + sold z r2 ∧ -bought z r1 + -bought z r2 ≤ -bought z r ∧
      Further p.price.toNat r.2.2.price.toNat r2.2.2.price.toNat := by
  obtain ⟨q1, q2, _, _, q3⟩ := swap_split (reachable_inv hr) hc ha (Or.inr ⟨h1, h2⟩) hk hx1 hx2 hx
  exact ⟨q1, by omega, further_of (q3 h1).1 (q3 h1).2⟩

-- 500 and then 7500 token1, against 8000 at once, which crosses a tick; the single trade pays more
example : ∃ r1 r2 r, Reachable Demo.h3 Demo.p2 ∧ Demo.p2.swap 10 false (ofNat 500) zero = .ok r1 ∧
    r1.2.2.swap 10 false (ofNat 7500) zero = .ok r2 ∧ Demo.p2.swap 10 false (ofNat 8000) zero = .ok r ∧
    (ofNat 8000).toInt = (ofNat 500).toInt + (ofNat 7500).toInt ∧ ¬ Skips Demo.p2.spacing r1.2.2.tick ∧
    bought false r < bought false r1 + bought false r2 :=
  ⟨_, _, _, Demo.reachable Demo.r2, eq_getOk _ (by decide +kernel), eq_getOk _ (by decide +kernel), eq_getOk _ (by decide +kernel),
    by decide +kernel, by decide +kernel, by decide +kernel⟩
-- 320 and then 4680 token1 bought for token0, against 5000 at once; the single trade costs less
example : ∃ r1 r2 r, Reachable Demo.h3 Demo.p3 ∧ Demo.p3.swap 10 true (ofNat (2 ^ 256 - 320)) zero = .ok r1 ∧
    r1.2.2.swap 10 true (ofNat (2 ^ 256 - 4680)) zero = .ok r2 ∧ Demo.p3.swap 10 true (ofNat (2 ^ 256 - 5000)) zero = .ok r ∧
    (ofNat (2 ^ 256 - 5000)).toInt = (ofNat (2 ^ 256 - 320)).toInt + (ofNat (2 ^ 256 - 4680)).toInt ∧
    ClearAbove Demo.p3.spacing Demo.p3.tick Demo.h3 ∧ sold true r < sold true r1 + sold true r2 :=
  ⟨_, _, _, Demo.reachable Demo.r3, eq_getOk _ (by decide +kernel), eq_getOk _ (by decide +kernel), eq_getOk _ (by decide +kernel),
    by decide +kernel, clear_good Demo.good93, by decide +kernel⟩

namespace SplitDemo
/-- A pool at tick -200, and a position on `[-600, 600)`. -/
def p0 : Pool := ⟨"WETH", "USDC", 3000, ofNat 78439868342809377387252074393, zero, zero, zero, 60, -200, ⟨[], 60⟩, fun _ => none⟩
def p1 : Pool := ⟨"WETH", "USDC", 3000, ofNat 78439868342809377387252074393, ofNat 1000000, zero, zero, 60, -200,
  ⟨[⟨-600, ofNat 1000000, ofNat 1000000, zero, zero⟩, ⟨600, neg (ofNat 1000000), ofNat 1000000, zero, zero⟩], 60⟩, fun _ => none⟩
def h1 : List Entry := [⟨-600, 600, 1000000⟩]
theorem reachable : Reachable h1 p1 :=
  ⟨"WETH", "USDC", 3000, ofNat 78439868342809377387252074393, p0, Or.inr (Or.inl rfl), demo_new (by decide +kernel) rfl,
    .step 10 (.mint (-600) 600 (ofNat 1000000)) .start (show total [] + ((ofNat 1000000).toNat : Int) < 2 ^ 128 by decide +kernel)
      (demo_mint (by decide +kernel) rfl)⟩
end SplitDemo

/-- C84: the condition on where the first part ends cannot be dropped.  In a pool at tick -200 with spacing 60 a trader who
splits 7513 token1 into 4513 and 3000 gets more token0, and one who buys 7500 token0 as 4500 and 3000 pays less. -/
theorem C84_skipped : ∃ h p, Reachable h p ∧
    (∃ r1 r2 r : U256 × U256 × Pool, p.swap 10 false (ofNat 4513) zero = .ok r1 ∧ r1.2.2.swap 10 false (ofNat 3000) zero = .ok r2 ∧
      p.swap 10 false (ofNat 7513) zero = .ok r ∧ -bought false r < -bought false r1 + -bought false r2) ∧
    (∃ r1 r2 r : U256 × U256 × Pool, p.swap 10 false (ofNat (2 ^ 256 - 4500)) zero = .ok r1 ∧
      r1.2.2.swap 10 false (ofNat (2 ^ 256 - 3000)) zero = .ok r2 ∧
      p.swap 10 false (ofNat (2 ^ 256 - 7500)) zero = .ok r ∧ sold false r1 + sold false r2 < sold false r) :=
  ⟨SplitDemo.h1, SplitDemo.p1, SplitDemo.reachable,
    ⟨_, _, _, eq_getOk _ (by decide +kernel), eq_getOk _ (by decide +kernel), eq_getOk _ (by decide +kernel), by decide +kernel⟩,
    ⟨_, _, _, eq_getOk _ (by decide +kernel), eq_getOk _ (by decide +kernel), eq_getOk _ (by decide +kernel), by decide +kernel⟩⟩

end Props
end Uni
