import Verif.Proofs.Resume
import Verif.Props.Limit
import Verif.Props.Split
/-! # C114: stopping at a price limit and going on -/
namespace Uni
namespace Props
open U256 Spec TickData TickMath Pool

/-- C114, exact input: a trader sells `a` with limit `l`, is left with `rest` because the limit was reached, and sells that with a limit
`l'` at least as far.  Selling all of `a` with limit `l'` pays out at least as much, takes no more and moves the price at least as
far.  When token0 is sold the input must be below `2^95`; when token1 is sold the first swap must not leave the price where the search
for the next tick skips the end of a word. -/
theorem C114_input {h : List Entry} {p : Pool} (hr : Reachable h p) {fuel1 fuel2 fuel : Nat} {z : Bool} {a rest l l' : U256}
    {r1 r2 r : U256 × U256 × Pool} (hc : z = true → ClearAbove p.spacing p.tick h) (h0 : 0 < a.toInt) (hb : a.toInt < 2 ^ 160)
    (hb' : z = true → a.toInt < 2 ^ 95) (hl : Beyond z (stopAt z l) (stopAt z l')) (hrest : rest.toInt = a.toInt - sold z r1)
    (h1 : 0 < rest.toInt) (hk : z = false → ¬ Skips p.spacing r1.2.2.tick) (hx1 : p.swap fuel1 z a l = .ok r1)
    (hx2 : r1.2.2.swap fuel2 z rest l' = .ok r2) (hx : p.swap fuel z a l' = .ok r) :
    -bought z r1 + -bought z r2 ≤ -bought z r ∧ sold z r ≤ sold z r1 + sold z r2 ∧
      Further p.price.toNat r2.2.2.price.toNat r.2.2.price.toNat := by
  obtain ⟨q1, q2, _, q3, _⟩ := swap_resume (reachable_inv hr) hc hl (Or.inl ⟨h0, hrest, h1, hb, hb'⟩) hk hx1 hx2 hx
  exact ⟨by omega, q1, further_of (q3 h0).1 (q3 h0).2⟩

/-- C114, exact output: a trader buys an amount (`a` is its negative) with limit `l`, and then what is missing with a limit `l'` at least as far.
Buying everything with limit `l'` costs no more, pays out at least as much and moves the price no further.  When token1 is sold the
first swap must not leave the price where the search for the next tick skips the end of a word. -/
theorem C114_output {h : List Entry} {p : Pool} (hr : Reachable h p) {fuel1 fuel2 fuel : Nat} {z : Bool} {a rest l l' : U256}
    {r1 r2 r : U256 × U256 × Pool} (hc : z = true → ClearAbove p.spacing p.tick h) (h0 : a.toInt < 0)
    (hl : Beyond z (stopAt z l) (stopAt z l')) (hrest : rest.toInt = a.toInt - bought z r1) (h1 : rest.toInt < 0)
    (hk : z = false → ¬ Skips p.spacing r1.2.2.tick) (hx1 : p.swap fuel1 z a l = .ok r1)
    (hx2 : r1.2.2.swap fuel2 z rest l' = .ok r2) (hx : p.swap fuel z a l' = .ok r) :
    sold z r ≤ sold z r1 + sold z r2 ∧ -bought z r1 + -bought z r2 ≤ -bought z r ∧
      Further p.price.toNat r.2.2.price.toNat r2.2.2.price.toNat := by
  obtain ⟨q1, q2, _, _, q3⟩ := swap_resume (reachable_inv hr) hc hl (Or.inr ⟨h0, hrest, h1⟩) hk hx1 hx2 hx
  exact ⟨q1, by omega, further_of (q3 h0).1 (q3 h0).2⟩

-- 8000 token1 up to a limit, which takes 4300, and then the other 3700 without a limit, against 8000 at once
example : ∃ r1 r2 r, Reachable Demo.h3 Demo.p2 ∧ Demo.p2.swap 10 false (ofNat 8000) StopDemo.l1 = .ok r1 ∧
    r1.2.2.swap 10 false (ofNat 3700) zero = .ok r2 ∧ Demo.p2.swap 10 false (ofNat 8000) zero = .ok r ∧
    Beyond false (stopAt false StopDemo.l1) (stopAt false zero) ∧ (ofNat 3700).toInt = (ofNat 8000).toInt - sold false r1 ∧
    ¬ Skips Demo.p2.spacing r1.2.2.tick ∧ -bought false r1 + -bought false r2 = 7924 ∧ -bought false r = 7927 :=
  ⟨_, _, _, Demo.reachable Demo.r2, eq_getOk _ (by decide +kernel), eq_getOk _ (by decide +kernel), eq_getOk _ (by decide +kernel),
    (by decide +kernel : stopAt false StopDemo.l1 ≤ stopAt false zero), by decide +kernel, by decide +kernel, by decide +kernel, by decide +kernel⟩
-- 5000 token1 bought for token0 down to a limit, which gives 3013, and then the other 1987, against 5000 at once
example : ∃ r1 r2 r, Reachable Demo.h3 Demo.p3 ∧ Demo.p3.swap 10 true (ofNat (2 ^ 256 - 5000)) (ofNat 79517849175474180171587044230) = .ok r1 ∧
    r1.2.2.swap 10 true (ofNat (2 ^ 256 - 1987)) zero = .ok r2 ∧ Demo.p3.swap 10 true (ofNat (2 ^ 256 - 5000)) zero = .ok r ∧
    Beyond true (stopAt true (ofNat 79517849175474180171587044230)) (stopAt true zero) ∧
    (ofNat (2 ^ 256 - 1987)).toInt = (ofNat (2 ^ 256 - 5000)).toInt - bought true r1 ∧
    ClearAbove Demo.p3.spacing Demo.p3.tick Demo.h3 ∧ sold true r1 + sold true r2 = 4981 ∧ sold true r = 4980 :=
  ⟨_, _, _, Demo.reachable Demo.r3, eq_getOk _ (by decide +kernel), eq_getOk _ (by decide +kernel), eq_getOk _ (by decide +kernel),
    (by decide +kernel : stopAt true zero ≤ stopAt true (ofNat 79517849175474180171587044230)), by decide +kernel, clear_good Demo.good93,
    by decide +kernel, by decide +kernel⟩

/-- C114: the condition on where the first swap ends cannot be dropped.  In a pool at tick -200 with spacing 60 a trader who stops at
the limit and goes on gets more token0 for 7513 token1, and pays less token1 for 7500 token0. -/
theorem C114_skipped : ∃ h p l, Reachable h p ∧ Beyond false (stopAt false l) (stopAt false zero) ∧
    (∃ r1 r2 r : U256 × U256 × Pool, p.swap 10 false (ofNat 7513) l = .ok r1 ∧ (ofNat 3000).toInt = (ofNat 7513).toInt - sold false r1 ∧
      r1.2.2.swap 10 false (ofNat 3000) zero = .ok r2 ∧
      p.swap 10 false (ofNat 7513) zero = .ok r ∧ -bought false r < -bought false r1 + -bought false r2) ∧
    (∃ r1 r2 r : U256 × U256 × Pool, p.swap 10 false (ofNat (2 ^ 256 - 7500)) l = .ok r1 ∧
      (ofNat (2 ^ 256 - 2931)).toInt = (ofNat (2 ^ 256 - 7500)).toInt - bought false r1 ∧
      r1.2.2.swap 10 false (ofNat (2 ^ 256 - 2931)) zero = .ok r2 ∧
      p.swap 10 false (ofNat (2 ^ 256 - 7500)) zero = .ok r ∧ sold false r1 + sold false r2 < sold false r) :=
  ⟨SplitDemo.h1, SplitDemo.p1, ofNat 78796315845961052642085428625, SplitDemo.reachable,
    (by decide +kernel : stopAt false (ofNat 78796315845961052642085428625) ≤ stopAt false zero),
    ⟨_, _, _, eq_getOk _ (by decide +kernel), by decide +kernel, eq_getOk _ (by decide +kernel), eq_getOk _ (by decide +kernel), by decide +kernel⟩,
    ⟨_, _, _, eq_getOk _ (by decide +kernel), by decide +kernel, eq_getOk _ (by decide +kernel), eq_getOk _ (by decide +kernel), by decide +kernel⟩⟩

end Props
end Uni
