import Verif.Proofs.Limit
import Verif.Props.Monotone
/-! # C113: what a price limit does -/
namespace Uni
namespace Props
open U256 Spec TickData TickMath Pool

/-- C113: if a swap ends before its price limit, then every limit further away gives exactly the same result: the same
amounts and the same pool. -/
theorem C113_same {h : List Entry} {p : Pool} (hr : Reachable h p) {fuel fuel' : Nat} {z : Bool} {a l l' : U256}
    {r r' : U256 × U256 × Pool} (hc : z = true → ClearAbove p.spacing p.tick h) (ha : a.toInt < 2 ^ 160)
    (hbig : z = true → a.toInt < 2 ^ 95) (hl : Beyond z (stopAt z l) (stopAt z l'))
    (hx : p.swap fuel z a l = .ok r) (hy : p.swap fuel' z a l' = .ok r') (hb : r.2.2.price.toNat ≠ stopAt z l) : r' = r :=
  (swap_limit (reachable_inv hr) hc ha hbig hl hx hy).1 hb

/-- C113, exact input: with a limit further away the swap takes at least as much, pays at least as much and moves the price
at least as far. -/
theorem C113_input {h : List Entry} {p : Pool} (hr : Reachable h p) {fuel fuel' : Nat} {z : Bool} {a l l' : U256}
    {r r' : U256 × U256 × Pool} (hc : z = true → ClearAbove p.spacing p.tick h) (h0 : 0 < a.toInt) (ha : a.toInt < 2 ^ 160)
    (hbig : z = true → a.toInt < 2 ^ 95) (hl : Beyond z (stopAt z l) (stopAt z l'))
    (hx : p.swap fuel z a l = .ok r) (hy : p.swap fuel' z a l' = .ok r') :
    sold z r ≤ sold z r' ∧ -bought z r ≤ -bought z r' ∧ Further p.price.toNat r.2.2.price.toNat r'.2.2.price.toNat := by
  obtain ⟨_, h2, h3⟩ := swap_limit (reachable_inv hr) hc ha hbig hl hx hy
  rcases h3 with ⟨h3, up, h4, h5⟩ | ⟨h3, _⟩
  · exact ⟨h3, by omega, further_of h4 h5⟩
  · omega

/-- C113, exact output: with a limit further away the swap pays at least as much.  It also takes at least as much and moves
the price at least as far, unless both swaps pay out everything that was asked for. -/
theorem C113_output {h : List Entry} {p : Pool} (hr : Reachable h p) {fuel fuel' : Nat} {z : Bool} {a l l' : U256}
    {r r' : U256 × U256 × Pool} (hc : z = true → ClearAbove p.spacing p.tick h) (h0 : a.toInt < 0)
    (hl : Beyond z (stopAt z l) (stopAt z l'))
    (hx : p.swap fuel z a l = .ok r) (hy : p.swap fuel' z a l' = .ok r') :
    -bought z r ≤ -bought z r' ∧
      ((sold z r ≤ sold z r' ∧ Further p.price.toNat r.2.2.price.toNat r'.2.2.price.toNat) ∨
        (bought z r = a.toInt ∧ bought z r' = a.toInt)) := by
  obtain ⟨_, h2, h3⟩ := swap_limit (reachable_inv hr) hc (by omega) (by omega) hl hx hy
  refine ⟨by omega, ?_⟩
  rcases h3 with ⟨h3, up, h4, h5⟩ | ⟨_, h3⟩
  · exact Or.inl ⟨h3, further_of h4 h5⟩
  · exact Or.inr h3

/-- C113: for sales of token1 nothing has to be assumed of the second swap: if the first one ends before its limit, then
with every valid limit further away the swap returns, and with the same result. -/
theorem C113_up {h : List Entry} {p : Pool} (hr : Reachable h p) {fuel : Nat} {a l l' : U256} {r : U256 × U256 × Pool}
    (ha : a.toInt < 2 ^ 160) (hl : Beyond false (stopAt false l) (stopAt false l')) (hv : LimitValid p false l')
    (hx : p.swap fuel false a l = .ok r) (hb : r.2.2.price.toNat ≠ stopAt false l) :
    ∀ fuel', (887272 - p.tick).toNat + 2 ≤ fuel' → p.swap fuel' false a l' = .ok r := by
  intro fuel' hf
  have hi := reachable_inv hr
  obtain ⟨r0, r1, p'⟩ := r
  obtain ⟨h1, h2, s, h3, h4, h5⟩ := swap_eq hx
  have h0 : a.toNat ≠ 0 := fun hc => h1 (toInt_eq_zero.2 hc)
  have hliq : ∃ t, grossAt h t ≠ 0 := by
    by_contra hc
    have hf0 : 0 < fuel := by
      cases fuel with
      | zero => cases h3
      | succ => omega
    rw [C27_empty h p hr a l false h0 ((limitValid_iff _ _ _).2 h2) (fun t => by_contra fun ht => hc ⟨t, ht⟩) fuel hf0] at hx
    cases hx
  obtain ⟨r', hr'⟩ := C27_up h p hr a l' h0 ha hv hliq fuel' hf
  rw [hr', C113_same hr (fun e => absurd e (by decide)) ha (fun e => absurd e (by decide)) hl hx hr' hb]

/-! ### Concrete swaps -/

namespace StopDemo

def l1 : U256 := ofNat 79500000000000000000000000000
def l2 : U256 := ofNat 79900000000000000000000000000

/-- A pool with little liquidity. -/
def op : PoolOp := .mint (-6000) 6000 (ofNat 100)
def thin : Pool := getOk (op.exec 10 Demo.p0) (by decide +kernel)
theorem reachable : Reachable [⟨-6000, 6000, 100⟩] thin :=
  Demo.reachable (.step 10 op Demo.r0 (show total [] + ((ofNat 100).toNat : Int) < 2 ^ 128 by decide +kernel) (eq_getOk _ (by decide +kernel)))
def near : U256 := ofNat 80820000000000000000000000000
def m1 : U256 := ofNat (2 ^ 256 - 1)
theorem oks : isOk (Demo.p2.swap 10 false (ofNat 8000) l1) ∧ isOk (Demo.p2.swap 10 false (ofNat 8000) l2) ∧
    isOk (Demo.p2.swap 10 false (ofNat 8000) zero) ∧ isOk (thin.swap 10 false m1 near) ∧ isOk (thin.swap 10 false m1 zero) := by
  decide +kernel

end StopDemo

/-- C113: the exception is real: in a pool with little liquidity, one unit of token0 is bought with and without a limit; with
the limit the swap moves the price further and costs more. -/
theorem C113_exception : ∃ (h : List Entry) (p : Pool) (l l' a : U256) (r r' : U256 × U256 × Pool), Reachable h p ∧ a.toInt < 0 ∧
    Beyond false (stopAt false l) (stopAt false l') ∧ p.swap 10 false a l = .ok r ∧ p.swap 10 false a l' = .ok r' ∧
    r.2.2.price.toNat = stopAt false l ∧ r'.2.2.price.toNat < r.2.2.price.toNat ∧ bought false r = bought false r' ∧
    sold false r' < sold false r :=
  ⟨_, StopDemo.thin, StopDemo.near, zero, StopDemo.m1, getOk _ StopDemo.oks.2.2.2.1, getOk _ StopDemo.oks.2.2.2.2, StopDemo.reachable,
    by decide +kernel, (by decide +kernel : stopAt false StopDemo.near ≤ stopAt false zero), eq_getOk _ _, eq_getOk _ _, by decide +kernel, by decide +kernel, by decide +kernel,
    by decide +kernel⟩

open StopDemo in
/-- C113: a sale of 8000 token1 that crosses a tick: the first limit is reached; the second is not, and gives the same as no
limit. -/
example : ∃ r1 r2 r3, Reachable Demo.h3 Demo.p2 ∧ Demo.p2.swap 10 false (ofNat 8000) l1 = .ok r1 ∧
    Demo.p2.swap 10 false (ofNat 8000) l2 = .ok r2 ∧ Demo.p2.swap 10 false (ofNat 8000) zero = .ok r3 ∧
    Beyond false (stopAt false l1) (stopAt false l2) ∧ Beyond false (stopAt false l2) (stopAt false zero) ∧
    r1.2.2.price.toNat = stopAt false l1 ∧ sold false r1 = 4300 ∧ bought false r1 = -4266 ∧
    r2.2.2.price.toNat ≠ stopAt false l2 ∧ sold false r2 = 8000 ∧ bought false r3 = -7927 :=
  ⟨getOk _ oks.1, getOk _ oks.2.1, getOk _ oks.2.2.1, Demo.reachable Demo.r2, eq_getOk _ _, eq_getOk _ _, eq_getOk _ _,
    (by decide +kernel : stopAt false l1 ≤ stopAt false l2), (by decide +kernel : stopAt false l2 ≤ stopAt false zero),
    by decide +kernel, by decide +kernel, by decide +kernel, by decide +kernel, by decide +kernel, by decide +kernel⟩

end Props
end Uni
