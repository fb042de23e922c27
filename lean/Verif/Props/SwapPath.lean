import Verif.Proofs.SwapPath
import Verif.Proofs.Trading
/-! # C72, C73: the amounts of a swap, and trading against the pool -/
namespace Uni
namespace Props
open U256 Spec TickData TickMath Pool

/-- C72: a swap that returns moved the price along a path of legs, each with constant liquidity, from the old price to the
new one, until nothing remained or the limit was reached.  The trader paid the inputs and fees of the legs and received
their outputs, nothing more and nothing less.  The loop ran once per leg. -/
theorem C72_path (h : List Entry) (p : Pool) (hr : Reachable h p) (fuel : Nat) (z : Bool) (amount limit : U256)
    (r : U256 × U256 × Pool) (ha : amount.toInt < 2 ^ 160) (hg : z = true → ¬ SearchBroken p.spacing p.tick)
    (hx : p.swap fuel z amount limit = .ok r) :
    ∃ (legs : List Leg) (rem : Int),
      Path h p.spacing z p.fee.toNat (swapLimit z limit) p.price.toNat amount.toInt legs r.2.2.price.toNat rem ∧
      sold z r = ((legs.map (fun l => l.input + l.fee)).sum : Nat) ∧ bought z r = -((legs.map (·.output)).sum : Nat) ∧
      legs.length < fuel ∧ p.swap (legs.length + 1) z amount limit = .ok r := by
  obtain ⟨r0, r1, p'⟩ := r
  rw [swapLimit_eq]
  exact swap_path (reachable_inv hr) ha hg hx

/-- C72: what a trader receives for an exact input is at most one unit per iteration below what the price move frees in
the positions.  `n` is the number of iterations. -/
theorem C72_fair (h : List Entry) (p : Pool) (hr : Reachable h p) (fuel : Nat) (z : Bool) (amount limit : U256)
    (r : U256 × U256 × Pool) (h0 : 0 < amount.toInt) (ha : amount.toInt < 2 ^ 160) (hg : z = true → ¬ SearchBroken p.spacing p.tick)
    (hx : p.swap fuel z amount limit = .ok r) :
    ∃ n : Nat, n < fuel ∧ p.swap (n + 1) z amount limit = .ok r ∧
      (if z then principal1 h p.price.toNat - principal1 h r.2.2.price.toNat
        else principal0 h p.price.toNat - principal0 h r.2.2.price.toNat) ≤ ((-bought z r : Int) : ℚ) + n := by
  obtain ⟨legs, rem, h1, h2, h3, h4, h5⟩ := C72_path h p hr fuel z amount limit r ha hg hx
  have hi := reachable_inv hr
  have h6 := path_fair hi.cov hi.bounds h1
  refine ⟨legs.length, h4, h5, ?_⟩
  have e2 : ((-bought z r : Int) : ℚ) = ((legs.map (·.output)).sum : Nat) := by
    rw [h3, neg_neg]; rfl
  rw [e2]
  cases z
  · rw [if_neg (by decide)] at h6 ⊢
    exact h6.2 (by omega)
  · rw [if_pos rfl] at h6 ⊢
    exact h6.2 (by omega)

/-- C72: what a trader pays for an exact output is at most the need of the positions plus one unit per iteration, plus the
fee rate on that, plus one more unit per iteration. -/
theorem C72_cost (h : List Entry) (p : Pool) (hr : Reachable h p) (fuel : Nat) (z : Bool) (amount limit : U256)
    (r : U256 × U256 × Pool) (h0 : amount.toInt < 0) (hg : z = true → ¬ SearchBroken p.spacing p.tick)
    (hx : p.swap fuel z amount limit = .ok r) :
    ∃ n : Nat, n < fuel ∧ p.swap (n + 1) z amount limit = .ok r ∧
      ((sold z r : Int) : ℚ) ≤ ((if z then principal0 h r.2.2.price.toNat - principal0 h p.price.toNat
        else principal1 h r.2.2.price.toNat - principal1 h p.price.toNat) + n) * 1000000 / (1000000 - p.fee) + n := by
  obtain ⟨legs, rem, h1, h2, h3, h4, h5⟩ := C72_path h p hr fuel z amount limit r (by omega) hg hx
  have hi := reachable_inv hr
  have h6 := path_fair hi.cov hi.bounds h1
  have f0 := hi.fee0
  have f1 := hi.fee1
  have h7 := path_cost (by omega) h1 (by omega)
  refine ⟨legs.length, h4, h5, ?_⟩
  have e1 : ((sold z r : Int) : ℚ) = ((legs.map (fun l => l.input + l.fee)).sum : Nat) := by
    rw [h2]; rfl
  have e3 : ((1000000 - p.fee.toNat : Nat) : ℚ) = 1000000 - (p.fee : ℚ) := by
    have : ((1000000 - p.fee.toNat : Nat) : Int) = 1000000 - p.fee := by omega
    have : (((1000000 - p.fee.toNat : Nat) : Int) : ℚ) = ((1000000 - p.fee : Int) : ℚ) := by rw [this]
    push_cast at this
    exact this
  have hpos : (0 : ℚ) < 1000000 - (p.fee : ℚ) := by
    rw [← e3]; exact_mod_cast (by omega)
  have h8 : (((legs.map (fun l => l.input + l.fee)).sum * (1000000 - p.fee.toNat) : Nat) : ℚ) ≤
      (((legs.map (·.input)).sum * 1000000 + legs.length * (1000000 - p.fee.toNat) : Nat) : ℚ) := by exact_mod_cast h7
  rw [Nat.cast_add, Nat.cast_mul, Nat.cast_mul, Nat.cast_mul, e3] at h8
  have h9 : (((legs.map (·.input)).sum : Nat) : ℚ) ≤ (if z then principal0 h r.2.2.price.toNat - principal0 h p.price.toNat
        else principal1 h r.2.2.price.toNat - principal1 h p.price.toNat) + legs.length := by
    cases z
    · rw [if_neg (by decide)] at h6 ⊢; exact h6.1
    · rw [if_pos rfl] at h6 ⊢; exact h6.1
  rw [e1, div_add' _ _ _ (ne_of_gt hpos), le_div_iff₀ hpos]
  push_cast at h8 h9 ⊢
  linarith

-- a swap of token1 that crosses tick 60 and a swap of token0 back
example : ∃ r, Demo.p2.swap 10 false (ofNat 8000) zero = .ok r ∧ Reachable Demo.h3 Demo.p2 :=
  ⟨_, eq_getOk _ (by decide +kernel), Demo.reachable Demo.r2⟩
example : ∃ r, Demo.p2.swap 10 false (ofNat (2 ^ 256 - 5000)) zero = .ok r ∧ (ofNat (2 ^ 256 - 5000)).toInt = -5000 :=
  ⟨_, eq_getOk _ (by decide +kernel), by decide +kernel⟩
example : ∃ r, Demo.p3.swap 10 true (ofNat 1000) zero = .ok r ∧ Reachable Demo.h3 Demo.p3 ∧ ¬ SearchBroken Demo.p3.spacing Demo.p3.tick :=
  ⟨_, eq_getOk _ (by decide +kernel), Demo.reachable Demo.r3, Demo.good93⟩

/-- C73: while the liquidity stays as it is, no sequence of swaps - by one or by many traders, in any order and
direction - makes a profit: if the traders together pay nothing of either token, they receive nothing either.  In
particular trading back and forth never pays. -/
theorem C73_no_profit (h : List Entry) (p q : Pool) (hr : Reachable h p) (d0 d1 : Int) (ht : Trades h p q d0 d1)
    (h0 : d0 ≤ 0) (h1 : d1 ≤ 0) : d0 = 0 ∧ d1 = 0 := by
  obtain ⟨e0, e1⟩ := trades_lose (reachable_inv hr) ht
  rcases le_total p.price.toNat q.price.toNat with hle | hle
  · obtain ⟨k1, k2⟩ := e0 hle
    have := k2 (by omega)
    omega
  · obtain ⟨k1, k2⟩ := e1 hle
    have := k2 (by omega)
    omega

/-- C73: traders who moved the price up, or left it where it was, paid token1; traders who moved it down or left it paid
token0. -/
theorem C73_direction (h : List Entry) (p q : Pool) (hr : Reachable h p) (d0 d1 : Int) (ht : Trades h p q d0 d1) :
    (p.price.toNat ≤ q.price.toNat → 0 ≤ d1) ∧ (q.price.toNat ≤ p.price.toNat → 0 ≤ d0) := by
  obtain ⟨e0, e1⟩ := trades_lose (reachable_inv hr) ht
  exact ⟨fun hle => (e0 hle).1, fun hle => (e1 hle).1⟩

/-- Buy token0 for 8000 token1, then sell 500 token0: the traders end up with less token1 and a little token0. -/
example : ∃ q d0 d1, Trades Demo.h3 Demo.p2 q d0 d1 ∧ d0 < 0 ∧ 0 < d1 := by
  have k1 := Trades.swap 10 Demo.op3 (.none (h := Demo.h3) (p := Demo.p2)) trivial Demo.a3 (fun h => absurd h (by decide +kernel))
    (demo_swap (q := Demo.p3) (by decide +kernel) rfl)
  have k2 := Trades.swap 10 (.exactInput (ofNat 500) "WETH" zero) k1 trivial ⟨by decide +kernel, fun _ => clear_good Demo.good93⟩ (fun _ => Demo.good93)
    (eq_getOk _ (by decide +kernel))
  exact ⟨_, _, _, k2, by decide +kernel, by decide +kernel⟩

end Props
end Uni
