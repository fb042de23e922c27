import Verif.Proofs.Quote
import Verif.Props.Monotone
import Verif.Proofs.Local
/-! # C101: quotes for exact input and for exact output agree -/
namespace Uni
namespace Props
open U256 Pool Spec

theorem view_init {h : List Entry} {p : Pool} (hi : Inv h p) (z : Bool) (a b : U256) : View (initState p z a) (initState p z b) :=
  ⟨rfl, rfl, rfl, hi.ticks.inc, hi.ticks.inc, rfl, by show p.ticks.spacing ≠ 0; have := hi.sp_pos; have := hi.spacing; omega, fun _ => rfl⟩

theorem going_init (p : Pool) (z : Bool) : ∃ up, (up = false → z = true) ∧ ∀ x : U256, Going up p.spacing z (initState p z x) := by
  cases z
  · exact ⟨true, by decide, fun _ => Or.inl rfl⟩
  · by_cases hgd : Good p.spacing p.tick
    · exact ⟨false, fun _ => rfl, fun _ => ⟨rfl, Or.inl hgd⟩⟩
    · exact ⟨true, fun _ => rfl, fun _ => Or.inr ⟨rfl, hgd⟩⟩

/-- C101: a swap that asks for less than what an exact-input swap paid, with the same price limit, gets all it asks for, costs no more
than the exact-input swap, and moves the price no further. -/
theorem C101_output {h : List Entry} {p : Pool} (hr : Reachable h p) {fuel fuel' : Nat} {z : Bool} {a b limit : U256}
    {r r' : U256 × U256 × Pool} (hc : z = true → ClearAbove p.spacing p.tick h) (h0 : 0 < a.toInt) (ha : a.toInt < 2 ^ 160) (hb : b.toInt < 0)
    (hx : p.swap fuel z a limit = .ok r) (hy : p.swap fuel' z b limit = .ok r') (hlt : -b.toInt < -bought z r) :
    bought z r' = b.toInt ∧ sold z r' ≤ sold z r ∧ Further p.price.toNat r'.2.2.price.toNat r.2.2.price.toNat := by
  have hi := reachable_inv hr
  obtain ⟨r0, r1, p'⟩ := r
  obtain ⟨u0, u1, q'⟩ := r'
  obtain ⟨_, h2, s, h3, h4, h5⟩ := swap_eq hx
  obtain ⟨_, _, t, k3, k4, k5⟩ := swap_eq hy
  have h6 := init_sinv hi (amount := a) ha h2 hc
  have k6 := init_sinv hi (amount := b) (by omega) h2 hc
  have ea : decide (0 ≤ a.toInt) = true := decide_eq_true (by omega)
  have eb : decide (0 ≤ b.toInt) = false := decide_eq_false (by omega)
  obtain ⟨up, _, hg⟩ := going_init p z
  have h6' := h6
  have k6' := k6
  have h3' := h3
  have k3' := k3
  rw [ea] at h6' h3'
  rw [eb] at k6' k3'
  obtain ⟨i, o, f, ra, _, rest⟩ := loop_quote_out hi.fee0 hi.fee1 fuel h6' (hg a) h3'
  obtain ⟨_, h7, _⟩ := loop_run h6 hi.fee0 hi.fee1 h3
  obtain ⟨_, k7, _⟩ := loop_run k6 hi.fee0 hi.fee1 k3
  have ra' := ra
  rw [← ea] at ra'
  obtain ⟨a1, a2⟩ := swap_amounts hi h6 ra' h7 (p' := p') h4
  rw [a2] at hlt
  obtain ⟨i', o', f', rb, q1, q2, q3⟩ := rest fuel' _ t k6' (view_init hi z a b) (hg b) (Or.inr (by show -b.toInt < o; omega)) k3'
  have hah := (run_going rb (hg b)).2
  rw [← eb] at rb
  obtain ⟨b1, b2⟩ := swap_amounts hi k6 rb k7 (p' := q') k4
  rw [a1, b1, b2]
  change (o' : Int) = -b.toInt at q2
  subst h5 k5
  exact ⟨by omega, by omega, further_of hah q3⟩

/-- C101: an exact-input swap of at least what an exact-output swap cost, with the same price limit, pays at least as much as that did,
takes at least as much, and moves the price at least as far if that got all it asked for.  (When token0 is sold, the product of amount
and price must be below `2^255`.) -/
theorem C101_input {h : List Entry} {p : Pool} (hr : Reachable h p) {fuel fuel' : Nat} {z : Bool} {a b limit : U256}
    {r r' : U256 × U256 × Pool} (hc : z = true → ClearAbove p.spacing p.tick h) (h0 : 0 < a.toInt) (ha : a.toInt < 2 ^ 160) (hb : b.toInt < 0)
    (hsmall : z = true → a.toInt * p.price.toNat < 2 ^ 255)
    (hx : p.swap fuel z b limit = .ok r) (hy : p.swap fuel' z a limit = .ok r') (hle : sold z r ≤ a.toInt) :
    -bought z r ≤ -bought z r' ∧ sold z r ≤ sold z r' ∧
      (bought z r = b.toInt → Further p.price.toNat r.2.2.price.toNat r'.2.2.price.toNat) := by
  have hi := reachable_inv hr
  obtain ⟨r0, r1, p'⟩ := r
  obtain ⟨u0, u1, q'⟩ := r'
  obtain ⟨_, h2, s, h3, h4, h5⟩ := swap_eq hx
  obtain ⟨_, _, t, k3, k4, k5⟩ := swap_eq hy
  have h6 := init_sinv hi (amount := b) (by omega) h2 hc
  have k6 := init_sinv hi (amount := a) ha h2 hc
  have ea : decide (0 ≤ a.toInt) = true := decide_eq_true (by omega)
  have eb : decide (0 ≤ b.toInt) = false := decide_eq_false (by omega)
  obtain ⟨up, hup, hg⟩ := going_init p z
  have h6' := h6
  have k6' := k6
  have h3' := h3
  have k3' := k3
  rw [eb] at h6' h3'
  rw [ea] at k6' k3'
  obtain ⟨i, o, f, ra, _, rest⟩ := loop_quote_in hi.fee0 hi.fee1 fuel h6' (hg b) h3'
  obtain ⟨_, h7, _⟩ := loop_run h6 hi.fee0 hi.fee1 h3
  obtain ⟨_, k7, _⟩ := loop_run k6 hi.fee0 hi.fee1 k3
  have hrem := (run_rem ra).2 rfl
  change s.remaining.toInt = b.toInt + o at hrem
  have hah := (run_going ra (hg b)).2
  have ra' := ra
  rw [← eb] at ra'
  obtain ⟨a1, a2⟩ := swap_amounts hi h6 ra' h7 (p' := p') h4
  rw [a1] at hle
  obtain ⟨i', o', f', rb, q1, q2, q3⟩ := rest fuel' _ t k6' (view_init hi z b a) (hg a) (by show ((i + f : Nat) : Int) ≤ a.toInt; push_cast; omega)
    (fun he => hsmall (hup he)) k3'
  rw [← ea] at rb
  obtain ⟨b1, b2⟩ := swap_amounts hi k6 rb k7 (p' := q') k4
  rw [a1, a2, b1, b2]
  subst h5 k5
  exact ⟨by omega, by omega, fun he => further_of hah (q3 (by omega))⟩

/-- C101: an exact-input swap of less than what an exact-output swap costs pays no more than that asks for. -/
theorem C101_least {h : List Entry} {p : Pool} (hr : Reachable h p) {fuel fuel' : Nat} {z : Bool} {a b limit : U256}
    {r r' : U256 × U256 × Pool} (hc : z = true → ClearAbove p.spacing p.tick h) (h0 : 0 < a.toInt) (ha : a.toInt < 2 ^ 160) (hb : b.toInt < 0)
    (hx : p.swap fuel z b limit = .ok r) (hy : p.swap fuel' z a limit = .ok r') (hlt : a.toInt < sold z r) :
    -bought z r' ≤ -b.toInt := by
  by_contra hc'
  have h1 := (C101_output hr hc h0 ha hb hy hx (by omega)).2.1
  have h2 := (C26_exact_input h p hr fuel' z a limit r' h0 ha hc hy).2.1
  omega

/-- C101: asking for exactly what an exact-input swap paid may cost more than that did: a purchase with 3014 of token1 pays 2995 of token0
and ends below tick 60, a purchase of 2995 goes on to tick 60 and costs 3015. -/
theorem C101_equal_counterexample : ∃ r r', Reachable Demo.h3 Demo.p2 ∧ Demo.p2.swap 10 false (ofNat 3014) zero = .ok r ∧
    Demo.p2.swap 10 false (neg (ofNat 2995)) zero = .ok r' ∧ bought false r = -2995 ∧ bought false r' = -2995 ∧
    sold false r = 3014 ∧ sold false r' = 3015 ∧ r.2.2.price.toNat < r'.2.2.price.toNat :=
  ⟨_, _, Demo.reachable Demo.r2, eq_getOk _ (by decide +kernel), eq_getOk _ (by decide +kernel), by decide +kernel, by decide +kernel,
    by decide +kernel, by decide +kernel, by decide +kernel⟩

/-! ### Instances -/

-- a purchase with 6052 pays 6000 or more (it crosses tick 60); one with 6051 no more than 6000; asking for 5999 costs no more than 6052
example : ∃ r r', Reachable Demo.h3 Demo.p2 ∧ Demo.p2.swap 10 false (neg (ofNat 6000)) zero = .ok r ∧
    Demo.p2.swap 10 false (ofNat 6052) zero = .ok r' ∧ sold false r ≤ (ofNat 6052).toInt ∧ bought false r = -6000 ∧
    (ofNat 6051).toInt < sold false r ∧ 60 < r.2.2.tick ∧ (neg (ofNat 5999)).toInt < 0 ∧ -(neg (ofNat 5999)).toInt < -bought false r' :=
  ⟨_, _, Demo.reachable Demo.r2, eq_getOk _ (by decide +kernel), eq_getOk _ (by decide +kernel), by decide +kernel, by decide +kernel,
    by decide +kernel, by decide +kernel, by decide +kernel, by decide +kernel⟩

-- a sale at tick 93: 5000 of token1 cost 4980 of token0
example : ∃ r r', Reachable Demo.h3 Demo.p3 ∧ Demo.p3.swap 10 true (neg (ofNat 5000)) zero = .ok r ∧
    Demo.p3.swap 10 true (ofNat 4980) zero = .ok r' ∧ sold true r ≤ (ofNat 4980).toInt ∧ bought true r = -5000 ∧
    ClearAbove Demo.p3.spacing Demo.p3.tick Demo.h3 ∧ (ofNat 4980).toInt * Demo.p3.price.toNat < 2 ^ 255 ∧
    (neg (ofNat 4000)).toInt < 0 ∧ -(neg (ofNat 4000)).toInt < -bought true r' :=
  ⟨_, _, Demo.reachable Demo.r3, eq_getOk _ (by decide +kernel), eq_getOk _ (by decide +kernel), by decide +kernel, by decide +kernel,
    clear_good Demo.good93, by decide +kernel, by decide +kernel, by decide +kernel⟩

end Props
end Uni
