import Verif.Proofs.Monotone
import Verif.Proofs.Demo
/-! # Larger trades -/
namespace Uni
namespace Props
open U256 Pool Spec

/-- The second price is at least as far from the start as the first, in the same direction. -/
def Further (start first second : Nat) : Prop := (start ≤ first ∧ first ≤ second) ∨ (second ≤ first ∧ first ≤ start)

theorem further_of {up : Bool} {a b c : Nat} (h1 : Ahead up a b) (h2 : Ahead up b c) : Further a b c := by
  unfold Further
  unfold Ahead at h1 h2
  cases up
  · rw [if_neg (by decide)] at h1 h2; omega
  · rw [if_pos rfl] at h1 h2; omega

/-- C75: of two exact-input swaps of the same token on the same pool, with the same price limit, the larger one takes at least
as much, pays out at least as much, and moves the price at least as far. -/
theorem C75_input {h : List Entry} {p : Pool} (hr : Reachable h p) {fuel fuel' : Nat} {z : Bool} {a b limit : U256}
    {r r' : U256 × U256 × Pool} (hc : z = true → ClearAbove p.spacing p.tick h) (ha : 0 < a.toInt) (hab : a.toInt ≤ b.toInt)
    (hb : b.toInt < 2 ^ 160) (hx : p.swap fuel z a limit = .ok r) (hy : p.swap fuel' z b limit = .ok r') :
    sold z r ≤ sold z r' ∧ -bought z r ≤ -bought z r' ∧ Further p.price.toNat r.2.2.price.toNat r'.2.2.price.toNat := by
  obtain ⟨h1, h2, _, h3, h4⟩ := swap_mono (reachable_inv hr) hc (Or.inl ⟨ha, hab, hb⟩) hx hy
  exact ⟨h1, by omega, further_of h3 h4⟩

/-- C75: of two exact-output swaps for the same token on the same pool, with the same price limit, the one that asks for more
costs at least as much, pays out at least as much, and moves the price at least as far. -/
theorem C75_output {h : List Entry} {p : Pool} (hr : Reachable h p) {fuel fuel' : Nat} {z : Bool} {a b limit : U256}
    {r r' : U256 × U256 × Pool} (hc : z = true → ClearAbove p.spacing p.tick h) (ha : a.toInt < 0) (hab : b.toInt ≤ a.toInt)
    (hx : p.swap fuel z a limit = .ok r) (hy : p.swap fuel' z b limit = .ok r') :
    sold z r ≤ sold z r' ∧ -bought z r ≤ -bought z r' ∧ Further p.price.toNat r.2.2.price.toNat r'.2.2.price.toNat := by
  obtain ⟨h1, h2, _, h3, h4⟩ := swap_mono (reachable_inv hr) hc (Or.inr ⟨hab, ha⟩) hx hy
  exact ⟨h1, by omega, further_of h3 h4⟩

-- 500 token1 stay inside the range, 8000 cross a tick
example : ∃ r r', Reachable Demo.h3 Demo.p2 ∧ Demo.p2.swap 10 false (ofNat 500) zero = .ok r ∧
    Demo.p2.swap 10 false (ofNat 8000) zero = .ok r' ∧ sold false r < sold false r' ∧ bought false r' < bought false r :=
  ⟨_, _, Demo.reachable Demo.r2, eq_getOk _ (by decide +kernel), eq_getOk _ (by decide +kernel), by decide +kernel, by decide +kernel⟩
example : ∃ r r', Reachable Demo.h3 Demo.p3 ∧ Demo.p3.swap 10 true (ofNat (2 ^ 256 - 300)) zero = .ok r ∧
    Demo.p3.swap 10 true (ofNat (2 ^ 256 - 5000)) zero = .ok r' ∧ sold true r < sold true r' ∧ bought true r' < bought true r ∧
    ClearAbove Demo.p3.spacing Demo.p3.tick Demo.h3 :=
  ⟨_, _, Demo.reachable Demo.r3, eq_getOk _ (by decide +kernel), eq_getOk _ (by decide +kernel), by decide +kernel, by decide +kernel,
    clear_good Demo.good93⟩

end Props
end Uni
