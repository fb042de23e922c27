import Verif.Props.Slippage
/-! # C119: the more is traded, the worse the price -/
namespace Uni
namespace Props
open U256 Pool Spec TickData TickMath FullMath SwapMath

theorem more_up {c a o o' n i i' s s' g A0 A0' A0'' A1 A1' A1'' : ℚ} (hc : 0 ≤ c) (k1 : o' ≤ A0 - A0'') (k2 : A1'' - A1 ≤ i')
    (k3 : A0 - A0' ≤ o + n) (k4 : i ≤ A1' - A1 + n) (k5 : i' ≤ s' * a) (k6 : s * a ≤ i + n + g)
    (v : A0' * c + A1' ≤ A0'' * c + A1'') : (o' - o) * c ≤ (s' - s) * a + (n * c + 2 * n + g) := by
  have m1 := mul_le_mul_of_nonneg_right k1 hc
  have m3 := mul_le_mul_of_nonneg_right k3 hc
  linarith

theorem more_down {c a o o' n i i' s s' g A0 A0' A0'' A1 A1' A1'' : ℚ} (hc : 0 ≤ c) (k1 : o' ≤ A1 - A1'') (k2 : A0'' - A0 ≤ i')
    (k3 : A1 - A1' ≤ o + n) (k4 : i ≤ A0' - A0 + n) (k5 : i' ≤ s' * a) (k6 : s * a ≤ i + n + g)
    (v : A0' * c + A1' ≤ A0'' * c + A1'') : o' - o ≤ (s' - s) * a * c + (n + (2 * n + g) * c) := by
  have m2 := mul_le_mul_of_nonneg_right (show A0'' - A0' ≤ (s' - s) * a + 2 * n + g by linarith) hc
  linarith

theorem net_rate {x y k : Nat} {rate : Int} (h0 : 0 ≤ rate) (h1 : rate < 1000000) (h : x * (1000000 - rate.toNat) ≤ (y + k) * 1000000) :
    (x : ℚ) * (1 - rate / 1000000) ≤ y + k := by
  have ef : ((rate.toNat : Nat) : ℚ) = (rate : ℚ) := by
    have : ((rate.toNat : Nat) : Int) = rate := Int.toNat_of_nonneg h0
    exact_mod_cast congrArg (Int.cast (R := ℚ)) this
  have hle : rate.toNat ≤ 1000000 := by omega
  have : ((x * (1000000 - rate.toNat) : Nat) : ℚ) ≤ (((y + k) * 1000000 : Nat) : ℚ) := by exact_mod_cast h
  push_cast [Nat.cast_sub hle] at this
  rw [ef] at this
  linarith

theorem rate_net {x y : Nat} {rate : Int} (h0 : 0 ≤ rate) (h1 : rate < 1000000) (h : y * 1000000 ≤ x * (1000000 - rate.toNat)) :
    (y : ℚ) ≤ x * (1 - rate / 1000000) := by
  have ef : ((rate.toNat : Nat) : ℚ) = (rate : ℚ) := by
    have : ((rate.toNat : Nat) : Int) = rate := Int.toNat_of_nonneg h0
    exact_mod_cast congrArg (Int.cast (R := ℚ)) this
  have hle : rate.toNat ≤ 1000000 := by omega
  have : ((y * 1000000 : Nat) : ℚ) ≤ ((x * (1000000 - rate.toNat) : Nat) : ℚ) := by exact_mod_cast h
  push_cast [Nat.cast_sub hle] at this
  rw [ef] at this
  linarith

/-- C119: two exact-input swaps in the same direction in the same state of a pool; the first ends at the price `P`.  What the second
pays out on top of the first is at most what it takes on top of the first, less the fee, at the price `P`, up to rounding: one unit of
the token bought and two of the token sold per iteration of the first, and the input that would move `P` by one unit.  If the second
is the larger one, this says that what comes after `P` is never better than `P`; if it is the smaller one, that what comes before `P`
is never worse than `P`.  `n` is the number of iterations of the first swap. -/
theorem C119_marginal {h : List Entry} {p : Pool} (hr : Reachable h p) {fuel fuel' : Nat} {z : Bool} {amount amount' limit limit' : U256}
    {r r' : U256 × U256 × Pool} (h0 : 0 < amount.toInt) (ha : amount.toInt < 2 ^ 160) (h0' : 0 < amount'.toInt)
    (ha' : amount'.toInt < 2 ^ 160) (hgood : z = true → ¬ SearchBroken p.spacing p.tick)
    (hx : p.swap fuel z amount limit = .ok r) (hy : p.swap fuel' z amount' limit' = .ok r') :
    ∃ n : Nat, n < fuel ∧ p.swap (n + 1) z amount limit = .ok r ∧
      if z then ((-bought z r' : Int) : ℚ) - (-bought z r : Int) ≤
          ((sold z r' : Int) - (sold z r : Int)) * (1 - p.fee / 1000000) * ((r.2.2.price.toNat : ℚ) / 2 ^ 96) ^ 2 +
          (n + (2 * n + inAmount z r.2.2.price.toNat (further z r.2.2.price.toNat) (total h).toNat) * ((r.2.2.price.toNat : ℚ) / 2 ^ 96) ^ 2)
      else (((-bought z r' : Int) : ℚ) - (-bought z r : Int)) * ((r.2.2.price.toNat : ℚ) / 2 ^ 96) ^ 2 ≤
          ((sold z r' : Int) - (sold z r : Int)) * (1 - p.fee / 1000000) +
          (n * ((r.2.2.price.toNat : ℚ) / 2 ^ 96) ^ 2 + 2 * n + inAmount z r.2.2.price.toNat (further z r.2.2.price.toNat) (total h).toNat) := by
  obtain ⟨legs, rem, h1, h2, h3, h4, h5⟩ := C72_path h p hr fuel z amount limit r ha hgood hx
  obtain ⟨legs', rem', g1, g2, g3, _, _⟩ := C72_path h p hr fuel' z amount' limit' r' ha' hgood hy
  have hi := reachable_inv hr
  have f0 := hi.fee0
  have f1 := hi.fee1
  have hrate : p.fee.toNat < 1000000 := by omega
  refine ⟨legs.length, h4, h5, ?_⟩
  have b1 := path_backed hi.cov hi.bounds g1 h0'.le
  have b2 := path_fair hi.cov hi.bounds h1
  have k6 := net_rate f0 f1 (path_net hi.cov hrate h1 h0.le)
  have k5 := rate_net f0 f1 (path_price hrate g1 (A := p.price.toNat) (by cases z <;> simp)).2
  have v := principal_convex hi.cov hi.bounds r'.2.2.price.toNat r.2.2.price.toNat
  have e1 : ((-bought z r : Int) : ℚ) = ((legs.map (·.output)).sum : Nat) := by rw [h3, neg_neg]; rfl
  have e2 : ((-bought z r' : Int) : ℚ) = ((legs'.map (·.output)).sum : Nat) := by rw [g3, neg_neg]; rfl
  have e3 : ((sold z r : Int) : ℚ) = ((legs.map (fun l => l.input + l.fee)).sum : Nat) := by rw [h2]; rfl
  have e4 : ((sold z r' : Int) : ℚ) = ((legs'.map (fun l => l.input + l.fee)).sum : Nat) := by rw [g2]; rfl
  rw [e1, e2, e3, e4]
  rw [Nat.cast_add] at k6
  have hc : (0 : ℚ) ≤ ((r.2.2.price.toNat : ℚ) / 2 ^ 96) ^ 2 := by positivity
  unfold value at v
  cases z
  · rw [if_neg (by decide)] at b1 b2 ⊢
    exact more_up hc b1.2 b1.1 (b2.2 h0.le) b2.1 k5 k6 v
  · rw [if_pos rfl] at b1 b2 ⊢
    exact more_down hc b1.2 b1.1 (b2.2 h0.le) b2.1 k5 k6 v

theorem average_le {c a o o' s s' R : ℚ} (hs : 0 ≤ s) (hss : s ≤ s') (h1 : (o' - o) * c ≤ (s' - s) * a + R) (h2 : s * a ≤ o * c + R) :
    o' * s * c ≤ (o * c + R) * s' := by
  have m1 := mul_le_mul_of_nonneg_right h1 hs
  have m2 := mul_le_mul_of_nonneg_right h2 (show 0 ≤ s' - s by linarith)
  nlinarith

theorem average_down {c a o o' s s' R : ℚ} (hs : 0 ≤ s) (hss : s ≤ s') (h1 : o' - o ≤ (s' - s) * a * c + R) (h2 : s * a * c ≤ o + R) :
    o' * s ≤ (o + R) * s' := by
  have m1 := mul_le_mul_of_nonneg_right h1 hs
  have m2 := mul_le_mul_of_nonneg_right h2 (show 0 ≤ s' - s by linarith)
  nlinarith

/-- C119: the average price of a larger trade is no better than that of a smaller one, up to rounding.  `o` and `o'` are bought for `s`
and `s'` with `s ≤ s'`: then `o' / s' ≤ (o + R) / s`, where `R` is the rounding of C119_marginal in the token bought, at the final
price of the smaller trade. -/
theorem C119_average {h : List Entry} {p : Pool} (hr : Reachable h p) {fuel fuel' : Nat} {z : Bool} {amount amount' limit limit' : U256}
    {r r' : U256 × U256 × Pool} (h0 : 0 < amount.toInt) (ha : amount.toInt < 2 ^ 160) (h0' : 0 < amount'.toInt)
    (ha' : amount'.toInt < 2 ^ 160) (hgood : z = true → ¬ SearchBroken p.spacing p.tick)
    (hx : p.swap fuel z amount limit = .ok r) (hy : p.swap fuel' z amount' limit' = .ok r') (hs : sold z r ≤ sold z r') :
    ∃ n : Nat, n < fuel ∧ p.swap (n + 1) z amount limit = .ok r ∧
      if z then ((-bought z r' : Int) : ℚ) * (sold z r : Int) ≤ ((-bought z r : Int) +
          (n + (2 * n + inAmount z r.2.2.price.toNat (further z r.2.2.price.toNat) (total h).toNat) * ((r.2.2.price.toNat : ℚ) / 2 ^ 96) ^ 2)) * (sold z r' : Int)
      else ((-bought z r' : Int) : ℚ) * (sold z r : Int) * ((r.2.2.price.toNat : ℚ) / 2 ^ 96) ^ 2 ≤
          ((-bought z r : Int) * ((r.2.2.price.toNat : ℚ) / 2 ^ 96) ^ 2 +
          (n * ((r.2.2.price.toNat : ℚ) / 2 ^ 96) ^ 2 + 2 * n + inAmount z r.2.2.price.toNat (further z r.2.2.price.toNat) (total h).toNat)) * (sold z r' : Int) := by
  obtain ⟨legs, rem, h1, h2, h3, h4, h5⟩ := C72_path h p hr fuel z amount limit r ha hgood hx
  obtain ⟨legs', rem', g1, g2, g3, _, _⟩ := C72_path h p hr fuel' z amount' limit' r' ha' hgood hy
  have hi := reachable_inv hr
  have f0 := hi.fee0
  have f1 := hi.fee1
  have hrate : p.fee.toNat < 1000000 := by omega
  refine ⟨legs.length, h4, h5, ?_⟩
  have b1 := path_backed hi.cov hi.bounds g1 h0'.le
  have b2 := path_fair hi.cov hi.bounds h1
  have k6 := net_rate f0 f1 (path_net hi.cov hrate h1 h0.le)
  have k5 := rate_net f0 f1 (path_price hrate g1 (A := p.price.toNat) (by cases z <;> simp)).2
  have v := principal_convex hi.cov hi.bounds r'.2.2.price.toNat r.2.2.price.toNat
  have fl := (path_floor hrate h1 h0.le).1
  have e1 : ((-bought z r : Int) : ℚ) = ((legs.map (·.output)).sum : Nat) := by rw [h3, neg_neg]; rfl
  have e2 : ((-bought z r' : Int) : ℚ) = ((legs'.map (·.output)).sum : Nat) := by rw [g3, neg_neg]; rfl
  have e3 : ((sold z r : Int) : ℚ) = ((legs.map (fun l => l.input + l.fee)).sum : Nat) := by rw [h2]; rfl
  have e4 : ((sold z r' : Int) : ℚ) = ((legs'.map (fun l => l.input + l.fee)).sum : Nat) := by rw [g2]; rfl
  have hs0 : (0 : ℚ) ≤ (sold z r : Int) := by rw [e3]; positivity
  have hs1 : ((sold z r : Int) : ℚ) ≤ (sold z r' : Int) := by exact_mod_cast hs
  rw [e3] at hs0 hs1
  rw [e4] at hs1
  rw [e1, e2, e3, e4]
  rw [Nat.cast_add] at k6
  have hc : (0 : ℚ) ≤ ((r.2.2.price.toNat : ℚ) / 2 ^ 96) ^ 2 := by positivity
  unfold value at v
  cases z
  · rw [if_neg (by decide)] at b1 b2 fl ⊢
    have m := more_up hc b1.2 b1.1 (b2.2 h0.le) b2.1 k5 k6 v
    exact average_le hs0 hs1 m (by linarith)
  · rw [if_pos rfl] at b1 b2 fl ⊢
    have m := more_down hc b1.2 b1.1 (b2.2 h0.le) b2.1 k5 k6 v
    exact average_down hs0 hs1 m (by have m6 := mul_le_mul_of_nonneg_right k6 hc; linarith)

/-! ### Instances -/

/-- A purchase for 2000 pays 1990, one for 8000 pays 7927 through a second range. -/
example : ∃ r r', Demo.p2.swap 10 false (ofNat 2000) zero = .ok r ∧ Demo.p2.swap 10 false (ofNat 8000) zero = .ok r' ∧
    Reachable Demo.h3 Demo.p2 ∧ sold false r = 2000 ∧ sold false r' = 8000 ∧ bought false r = -1990 ∧ bought false r' = -7927 ∧
    r.2.2.price.toNat < r'.2.2.price.toNat :=
  ⟨_, _, eq_getOk _ (by decide +kernel), eq_getOk _ (by decide +kernel), Demo.reachable Demo.r2,
    by decide +kernel, by decide +kernel, by decide +kernel, by decide +kernel, by decide +kernel⟩

/-- Sales: 2000 pay 2011, 6000 pay 6022. -/
example : ∃ r r', Demo.p3.swap 10 true (ofNat 2000) zero = .ok r ∧ Demo.p3.swap 10 true (ofNat 6000) zero = .ok r' ∧
    (∃ h, Reachable h Demo.p3) ∧ ¬ SearchBroken Demo.p3.spacing Demo.p3.tick ∧ bought true r = -2011 ∧ bought true r' = -6022 :=
  ⟨_, _, eq_getOk _ (by decide +kernel), eq_getOk _ (by decide +kernel), ⟨_, Demo.reachable Demo.r3⟩, Demo.good93, by decide +kernel,
    by decide +kernel⟩

/-- C119: the rounding is real.  Small trades lose to it, so that 3 units buy at a better average price than 2. -/
theorem C119_rounding : ∃ r r', Demo.p2.swap 10 false (ofNat 2) zero = .ok r ∧ Demo.p2.swap 10 false (ofNat 3) zero = .ok r' ∧
    Reachable Demo.h3 Demo.p2 ∧ -bought false r * sold false r' < -bought false r' * sold false r :=
  ⟨_, _, eq_getOk _ (by decide +kernel), eq_getOk _ (by decide +kernel), Demo.reachable Demo.r2, by decide +kernel⟩

end Props
end Uni
