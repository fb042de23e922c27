import Verif.Proofs.Depth
import Verif.Props.Local
import Verif.Props.SwapPath
import Verif.Proofs.Value
/-! # C98: a deeper market moves less -/
namespace Uni
namespace Props
open U256 Pool Spec TickData TickMath

/-- C98: two pools have the same fee rate, price and tick, and the second has at least as much liquidity in every range.  Then the
same exact-input swap moves the price of the second no further than that of the first, and the second takes at least as much of
the input.  (For sales of token0 the downward search must work at the tick, and the product of amount and price stay below
`2^255`; for purchases no range of the second pool may begin or end at a tick at which the upward search skips a word.) -/
theorem C98_depth {h h' : List Entry} {p q : Pool} (hr : Reachable h p) (hr' : Reachable h' q) (hd : Deeper h h' p q)
    {fuel fuel' : Nat} {z : Bool} {amount limit : U256} {r r' : U256 × U256 × Pool} (h0 : 0 < amount.toInt)
    (ha : amount.toInt < 2 ^ 160) (hgood : z = true → ¬ SearchBroken p.spacing p.tick)
    (hsmall : z = true → amount.toInt * p.price.toNat < 2 ^ 255)
    (hskip : z = false → ∀ t, grossAt h' t ≠ 0 → ¬ Skips q.spacing t)
    (hx : p.swap fuel z amount limit = .ok r) (hy : q.swap fuel' z amount limit = .ok r') :
    (if z then r.2.2.price.toNat ≤ r'.2.2.price.toNat else r'.2.2.price.toNat ≤ r.2.2.price.toNat) ∧ sold z r ≤ sold z r' :=
  swap_deep hr hr' hd h0 ha hgood hsmall hskip hx hy

/-- C98: in particular if the ranges of the deeper pool are aligned to the tick spacing. -/
theorem C98_aligned {h h' : List Entry} {p q : Pool} (hr : Reachable h p) (hr' : Reachable h' q) (hd : Deeper h h' p q)
    (hal : Aligned q.spacing h') {fuel fuel' : Nat} {z : Bool} {amount limit : U256} {r r' : U256 × U256 × Pool}
    (h0 : 0 < amount.toInt) (ha : amount.toInt < 2 ^ 160) (hgood : z = true → ¬ SearchBroken p.spacing p.tick)
    (hsmall : z = true → amount.toInt * p.price.toNat < 2 ^ 255)
    (hx : p.swap fuel z amount limit = .ok r) (hy : q.swap fuel' z amount limit = .ok r') :
    (if z then r.2.2.price.toNat ≤ r'.2.2.price.toNat else r'.2.2.price.toNat ≤ r.2.2.price.toNat) ∧ sold z r ≤ sold z r' :=
  C98_depth hr hr' hd h0 ha hgood hsmall (fun _ t ht hs => hs.2.1 (hal t ht)) hx hy

/-- C98: if the purchase returns in the first pool, it returns in the deeper one. -/
theorem C98_buy {h h' : List Entry} {p q : Pool} (hr : Reachable h p) (hr' : Reachable h' q) (hd : Deeper h h' p q)
    (hskip : ∀ t, grossAt h' t ≠ 0 → ¬ Skips q.spacing t) {fuel fuel' : Nat} {amount limit : U256} {r : U256 × U256 × Pool}
    (h0 : 0 < amount.toInt) (ha : amount.toInt < 2 ^ 160) (hx : p.swap fuel false amount limit = .ok r)
    (hliq : ∃ t, grossAt h' t ≠ 0) (hf : (887272 - q.tick).toNat + 2 ≤ fuel') :
    ∃ r', q.swap fuel' false amount limit = .ok r' ∧ p.price.toNat ≤ r'.2.2.price.toNat ∧
      r'.2.2.price.toNat ≤ r.2.2.price.toNat ∧ sold false r ≤ sold false r' := by
  have hl : LimitValid q false limit := by
    obtain ⟨r0, r1, p'⟩ := r
    obtain ⟨_, h2, _⟩ := swap_eq hx
    have := (limitValid_iff p false limit).2 h2
    unfold LimitValid at *
    rw [← hd.price]
    exact this
  obtain ⟨r', hy⟩ := C27_up h' q hr' amount limit (by intro hc; rw [← toInt_eq_zero] at hc; omega) ha hl hliq fuel' hf
  obtain ⟨h1, h2⟩ := C98_depth hr hr' hd h0 ha (fun hz => by cases hz) (fun hz => by cases hz) (fun _ => hskip) hx hy
  refine ⟨r', hy, ?_, h1, h2⟩
  obtain ⟨legs, rem, k1, _⟩ := C72_path h' q hr' fuel' false amount limit r' ha (fun hz => by cases hz) hy
  have := path_direction k1
  rw [hd.price]
  exact this

theorem outstanding_cons (a b d : Int) (h : List Entry) (l u : Int) :
    outstanding (⟨a, b, d⟩ :: h) l u = outstanding h l u + if a = l ∧ b = u then d else 0 := by
  unfold outstanding
  rw [wsum_cons]
  dsimp only
  split
  · rw [one_mul, add_comm]; rfl
  · rw [zero_mul, add_comm]

theorem adds_least {h h' : List Entry} {p q : Pool} (hr : Reachable h p) (ht : Through PoolOp.Adds h p h' q) :
    Reachable h' q ∧ Deeper h h' p q := by
  induction ht with
  | start => exact ⟨hr, rfl, rfl, rfl, fun _ _ => le_refl _⟩
  | @step h1 q1 q2 fuel op _ ha ho hx ih =>
    obtain ⟨hr1, hs⟩ := ih
    obtain ⟨e1, e2, e3⟩ := quiet_still (reachable_inv hr1)
      (fun a t l => ⟨fun hc => by subst hc; exact ho, fun hc => by subst hc; exact ho⟩) hx
    refine ⟨?_, hs.fee.trans e1.symm, hs.price.trans e2.symm, hs.tick.trans e3.symm, fun l u => le_trans (hs.ranges l u) ?_⟩
    · obtain ⟨a, b, fee, price, p0, hf, hn, hr1⟩ := hr1
      exact ⟨a, b, fee, price, p0, hf, hn, .step fuel op hr1 ha hx⟩
    · cases op with
      | mint a b d => show _ ≤ outstanding (_ :: h1) l u; rw [outstanding_cons]; split <;> omega
      | mintStrategy a b d => show _ ≤ outstanding (_ :: h1) l u; rw [outstanding_cons]; split <;> omega
      | collectStrategy => exact le_refl _
      | flash => exact le_refl _
      | burn => exact ho.elim
      | burnStrategy => exact ho.elim
      | exactInput => exact ho.elim
      | exactOutput => exact ho.elim

theorem removes_least {h h' : List Entry} {p q : Pool} (hr : Reachable h p) (ht : Through PoolOp.Removes h p h' q) :
    Reachable h' q ∧ Deeper h' h q p := by
  induction ht with
  | start => exact ⟨hr, rfl, rfl, rfl, fun _ _ => le_refl _⟩
  | @step h1 q1 q2 fuel op _ ha ho hx ih =>
    obtain ⟨hr1, hs⟩ := ih
    obtain ⟨e1, e2, e3⟩ := quiet_still (reachable_inv hr1)
      (fun a t l => ⟨fun hc => by subst hc; exact ho, fun hc => by subst hc; exact ho⟩) hx
    refine ⟨?_, e1.trans hs.fee, e2.trans hs.price, e3.trans hs.tick, fun l u => le_trans ?_ (hs.ranges l u)⟩
    · obtain ⟨a, b, fee, price, p0, hf, hn, hr1⟩ := hr1
      exact ⟨a, b, fee, price, p0, hf, hn, .step fuel op hr1 ha hx⟩
    · cases op with
      | burn a b d =>
        show outstanding (if _ then _ else _) l u ≤ _
        split
        · exact le_refl _
        · rw [outstanding_cons]; split <;> omega
      | burnStrategy a b d =>
        show outstanding (if _ then _ else _) l u ≤ _
        split
        · exact le_refl _
        · rw [outstanding_cons]; split <;> omega
      | collectStrategy => exact le_refl _
      | flash => exact le_refl _
      | mint => exact ho.elim
      | mintStrategy => exact ho.elim
      | exactInput => exact ho.elim
      | exactOutput => exact ho.elim

/-- C98: after any deposits - in any ranges, by the market or by a strategy - the same exact-input swap moves the price no further
than before. -/
theorem C98_deposits {h h' : List Entry} {p q : Pool} (hr : Reachable h p) (ht : Through PoolOp.Adds h p h' q)
    {fuel fuel' : Nat} {z : Bool} {amount limit : U256} {r r' : U256 × U256 × Pool} (h0 : 0 < amount.toInt)
    (ha : amount.toInt < 2 ^ 160) (hgood : z = true → ¬ SearchBroken p.spacing p.tick)
    (hsmall : z = true → amount.toInt * p.price.toNat < 2 ^ 255)
    (hskip : z = false → ∀ t, grossAt h' t ≠ 0 → ¬ Skips q.spacing t)
    (hx : p.swap fuel z amount limit = .ok r) (hy : q.swap fuel' z amount limit = .ok r') :
    (if z then r.2.2.price.toNat ≤ r'.2.2.price.toNat else r'.2.2.price.toNat ≤ r.2.2.price.toNat) ∧ sold z r ≤ sold z r' := by
  obtain ⟨hr', hd⟩ := adds_least hr ht
  exact C98_depth hr hr' hd h0 ha hgood hsmall hskip hx hy

/-- C98: after any withdrawals it moves the price at least as far as before. -/
theorem C98_withdrawals {h h' : List Entry} {p q : Pool} (hr : Reachable h p) (ht : Through PoolOp.Removes h p h' q)
    {fuel fuel' : Nat} {z : Bool} {amount limit : U256} {r r' : U256 × U256 × Pool} (h0 : 0 < amount.toInt)
    (ha : amount.toInt < 2 ^ 160) (hgood : z = true → ¬ SearchBroken p.spacing p.tick)
    (hsmall : z = true → amount.toInt * p.price.toNat < 2 ^ 255)
    (hskip : z = false → ∀ t, grossAt h t ≠ 0 → ¬ Skips p.spacing t)
    (hx : p.swap fuel z amount limit = .ok r) (hy : q.swap fuel' z amount limit = .ok r') :
    (if z then r'.2.2.price.toNat ≤ r.2.2.price.toNat else r.2.2.price.toNat ≤ r'.2.2.price.toNat) ∧ sold z r' ≤ sold z r := by
  obtain ⟨hr', hd⟩ := removes_least hr ht
  have hsp : q.spacing = p.spacing := by rw [reachable_spacing hr, reachable_spacing hr', hd.fee]
  exact C98_depth hr' hr hd h0 ha (by rw [hsp, hd.tick]; exact hgood) (by rw [hd.price]; exact hsmall) hskip hy hx

/-! ### Instances -/

theorem demo_adds : Through PoolOp.Adds Demo.h1 Demo.p1 Demo.h3 Demo.p2 :=
  .step 10 Demo.op2 .start Demo.a2 trivial (demo_mint (by decide +kernel) rfl)

/-- A purchase that goes through the added range: it ends at a lower price than without it. -/
example : ∃ r r', Demo.p1.swap 10 false (ofNat 8000) zero = .ok r ∧ Demo.p2.swap 10 false (ofNat 8000) zero = .ok r' ∧
    Reachable Demo.h1 Demo.p1 ∧ Through PoolOp.Adds Demo.h1 Demo.p1 Demo.h3 Demo.p2 ∧ 0 < (ofNat 8000).toInt ∧
    (ofNat 8000).toInt < 2 ^ 160 ∧ r'.2.2.price.toNat < r.2.2.price.toNat :=
  ⟨_, _, eq_getOk _ (by decide +kernel), eq_getOk _ (by decide +kernel), Demo.reachable Demo.r1, demo_adds,
    by decide +kernel, by decide +kernel, by decide +kernel⟩

/-- The ranges of both pools are aligned. -/
example : Aligned Demo.p2.spacing Demo.h3 := by
  intro t ht
  have : t = 60 ∨ t = 240 ∨ t = -120 ∨ t = 180 := by
    by_contra hc
    rw [not_or, not_or, not_or] at hc
    apply ht
    unfold grossAt Demo.h3 wsum
    simp only [List.map, List.sum_cons, List.sum_nil]
    rw [if_neg (by omega), if_neg (by omega), if_neg (by omega), if_neg (by omega)]
    rfl
  rcases this with rfl | rfl | rfl | rfl <;> decide +kernel

/-- A sale at tick 93 after a withdrawal goes further down. -/
example : ∃ r r' q, Demo.p3.swap 10 true (ofNat 4000) zero = .ok r ∧ Demo.p3.burn 60 240 (ofNat 1500000) = .ok q ∧
    q.swap 10 true (ofNat 4000) zero = .ok r' ∧
    Through PoolOp.Removes Demo.h3 Demo.p3 (⟨60, 240, -1500000⟩ :: Demo.h3) q ∧ r'.2.2.price.toNat < r.2.2.price.toNat ∧
    ¬ SearchBroken Demo.p3.spacing Demo.p3.tick ∧ (ofNat 4000).toInt * Demo.p3.price.toNat < 2 ^ 255 :=
  ⟨_, _, _, eq_getOk _ (by decide +kernel), eq_getOk _ (by decide +kernel), eq_getOk _ (by decide +kernel),
    .step (h' := Demo.h3) 10 (.burn 60 240 (ofNat 1500000)) .start
      (show ((ofNat 1500000).toNat : Int) ≤ outstanding Demo.h3 60 240 ∧ 0 < outstanding Demo.h3 60 240 by decide +kernel)
      trivial (eq_getOk _ (by decide +kernel)), by decide +kernel, Demo.good93, by decide +kernel⟩

/-- For exact output the claim fails by rounding: after the deposit the same purchase moves the price further. -/
theorem C98_output_counterexample : ∃ r r', Demo.p1.swap 10 false (neg (ofNat 2995)) zero = .ok r ∧
    Demo.p2.swap 10 false (neg (ofNat 2995)) zero = .ok r' ∧ Reachable Demo.h1 Demo.p1 ∧
    Through PoolOp.Adds Demo.h1 Demo.p1 Demo.h3 Demo.p2 ∧ r.2.2.price.toNat < r'.2.2.price.toNat :=
  ⟨_, _, eq_getOk _ (by decide +kernel), eq_getOk _ (by decide +kernel), Demo.reachable Demo.r1, demo_adds, by decide +kernel⟩

end Props
end Uni
