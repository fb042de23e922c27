import Verif.Props.Depth
import Verif.Props.Sale
/-! # C93, C98: sales of token0 that return in one pool return in the other -/
namespace Uni
namespace Props
open U256 Pool Spec TickData TickMath

/-- Two pools with the same fee rate, price and tick.  If a sale of token0 returns in the first, and whenever a wall lets it trade
the whole amount in the first it does so in the second, then it returns in the second. -/
theorem sale_returns {h h' : List Entry} {p q : Pool} (hr : Reachable h p) (hr' : Reachable h' q) (efee : p.fee = q.fee)
    (eprice : p.price = q.price) (etick : p.tick = q.tick) {fuel fuel' : Nat} {amount limit : U256} {r : U256 × U256 × Pool}
    (h0 : amount.toNat ≠ 0) (ha : amount.toInt < 2 ^ 160) (hgood : ¬ SearchBroken p.spacing p.tick) (hP : p.price.toNat < 2 ^ 128)
    (hx : p.swap fuel true amount limit = .ok r) (hliq : ∃ t, grossAt h t ≠ 0) (hliq' : ∃ t, grossAt h' t ≠ 0)
    (hf : (q.tick + 887272).toNat + 2 ≤ fuel')
    (hfull : ∀ (b : U256) (f f' : Nat) (r' : U256 × U256 × Pool), p.swap f true amount b = .ok r → FullyTraded true amount r →
      q.swap f' true amount b = .ok r' → FullyTraded true amount r') :
    ∃ r', q.swap fuel' true amount limit = .ok r' := by
  have hi := reachable_inv hr
  have hsp : p.spacing = q.spacing := by rw [reachable_spacing hr, reachable_spacing hr', efee]
  have hl : LimitValid p true limit := by
    obtain ⟨r0, r1, p'⟩ := r
    obtain ⟨_, h2, _⟩ := swap_eq hx
    exact (limitValid_iff p true limit).2 h2
  have hl' : LimitValid q true limit := by
    unfold LimitValid at *
    rw [← eprice]
    exact hl
  have hgood' : ¬ SearchBroken q.spacing q.tick := by rw [← hsp, ← etick]; exact hgood
  have hP' : q.price.toNat < 2 ^ 128 := by rw [← eprice]; exact hP
  have hne : ∀ w, Wall p.spacing w → p.price.toNat ≠ tickPrice w := by
    intro w hw hc
    have := C88_at hr h0 ha hl hliq hw hc fuel
    dsimp only at this
    rw [hx] at this
    cases this
  by_cases hex : ∃ w, Wall p.spacing w ∧ swapLimit true limit < tickPrice w ∧ tickPrice w < p.price.toNat
  · obtain ⟨w, ⟨hw, hw1, hw2⟩, hmax⟩ := Int.exists_greatest_of_bdd
      (P := fun w => Wall p.spacing w ∧ swapLimit true limit < tickPrice w ∧ tickPrice w < p.price.toNat)
      ⟨0, fun z hz => hz.1.1⟩ hex
    have hnext : ∀ w', Wall p.spacing w' → w < w' → p.price.toNat < tickPrice w' := by
      intro w' hw' hlt
      by_contra hc
      have hne' := hne w' hw'
      have hm : tickPrice w ≤ tickPrice w' := by
        rw [tickPrice_eq hw.2.1 (by have := hw.1; omega), tickPrice_eq hw'.2.1 (by have := hw'.1; omega)]
        exact ratioN_le hw.2.1 (le_of_lt hlt) (by have := hw'.1; omega)
      have := hmax w' ⟨hw', by omega, by omega⟩
      omega
    have hb : (ofNat (tickPrice w)).toNat = tickPrice w := by
      rw [toNat_ofNat]
      have := toNat_lt p.price
      exact Nat.mod_eq_of_lt (by omega)
    rw [C88_sale hr h0 ha hl hliq hgood hw hb hw1 hw2] at hx
    obtain ⟨r1, e1, e2⟩ := bind_ok hx
    by_cases hc : FullyTraded true amount r1
    · rw [if_pos hc] at e2
      cases e2
      rw [hsp] at hw hnext
      rw [eprice] at hw2 hnext
      obtain ⟨r', f1, f2⟩ := C88_decides hr' h0 ha hl' hliq' hgood' hP' hw hb hw1 hw2 hnext hf
      rcases f2 with f2 | f2
      · exact ⟨r', f2.2⟩
      · exact absurd (hfull _ _ _ r' e1 hc f1) f2.1
    · rw [if_neg hc] at e2
      cases e2
  · rcases C27_down h' q hr' amount limit h0 ha hl' hliq' hgood' (by
      intro k hk1 hk2 hk3
      rw [← hsp] at hk2 hk3 ⊢
      have hneg : 256 * k * p.spacing ≤ 0 := Int.mul_nonpos_of_nonpos_of_nonneg (by omega) (by have := hi.sp_pos; omega)
      have hw : Wall p.spacing (256 * k * p.spacing) := ⟨hneg, hk2, k, rfl⟩
      have n1 := hne _ hw
      have n2 : ¬ tickPrice (256 * k * p.spacing) < p.price.toNat := fun hc => hex ⟨_, hw, hk3, hc⟩
      rw [← eprice]
      omega) fuel' hf with h1 | ⟨_, h1⟩
    · exact h1
    · omega

/-- C98: if the sale returns in the first pool, it returns in the deeper one. -/
theorem C98_sell {h h' : List Entry} {p q : Pool} (hr : Reachable h p) (hr' : Reachable h' q) (hd : Deeper h h' p q)
    {fuel fuel' : Nat} {amount limit : U256} {r : U256 × U256 × Pool} (h0 : 0 < amount.toInt)
    (ha : amount.toInt < 2 ^ 160) (hgood : ¬ SearchBroken p.spacing p.tick) (hP : p.price.toNat < 2 ^ 128)
    (hsmall : amount.toInt * p.price.toNat < 2 ^ 255) (hx : p.swap fuel true amount limit = .ok r)
    (hliq : ∃ t, grossAt h t ≠ 0) (hf : (q.tick + 887272).toNat + 2 ≤ fuel') :
    ∃ r', q.swap fuel' true amount limit = .ok r' ∧ r.2.2.price.toNat ≤ r'.2.2.price.toNat ∧ sold true r ≤ sold true r' := by
  have hn : amount.toNat ≠ 0 := by intro hc; rw [← toInt_eq_zero] at hc; omega
  have hff : ∀ r, FullyTraded true amount r ↔ sold true r = amount.toInt := by
    intro r
    unfold FullyTraded
    rw [if_pos (by omega)]
  have hsp : p.spacing = q.spacing := by rw [reachable_spacing hr, reachable_spacing hr', hd.fee]
  have hgood' : ¬ SearchBroken q.spacing q.tick := by rw [← hsp, ← hd.tick]; exact hgood
  have hliq' : ∃ t, grossAt h' t ≠ 0 := by
    obtain ⟨t, ht⟩ := hliq
    have h1 := gross_le hd.ranges t
    have h2 := (reachable_inv hr).cov.gross_nonneg t
    exact ⟨t, by omega⟩
  obtain ⟨r', hy⟩ := sale_returns hr hr' hd.fee hd.price hd.tick hn ha hgood hP hx hliq hliq' hf (by
    intro b f f' r' e1 e2 e3
    rw [hff] at e2 ⊢
    have h1 := (C98_depth hr hr' hd h0 ha (fun _ => hgood) (fun _ => hsmall) (fun hz => by cases hz) e1 e3).2
    have h2 := (swap_cap (reachable_inv hr') (fun _ => clear_good hgood') ha e3).1 h0
    omega)
  have h1 := C98_depth hr hr' hd h0 ha (fun _ => hgood) (fun _ => hsmall) (fun hz => by cases hz) hx hy
  rw [if_pos rfl] at h1
  exact ⟨r', hy, h1⟩

/-- C93: an exact-input sale of token0 that returns in the first pool returns in the second, if both hold any liquidity. -/
theorem C93_sell {h h' : List Entry} {p q : Pool} (hr : Reachable h p) (hr' : Reachable h' q) {fuel fuel' : Nat}
    {amount limit : U256} {r : U256 × U256 × Pool} (h0 : 0 < amount.toInt) (ha : amount.toInt < 2 ^ 160)
    (hgood : ¬ SearchBroken p.spacing p.tick) (hP : p.price.toNat < 2 ^ 128) (hsmall : amount.toInt * p.price.toNat < 2 ^ 255)
    (hx : p.swap fuel true amount limit = .ok r) (hliq : ∃ t, grossAt h t ≠ 0) (hliq' : ∃ t, grossAt h' t ≠ 0)
    (hf : (q.tick + 887272).toNat + 2 ≤ fuel') (hs : SameReached true r.2.2.price.toNat h h' p q) :
    ∃ r', q.swap fuel' true amount limit = .ok r' ∧ SameTrade p q r r' := by
  have hn : amount.toNat ≠ 0 := by intro hc; rw [← toInt_eq_zero] at hc; omega
  obtain ⟨r', hy⟩ := sale_returns hr hr' hs.fee hs.price hs.tick hn ha hgood hP hx hliq hliq' hf (by
    intro b f f' r' e1 e2 e3
    have h1 := C93_input hr hr' h0 ha (fun _ => hgood) (fun _ => hsmall) e1 e3 hs
    unfold FullyTraded at e2 ⊢
    rw [if_pos (by omega)] at e2 ⊢
    unfold sold at e2 ⊢
    rw [if_pos rfl] at e2 ⊢
    rw [← h1.amount0]
    exact e2)
  exact ⟨r', hy, C93_input hr hr' h0 ha (fun _ => hgood) (fun _ => hsmall) hx hy hs⟩

/-! ### Instances -/

/-- The sale of 4000 at tick 93 returns although the wall at tick zero lies below the price and above the limit, so it returns
after every deposit, and moves the price no further. -/
example {h' : List Entry} {q : Pool} (ht : Through PoolOp.Adds Demo.h3 Demo.p3 h' q) :
    ∃ r r', Demo.p3.swap 10 true (ofNat 4000) zero = .ok r ∧ q.swap 1000000 true (ofNat 4000) zero = .ok r' ∧
      r.2.2.price.toNat ≤ r'.2.2.price.toNat ∧ sold true r' = 4000 ∧ Wall Demo.p3.spacing 0 ∧ tickPrice 0 < Demo.p3.price.toNat ∧
      swapLimit true zero < tickPrice 0 := by
  have e1 : Demo.p3.swap 10 true (ofNat 4000) zero = .ok (getOk (Demo.p3.swap 10 true (ofNat 4000) zero) (by decide +kernel)) := eq_getOk _ (by decide +kernel)
  obtain ⟨hr', hd⟩ := adds_least (Demo.reachable Demo.r3) ht
  obtain ⟨r', h1, h2, h3⟩ := C98_sell (Demo.reachable Demo.r3) hr' hd (fuel' := 1000000) (by decide +kernel) (by decide +kernel)
    Demo.good93 (by decide +kernel) (by decide +kernel) e1 ⟨60, by decide +kernel⟩ (by rw [← hd.tick]; decide +kernel)
  refine ⟨_, r', e1, h1, h2, ?_, ⟨by decide, by decide, 0, by decide⟩, by decide +kernel, by decide +kernel⟩
  have hsp : Demo.p3.spacing = q.spacing := by rw [reachable_spacing (Demo.reachable Demo.r3), reachable_spacing hr', hd.fee]
  have h4 := (swap_cap (reachable_inv hr') (fun _ => clear_good (by rw [← hsp, ← hd.tick]; exact Demo.good93))
    (by decide +kernel) h1).1 (by decide +kernel)
  have h5 : (ofNat 4000).toInt = 4000 := by decide +kernel
  have h6 : sold true (getOk (Demo.p3.swap 10 true (ofNat 4000) zero) (by decide +kernel)) = 4000 := by decide +kernel
  omega

end Props
end Uni
