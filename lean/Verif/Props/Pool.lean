import Verif.Proofs.Pool
import Verif.Spec.Pool
import Verif.Proofs.Demo
/-! # C23 - C27, C36: pool invariants and swaps -/
namespace Uni
namespace Props
open U256 Spec TickData TickMath Pool

theorem reachable_inv {h : List Entry} {p : Pool} (hr : Reachable h p) : Inv h p := by
  obtain ⟨a, b, fee, price, p0, hf, hn, hr⟩ := hr
  exact (reaches_inv (new_inv hf hn).1 hr).1

theorem tickPrice_eq {t : Int} (h1 : -887272 ≤ t) (h2 : t ≤ 887272) : tickPrice t = ratioN t := by
  obtain ⟨r, h3, h4⟩ := getSqrtRatioAtTick_spec t h1 h2
  unfold tickPrice
  rw [h3]
  exact h4

theorem swapLimit_eq (z : Bool) (limit : U256) : swapLimit z limit = (effLimit z limit).toNat := by
  rw [toNat_effLimit, ratioN_min, ratioN_max]
  rfl

theorem limitValid_iff (p : Pool) (z : Bool) (limit : U256) : LimitValid p z limit ↔ limitOk p z (effLimit z limit) = true := by
  rw [limitOk_iff, ratioN_min, ratioN_max, ← swapLimit_eq]
  unfold LimitValid minPrice maxPrice
  cases z
  · simp
  · simp [and_comm]

theorem good_of {sp tick : Int} (h : ¬ SearchBroken sp tick) : Good sp tick := h

/-- C23: after every history the active liquidity is the sum of the liquidity of all ranges that contain the
current tick. -/
theorem C23_active (h : List Entry) (p : Pool) (hr : Reachable h p) : (p.liquidity.toNat : Int) = active h p.tick :=
  (reachable_inv hr).liq

/-- C23: a tick is stored exactly when some range with liquidity ends there, and then its net and gross liquidity
are the sums over the ranges that end there. -/
theorem C23_ticks (h : List Entry) (p : Pool) (hr : Reachable h p) (i : Int) :
    match lookup p.ticks.ticks i with
    | some x => x.index = i ∧ x.net.toInt = netAt h i ∧ (x.gross.toNat : Int) = grossAt h i ∧ 0 < grossAt h i
    | none => grossAt h i = 0 := by
  have hi := reachable_inv hr
  rcases hx : lookup p.ticks.ticks i with _ | x
  · exact hi.ticks.none i hx
  · obtain ⟨h1, h2, h3⟩ := hi.ticks.some i x hx
    have := hi.cov.gross_nonneg i
    exact ⟨lookup_index hx, h2, h1, by omega⟩

/-- C23: the stored ticks are sorted and inside the global range, and they are multiples of the tick spacing if the
boundaries of all ranges with liquidity are. -/
theorem C23_sorted (h : List Entry) (p : Pool) (hr : Reachable h p) :
    Increasing p.ticks.ticks ∧ (∀ x ∈ p.ticks.ticks, -887272 ≤ x.index ∧ x.index ≤ 887272) ∧
    (Aligned p.spacing h → ∀ x ∈ p.ticks.ticks, p.spacing ∣ x.index) := by
  have hi := reachable_inv hr
  refine ⟨hi.ticks.inc, ?_, fun hal x hx => hal _ (hi.ticks.some _ _ (lookup_of_mem hi.ticks.inc hx)).2.2⟩
  intro x hx
  have h1 := (hi.ticks.some _ _ (lookup_of_mem hi.ticks.inc hx)).2.2
  by_contra hc
  apply h1
  unfold grossAt
  rw [wsum_congr (g := fun _ _ => 0 * 0), wsum_smul, zero_mul]
  intro e he
  have h2 := hi.bounds e he
  have h3 := hi.cov.range e he
  rw [if_neg (by omega), if_neg (by omega)]
  rfl

-- a history with a range that is not aligned to the spacing
example : Reachable Demo.hc2 Demo.c2 ∧ ¬ Aligned Demo.c2.spacing Demo.hc2 ∧ active Demo.hc2 Demo.c2.tick = 3000000 :=
  ⟨Demo.reachable_c, fun h => absurd (h (-3) (by decide +kernel)) (by decide +kernel), by decide +kernel⟩

private theorem demo_unaligned : isOk (PoolOp.exec 10 Demo.c2 (.exactInput (ofNat 900) "WETH" zero)) = true := by decide +kernel

/-- C23: without the restriction on swaps of token0 in `Admissible` the claims are false: at tick -8 (spacing 60), where
the downward tick search is broken, a sale of 900 token0 passes the upper boundary -3 of a range without taking its
liquidity out. -/
theorem C23_unaligned_broken : ∃ (h : List Entry) (p p' : Pool), Reachable h p ∧ SearchBroken p.spacing p.tick ∧
    PoolOp.exec 10 p (.exactInput (ofNat 900) "WETH" zero) = .ok p' ∧
    (p'.liquidity.toNat : Int) = active h p'.tick + 2000000 :=
  ⟨Demo.hc2, Demo.c2, getOk _ demo_unaligned, Demo.reachable_c, ⟨0, by decide +kernel⟩, eq_getOk _ _, by decide +kernel⟩

-- the demo pool: two overlapping ranges, the current tick inside both after a swap across tick 60
example : Reachable Demo.h3 Demo.p3 ∧ Demo.p3.tick = 93 ∧ Demo.p3.liquidity.toNat = 3000000 ∧ active Demo.h3 93 = 3000000 ∧
    active Demo.h3 59 = 1000000 ∧ netAt Demo.h3 60 = 2000000 ∧ netAt Demo.h3 180 = -1000000 ∧ grossAt Demo.h3 61 = 0 :=
  ⟨Demo.reachable Demo.r3, by decide +kernel, by decide +kernel, by decide +kernel, by decide +kernel, by decide +kernel, by decide +kernel,
    by decide +kernel⟩

/-- C24: after every history the current price lies between the price of the current tick and the price of the next
tick, and inside the global range. -/
theorem C24_tick_price (h : List Entry) (p : Pool) (hr : Reachable h p) :
    -887272 ≤ p.tick ∧ p.tick < 887272 ∧ tickPrice p.tick ≤ p.price.toNat ∧ p.price.toNat ≤ tickPrice (p.tick + 1) ∧
      minPrice ≤ p.price.toNat ∧ p.price.toNat < maxPrice := by
  have hi := reachable_inv hr
  have h1 := hi.tlo
  have h2 := hi.thi
  have h3 := hi.pmax
  have h4 := hi.plo
  have h5 := ratioN_le (le_refl _) h1 (by omega)
  rw [ratioN_max] at h3
  rw [ratioN_min] at h5
  unfold minPrice maxPrice
  refine ⟨h1, h2, ?_, ?_, by omega, h3⟩
  · rw [tickPrice_eq h1 (by omega)]; exact h4
  · rw [tickPrice_eq (by omega) (by omega)]; exact hi.phi

/-- The facts about a swap that returns. -/
theorem swap_facts {h : List Entry} {p p' : Pool} (hr : Reachable h p) {fuel : Nat} {z : Bool} {amount limit r0 r1 : U256}
    (ha : amount.toInt < 2 ^ 160) (hc : z = true → ClearAbove p.spacing p.tick h)
    (hx : p.swap fuel z amount limit = .ok (r0, r1, p')) :
    ∃ s i o f, amount.toInt ≠ 0 ∧ LimitValid p z limit ∧
      SInv h p.spacing z (decide (0 ≤ amount.toInt)) (effLimit z limit) (initState p z amount) ∧
      Run p h p.spacing z (decide (0 ≤ amount.toInt)) (effLimit z limit) (initState p z amount) s i o f ∧
      SInv h p.spacing z (decide (0 ≤ amount.toInt)) (effLimit z limit) s ∧ running (effLimit z limit) s = false ∧
      (r0, r1) = swapResult z (decide (0 ≤ amount.toInt)) amount s ∧ p' = afterSwap p z s := by
  have hi := reachable_inv hr
  obtain ⟨h1, h2, s, h3, h4, h5⟩ := swap_eq hx
  have h6 := init_sinv hi ha h2 hc
  obtain ⟨⟨i, o, f, h7⟩, h8, h9⟩ := loop_run h6 hi.fee0 hi.fee1 h3
  exact ⟨s, i, o, f, h1, (limitValid_iff _ _ _).2 h2, h6, h7, h8, h9, h4, h5⟩

/-- The exported swap functions: `ExactInputSwap` sells the named token, `ExactOutputSwap` buys it. -/
theorem C25_calls (fuel : Nat) (p : Pool) (amount : U256) (token : String) (limit : U256) :
    p.exactInputSwap fuel amount token limit = p.swap fuel (decide (token = p.token0)) amount limit ∧
    p.exactOutputSwap fuel amount token limit = p.swap fuel (decide (token = p.token1)) amount limit := ⟨rfl, rfl⟩

/-- C25: selling token1 never lowers the price and never takes it past the limit. -/
theorem C25_up (h : List Entry) (p p' : Pool) (hr : Reachable h p) (fuel : Nat) (amount limit r0 r1 : U256)
    (ha : amount.toInt < 2 ^ 160) (hx : p.swap fuel false amount limit = .ok (r0, r1, p')) :
    p.price.toNat ≤ p'.price.toNat ∧ p'.price.toNat ≤ swapLimit false limit := by
  obtain ⟨s, i, o, f, _, _, h1, h2, h3, _, _, rfl⟩ := swap_facts hr ha (by intro h; cases h) hx
  obtain ⟨_, h4, _⟩ := run_rise h2 (Or.inl rfl)
  rw [swapLimit_eq]
  exact ⟨h4, (h3.up rfl).1⟩

/-- C25: selling token0 never takes the price past the limit; it never raises the price if the tick search works at
the current tick, and never lowers it if the search is broken there. -/
theorem C25_down (h : List Entry) (p p' : Pool) (hr : Reachable h p) (fuel : Nat) (amount limit r0 r1 : U256)
    (ha : amount.toInt < 2 ^ 160) (hc : ClearAbove p.spacing p.tick h)
    (hx : p.swap fuel true amount limit = .ok (r0, r1, p')) :
    swapLimit true limit ≤ p'.price.toNat ∧
    (¬ SearchBroken p.spacing p.tick → p'.price.toNat ≤ p.price.toNat) ∧
    (SearchBroken p.spacing p.tick → p.price.toNat ≤ p'.price.toNat) := by
  obtain ⟨s, i, o, f, _, _, h1, h2, h3, _, _, rfl⟩ := swap_facts hr ha (fun _ => hc) hx
  rw [swapLimit_eq]
  refine ⟨(h3.down rfl).1, ?_, ?_⟩
  · intro hg
    exact (run_fall h2 ⟨rfl, Or.inl hg⟩).2.1
  · intro hg
    exact (run_rise h2 (Or.inr ⟨rfl, fun hc => hc hg⟩)).2.1

-- selling token1 from tick 0 across tick 60, selling token0 back down to tick 0
example : ∃ r, Demo.p2.swap 10 false (ofNat 8000) zero = .ok r ∧ Demo.p2.price.toNat < r.2.2.price.toNat :=
  ⟨_, eq_getOk _ (by decide +kernel), by decide +kernel⟩
example : ∃ r, Demo.p3.swap 10 true (ofNat 100000000) (ofNat (2 ^ 96)) = .ok r ∧ ¬ SearchBroken Demo.p3.spacing Demo.p3.tick ∧
    r.2.2.price.toNat = 2 ^ 96 ∧ 2 ^ 96 < Demo.p3.price.toNat := by
  refine ⟨_, eq_getOk _ (by decide +kernel), ?_, by decide +kernel, by decide +kernel⟩
  rintro ⟨k, h1, h2, h3⟩
  rw [show Demo.p3.spacing = 60 by decide +kernel, show Demo.p3.tick = 93 by decide +kernel] at h3
  omega
-- at tick -8 selling token0 raises the price
example : ∃ r, Demo.b1.swap 10 true (ofNat 100) zero = .ok r ∧ SearchBroken Demo.b1.spacing Demo.b1.tick ∧
    Demo.b1.price.toNat < r.2.2.price.toNat := by
  refine ⟨_, eq_getOk _ (by decide +kernel), ?_, by decide +kernel⟩
  rw [show Demo.b1.spacing = 60 by decide +kernel, show Demo.b1.tick = -8 by decide +kernel]
  exact ⟨0, by omega, by omega, by omega⟩

/-- C25: a swap of amount zero, or with a limit on the wrong side of the price or outside the global range, panics;
a swap that returns had a valid limit. -/
theorem C25_limit (p : Pool) (fuel : Nat) (z : Bool) (amount limit : U256) :
    (amount.toNat = 0 ∨ ¬ LimitValid p z limit → p.swap fuel z amount limit = .error .panic) ∧
    (∀ r, p.swap fuel z amount limit = .ok r → amount.toNat ≠ 0 ∧ LimitValid p z limit) := by
  constructor
  · intro hc
    unfold Pool.swap
    by_cases h0 : amount.toNat = 0
    · rw [(isZero_iff _).2 h0]; rfl
    · rw [show amount.isZero = false by rw [Bool.eq_false_iff]; exact fun h => h0 ((isZero_iff _).1 h)]
      have h1 : limitOk p z (effLimit z limit) = false := by
        rw [Bool.eq_false_iff]
        intro h
        rcases hc with hc | hc
        · exact h0 hc
        · exact hc ((limitValid_iff _ _ _).2 h)
      show (invariant true >>= _) = _
      dsimp only
      rw [h1]
      rfl
  · rintro ⟨r0, r1, p'⟩ hx
    obtain ⟨h1, h2, _⟩ := swap_eq hx
    exact ⟨fun hc => h1 (toInt_eq_zero.2 hc), (limitValid_iff _ _ _).2 h2⟩

theorem toInt_ofNatSub {a b : U256} {c : Int} (h : b.toInt = a.toInt - c) (h0 : -2 ^ 255 ≤ c) (h1 : c < 2 ^ 255) : (sub a b).toInt = c := by
  rw [toInt_sub_of] <;> omega

/-- C26: an exact-input swap takes between zero and the given amount of the sold token, all of it unless the price
limit was reached, and pays out the other token. -/
theorem C26_exact_input (h : List Entry) (p : Pool) (hr : Reachable h p) (fuel : Nat) (z : Bool) (amount limit : U256)
    (r : U256 × U256 × Pool) (h0 : 0 < amount.toInt) (ha : amount.toInt < 2 ^ 160)
    (hc : z = true → ClearAbove p.spacing p.tick h) (hx : p.swap fuel z amount limit = .ok r) :
    0 ≤ sold z r ∧ sold z r ≤ amount.toInt ∧ bought z r ≤ 0 ∧
    (sold z r = amount.toInt ∨ r.2.2.price.toNat = swapLimit z limit) := by
  obtain ⟨r0, r1, p'⟩ := r
  obtain ⟨s, i, o, f, _, _, h1, h2, h3, h4, h5, rfl⟩ := swap_facts hr ha hc hx
  have hi := reachable_inv hr
  have hein : decide (0 ≤ amount.toInt) = true := decide_eq_true (by omega)
  rw [hein] at h1 h2 h3 h5
  have hrem := (run_rem h2).1 rfl
  have hcalc := (run_calc hi.fee0 hi.fee1 h1 (show zero.toInt = 0 by decide +kernel) h2).1 rfl
  have hge := h3.remIn rfl
  change s.remaining.toInt = amount.toInt - (i + f) at hrem
  have hin : (sub amount s.remaining).toInt = i + f := toInt_ofNatSub hrem (by omega) (by omega)
  have hs : sold z (r0, r1, afterSwap p z s) = i + f ∧ bought z (r0, r1, afterSwap p z s) = -o := by
    unfold swapResult at h5
    cases z
    · rw [if_neg (by decide)] at h5
      cases h5
      exact ⟨hin, hcalc⟩
    · rw [if_pos rfl] at h5
      cases h5
      exact ⟨hin, hcalc⟩
  rw [hs.1, hs.2]
  refine ⟨by omega, by omega, by omega, ?_⟩
  rcases not_running h4 with h6 | h6
  · left; omega
  · right; rw [swapLimit_eq]; exact h6

-- an exact-input swap stopped by its limit, and one that uses everything
example : ∃ r, Demo.p3.swap 10 true (ofNat 100000000) (ofNat (2 ^ 96)) = .ok r ∧ 0 < sold true r ∧ sold true r < 100000000 ∧ bought true r < 0 :=
  ⟨_, eq_getOk _ (by decide +kernel), by decide +kernel, by decide +kernel, by decide +kernel⟩
example : ∃ r, Demo.p2.swap 10 false (ofNat 8000) zero = .ok r ∧ sold false r = 8000 ∧ bought false r < -7000 :=
  ⟨_, eq_getOk _ (by decide +kernel), by decide +kernel, by decide +kernel⟩

/-- C36: a swap with a negative amount pays out at most that amount, all of it unless the price limit was reached,
and charges the other token. -/
theorem C36_exact_output (h : List Entry) (p : Pool) (hr : Reachable h p) (fuel : Nat) (z : Bool) (amount limit : U256)
    (r : U256 × U256 × Pool) (h0 : amount.toInt < 0)
    (hc : z = true → ClearAbove p.spacing p.tick h) (hx : p.swap fuel z amount limit = .ok r) :
    amount.toInt ≤ bought z r ∧ bought z r ≤ 0 ∧ 0 ≤ sold z r ∧
    (bought z r = amount.toInt ∨ r.2.2.price.toNat = swapLimit z limit) := by
  obtain ⟨r0, r1, p'⟩ := r
  obtain ⟨s, i, o, f, _, _, h1, h2, h3, h4, h5, rfl⟩ := swap_facts hr (by omega) hc hx
  have hi := reachable_inv hr
  have hein : decide (0 ≤ amount.toInt) = false := decide_eq_false (by omega)
  rw [hein] at h1 h2 h3 h5
  have hrem := (run_rem h2).2 rfl
  have hcalc := (run_calc hi.fee0 hi.fee1 h1 (show zero.toInt = 0 by decide +kernel) h2).2 rfl
  have hge := h3.remOut rfl
  have hrange := toInt_range amount
  change s.remaining.toInt = amount.toInt + o at hrem
  have hin : (sub amount s.remaining).toInt = -o := toInt_ofNatSub (by omega) (by omega) (by omega)
  have hs : bought z (r0, r1, afterSwap p z s) = -o ∧ sold z (r0, r1, afterSwap p z s) = i + f := by
    unfold swapResult at h5
    cases z
    · rw [if_pos rfl] at h5
      cases h5
      exact ⟨hin, hcalc⟩
    · rw [if_neg (by decide)] at h5
      cases h5
      exact ⟨hin, hcalc⟩
  rw [hs.1, hs.2]
  refine ⟨by omega, by omega, by omega, ?_⟩
  rcases not_running h4 with h6 | h6
  · left; omega
  · right; rw [swapLimit_eq]; exact h6

-- asking for 5000 units of token0
example : ∃ r, Demo.p2.swap 10 false (neg (ofNat 5000)) zero = .ok r ∧ bought false r = -5000 ∧ 5000 < sold false r :=
  ⟨_, eq_getOk _ (by decide +kernel), by decide +kernel, by decide +kernel⟩

/-- C36: `ExactOutputSwap` of one token is `ExactInputSwap` of the other token with the same amount; so a positive
amount is not an output amount but the input amount of the other token. -/
theorem C36_is_input (fuel : Nat) (p : Pool) (amount limit : U256) (hne : p.token0 ≠ p.token1) :
    p.exactOutputSwap fuel amount p.token0 limit = p.exactInputSwap fuel amount p.token1 limit ∧
    p.exactOutputSwap fuel amount p.token1 limit = p.exactInputSwap fuel amount p.token0 limit := by
  unfold Pool.exactOutputSwap Pool.exactInputSwap
  constructor
  · rw [decide_eq_false hne, decide_eq_false (Ne.symm hne)]
  · rw [decide_eq_true rfl, decide_eq_true rfl]

/-! ### Termination -/

/-- A swap call is its loop. -/
theorem swap_loop (fuel : Nat) (p : Pool) (z : Bool) (amount limit : U256) (h0 : amount.toNat ≠ 0) (hl : LimitValid p z limit) :
    p.swap fuel z amount limit = (do
      let s ← swapLoop p z (decide (0 ≤ amount.toInt)) (effLimit z limit) fuel (initState p z amount)
      let r := swapResult z (decide (0 ≤ amount.toInt)) amount s
      return (r.1, r.2, afterSwap p z s)) := by
  unfold Pool.swap
  rw [show amount.isZero = false by rw [Bool.eq_false_iff]; exact fun h => h0 ((isZero_iff _).1 h)]
  show (invariant true >>= _) = _
  dsimp only
  rw [(limitValid_iff _ _ _).1 hl, SwapMath.sign_decide]
  rfl

/-- C27: in a pool with liquidity anywhere, every swap that sells token1 returns; it needs at most one loop iteration
per tick above the current one. -/
theorem C27_up (h : List Entry) (p : Pool) (hr : Reachable h p) (amount limit : U256) (h0 : amount.toNat ≠ 0)
    (ha : amount.toInt < 2 ^ 160) (hl : LimitValid p false limit) (hliq : ∃ t, grossAt h t ≠ 0)
    (fuel : Nat) (hf : (887272 - p.tick).toNat + 2 ≤ fuel) : ∃ r, p.swap fuel false amount limit = .ok r := by
  have hi := reachable_inv hr
  obtain ⟨t, ht⟩ := hliq
  obtain ⟨s, hs⟩ := loop_up hi.fee0 hi.fee1 ht fuel _ (init_sinv hi ha ((limitValid_iff _ _ _).1 hl) (by intro h; cases h)) hf
  rw [swap_loop _ _ _ _ _ h0 hl, hs]
  exact ⟨_, rfl⟩

/-- C27: a swap that sells token0 returns, or panics at a price of at least `2^128`, if the tick search works at the
current tick and no multiple of 256 spacings at or below tick zero lies between the limit and the price. -/
theorem C27_down (h : List Entry) (p : Pool) (hr : Reachable h p) (amount limit : U256) (h0 : amount.toNat ≠ 0)
    (ha : amount.toInt < 2 ^ 160) (hl : LimitValid p true limit) (hliq : ∃ t, grossAt h t ≠ 0)
    (hgood : ¬ SearchBroken p.spacing p.tick)
    (hk : ∀ k : Int, k ≤ 0 → -887272 ≤ 256 * k * p.spacing → swapLimit true limit < tickPrice (256 * k * p.spacing) →
      p.price.toNat < tickPrice (256 * k * p.spacing))
    (fuel : Nat) (hf : (p.tick + 887272).toNat + 2 ≤ fuel) :
    (∃ r, p.swap fuel true amount limit = .ok r) ∨
    (p.swap fuel true amount limit = .error .panic ∧ 2 ^ 128 ≤ p.price.toNat) := by
  have hi := reachable_inv hr
  have hsp := hi.sp_pos
  obtain ⟨t, ht⟩ := hliq
  rcases loop_down hi.fee0 hi.fee1 ht fuel _ (init_sinv hi ha ((limitValid_iff _ _ _).1 hl) (fun _ => clear_good hgood)) hgood
    (by
      intro k h1 h2 h3
      have h4 : 256 * k * p.spacing ≤ 0 := Int.mul_nonpos_of_nonpos_of_nonneg (by omega) (by omega)
      have h5 := hk k h1 h2
      rw [tickPrice_eq h2 (by omega), swapLimit_eq] at h5
      exact h5 h3) hf with ⟨s, hs⟩ | ⟨hs, h2⟩
  · left
    rw [swap_loop _ _ _ _ _ h0 hl, hs]
    exact ⟨_, rfl⟩
  · right
    rw [swap_loop _ _ _ _ _ h0 hl, hs]
    exact ⟨rfl, h2⟩

-- the hypotheses of both theorems are met by the demo pools
example : ∃ r, Demo.p2.swap 2000000 false (ofNat 8000) zero = .ok r :=
  C27_up Demo.h3 Demo.p2 (Demo.reachable Demo.r2) _ _ (by decide +kernel) (by decide +kernel) (by unfold LimitValid; decide +kernel)
    ⟨60, by decide +kernel⟩ _ (by decide +kernel)
example : (∃ r, Demo.p3.swap 2000000 true (ofNat 100000000) (ofNat (2 ^ 96)) = .ok r) ∨
    (Demo.p3.swap 2000000 true (ofNat 100000000) (ofNat (2 ^ 96)) = .error .panic ∧ 2 ^ 128 ≤ Demo.p3.price.toNat) := by
  refine C27_down Demo.h3 Demo.p3 (Demo.reachable Demo.r3) _ _ (by decide +kernel) (by decide +kernel) (by unfold LimitValid; decide +kernel)
    ⟨60, by decide +kernel⟩ ?_ ?_ _ (by decide +kernel)
  · rintro ⟨k, h1, h2, h3⟩
    rw [show Demo.p3.spacing = 60 by decide +kernel, show Demo.p3.tick = 93 by decide +kernel] at h3
    omega
  · rw [show Demo.p3.spacing = 60 by decide +kernel]
    intro k h1 h2 h3
    rw [tickPrice_eq h2 (by omega), show swapLimit true (ofNat (2 ^ 96)) = ratioN 0 by rw [ratioN_zero]; decide +kernel] at h3
    have := ratioN_le h2 (show 256 * k * 60 ≤ 0 by omega) (by omega)
    omega

/-- C27: a swap that sells token0 never passes a multiple of 256 spacings at or below tick zero: if it returns, the
final price is still at or above it.  So a swap that would have to pass it never returns. -/
theorem C27_barrier (h : List Entry) (p : Pool) (hr : Reachable h p) (fuel : Nat) (amount limit : U256) (r : U256 × U256 × Pool)
    (ha : amount.toInt < 2 ^ 160) (hc : ClearAbove p.spacing p.tick h) (hx : p.swap fuel true amount limit = .ok r)
    (k : Int) (hk : k ≤ 0) (hk2 : -887272 ≤ 256 * k * p.spacing) (hp : tickPrice (256 * k * p.spacing) ≤ p.price.toNat) :
    tickPrice (256 * k * p.spacing) ≤ r.2.2.price.toNat := by
  have hi := reachable_inv hr
  have hsp := hi.sp_pos
  obtain ⟨r0, r1, p'⟩ := r
  obtain ⟨s, i, o, f, _, _, h1, h2, h3, _, _, rfl⟩ := swap_facts hr ha (fun _ => hc) hx
  have h4 : 256 * k * p.spacing ≤ 0 := Int.mul_nonpos_of_nonpos_of_nonneg (by omega) (by omega)
  rw [tickPrice_eq hk2 (by omega)] at hp ⊢
  exact (run_barrier hsp h2 h1 hk hk2 hp).1

/-- C27: a pool that stands exactly on a multiple of 256 spacings at or below zero, with the current tick one below
it, hangs in every swap of token0 that is not limited to that price: no number of iterations is enough. -/
theorem C27_hang (h : List Entry) (p : Pool) (hr : Reachable h p) (amount limit : U256) (h0 : amount.toNat ≠ 0)
    (ha : amount.toInt < 2 ^ 160) (hl : LimitValid p true limit) (hliq : ∃ t, grossAt h t ≠ 0)
    (k : Int) (hk : k ≤ 0) (hk2 : -887272 ≤ 256 * k * p.spacing)
    (ht : p.tick = 256 * k * p.spacing - 1) (hp : p.price.toNat = tickPrice (256 * k * p.spacing)) (fuel : Nat) :
    p.swap fuel true amount limit = .error .fuel := by
  have hi := reachable_inv hr
  have hsp := hi.sp_pos
  obtain ⟨t, htg⟩ := hliq
  have h4 : 256 * k * p.spacing ≤ 0 := Int.mul_nonpos_of_nonpos_of_nonneg (by omega) (by omega)
  rw [tickPrice_eq hk2 (by omega)] at hp
  have h5 : running (effLimit true limit) (initState p true amount) = true := by
    rw [running_iff]
    refine ⟨fun hc => h0 (toInt_eq_zero.1 hc), ?_⟩
    unfold LimitValid at hl
    rw [if_pos rfl, swapLimit_eq] at hl
    show p.price.toNat ≠ _
    omega
  have hc : ClearAbove p.spacing p.tick h := by
    intro k' _ k2 j j1 j2
    rw [broken_unique (by omega) k2 (by omega) (k' := k) (by omega) (by omega)] at j2
    omega
  rw [swap_loop _ _ _ _ _ h0 hl,
    loop_stuck hi.fee0 hi.fee1 hsp htg fuel _ (init_sinv hi ha ((limitValid_iff _ _ _).1 hl) (fun _ => hc)) ⟨k, hk, ht, hp⟩ h5]
  rfl

-- a swap that starts above tick 0 and returns
example : ∃ r, Demo.p3.swap 10 true (ofNat 1000) zero = .ok r ∧ tickPrice (256 * 0 * Demo.p3.spacing) ≤ Demo.p3.price.toNat :=
  ⟨_, eq_getOk _ (by decide +kernel), by decide +kernel⟩
-- the demo pool after a swap that stopped exactly at tick 0 hangs
example (fuel : Nat) : Demo.p4.swap fuel true (ofNat 1000) zero = .error .fuel :=
  C27_hang Demo.h3 Demo.p4 (Demo.reachable Demo.r4) (ofNat 1000) zero (by decide +kernel) (by decide +kernel)
    (by unfold LimitValid; decide +kernel) ⟨60, by decide +kernel⟩ 0 (le_refl _) (by decide +kernel) (by decide +kernel) (by decide +kernel) fuel

private def hang0 : SwapState := initState Demo.p3 true (ofNat 1000000000)
private def hang1 : SwapState := getOk (swapStep Demo.p3 true true (effLimit true zero) hang0) (by decide +kernel)
private def hang2 : SwapState := getOk (swapStep Demo.p3 true true (effLimit true zero) hang1) (by decide +kernel)

/-- C27: a reachable pool and an ordinary swap (sell 10^9 units of token0, no limit) that never returns. -/
theorem C27_hang_example : ∃ (h : List Entry) (p : Pool) (amount : U256), Reachable h p ∧ ¬ SearchBroken p.spacing p.tick ∧
    LimitValid p true zero ∧ 0 < p.liquidity.toNat ∧ ∀ fuel, p.swap fuel true amount zero = .error .fuel := by
  refine ⟨Demo.h3, Demo.p3, ofNat 1000000000, Demo.reachable Demo.r3, ?_, by unfold LimitValid; decide +kernel, by decide +kernel, ?_⟩
  · rintro ⟨k, h1, h2, h3⟩
    rw [show Demo.p3.spacing = 60 by decide +kernel, show Demo.p3.tick = 93 by decide +kernel] at h3
    omega
  intro fuel
  have hi := reachable_inv (Demo.reachable Demo.r3)
  have hl : LimitValid Demo.p3 true zero := by unfold LimitValid; decide +kernel
  have hein : decide (0 ≤ (ofNat 1000000000).toInt) = true := by decide +kernel
  rw [swap_loop _ _ _ _ _ (by decide +kernel) hl, hein]
  have hs0 := init_sinv hi (amount := ofNat 1000000000) (by decide +kernel) ((limitValid_iff _ _ _).1 hl)
    (fun _ => clear_good Demo.good93)
  rw [hein] at hs0
  have a1 : running (effLimit true zero) hang0 = true := by decide +kernel
  have a2 : running (effLimit true zero) hang1 = true := by decide +kernel
  have a3 : running (effLimit true zero) hang2 = true := by decide +kernel
  have b1 : swapStep Demo.p3 true true (effLimit true zero) hang0 = .ok hang1 := eq_getOk _ _
  have b2 : swapStep Demo.p3 true true (effLimit true zero) hang1 = .ok hang2 := eq_getOk _ _
  have c1 : hang2.tick = -1 := by decide +kernel
  have c2 : hang2.price.toNat = 2 ^ 96 := by decide +kernel
  have hsp := hi.sp_pos
  obtain ⟨_, _, d1, _⟩ := step_inv hs0 hi.fee0 hi.fee1 a1 b1
  obtain ⟨_, _, d2, _⟩ := step_inv d1 hi.fee0 hi.fee1 a2 b2
  have key : ∀ n, swapLoop Demo.p3 true true (effLimit true zero) n hang2 = .error .fuel := fun n =>
    loop_stuck hi.fee0 hi.fee1 hsp (i := 60) (by decide +kernel) n hang2 d2
      ⟨0, le_refl _, by rw [c1]; omega, by rw [c2, mul_zero, zero_mul, ratioN_zero]⟩ a3
  have : swapLoop Demo.p3 true true (effLimit true zero) fuel hang0 = .error .fuel := by
    rcases fuel with _ | _ | n
    · rfl
    · rw [swapLoop, if_pos a1, b1]; rfl
    · rw [swapLoop, if_pos a1, b1, Except_bind_ok, swapLoop, if_pos a2, b2, Except_bind_ok]; exact key n
  rw [show initState Demo.p3 true (ofNat 1000000000) = hang0 from rfl, this]
  rfl

/-- C27: in a pool without any liquidity every swap panics. -/
theorem C27_empty (h : List Entry) (p : Pool) (hr : Reachable h p) (amount limit : U256) (z : Bool) (h0 : amount.toNat ≠ 0)
    (hl : LimitValid p z limit) (hliq : ∀ t, grossAt h t = 0) (fuel : Nat) (hf : 0 < fuel) :
    p.swap fuel z amount limit = .error .panic := by
  have hi := reachable_inv hr
  have hsp := hi.sp_pos
  have he : p.ticks.ticks = [] := by
    rcases hl : p.ticks.ticks with _ | ⟨x, xs⟩
    · rfl
    · exfalso
      have hm : x ∈ p.ticks.ticks := by rw [hl]; exact List.mem_cons_self
      exact (hi.ticks.some _ _ (lookup_of_mem hi.ticks.inc hm)).2.2 (hliq _)
  have h5 : running (effLimit z limit) (initState p z amount) = true := by
    rw [running_iff]
    refine ⟨fun hc => h0 (toInt_eq_zero.1 hc), ?_⟩
    unfold LimitValid at hl
    show p.price.toNat ≠ _
    cases z
    · rw [if_neg (by decide), swapLimit_eq] at hl; omega
    · rw [if_pos rfl, swapLimit_eq] at hl; omega
  obtain ⟨n, rfl⟩ := Nat.exists_eq_succ_of_ne_zero (Nat.pos_iff_ne_zero.1 hf)
  have h6 : swapStep p z (decide (0 ≤ amount.toInt)) (effLimit z limit) (initState p z amount) = .error .panic := by
    unfold swapStep
    rw [show (initState p z amount).ticks.nextInitializedTickWithinOneWord (initState p z amount).tick z = .error .panic from
      next_empty he _ _]
    rfl
  rw [swap_loop _ _ _ _ _ h0 hl, swapLoop, if_pos h5, h6]
  rfl

end Props
end Uni
