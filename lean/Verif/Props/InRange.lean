import Verif.Spec.InRange
import Verif.Props.Strategy
import Verif.Proofs.Fund
/-! # Which positions of a strategy provide active liquidity -/
namespace Uni
namespace Props
open U256 Spec Pool LiquidityAmounts

/-! ### C115: positions opened around the price earn fees -/

theorem earning_append (a b : List StratPos) (t : Int) : earning (a ++ b) t = earning a t + earning b t := by
  simp only [earning, List.map_append, List.sum_append]

theorem earning_cons (q : StratPos) (b : List StratPos) (t : Int) :
    earning (q :: b) t = (if q.lower ≤ t ∧ t < q.upper then q.amount.toNat else 0) + earning b t := by
  simp only [earning, List.map_cons, List.sum_cons]

theorem active_entries (ps : List StratPos) (t : Int) : active (entries ps) t = (earning ps t : Int) := by
  induction ps with
  | nil => rfl
  | cons q ps ih =>
    rw [earning_cons, show entries (q :: ps) = ⟨q.lower, q.upper, q.amount.toNat⟩ :: entries ps from rfl, active_cons, ih]
    dsimp only
    by_cases h : q.lower ≤ t ∧ t < q.upper
    · rw [if_pos h, if_pos h]; push_cast; ring
    · rw [if_neg h, if_neg h]; push_cast; ring

/-- C115: at any time, the active liquidity of the pool is that of the strategy's positions around the current tick plus
that of everybody else's. -/
theorem C115_active {m : List Entry} {s : Strat} (hr : Runs m s) :
    (s.pool.liquidity.toNat : Int) = earning s.positions s.pool.tick + active m s.pool.tick := by
  obtain ⟨h, h1, h2⟩ := (Strat.runs_owns hr).pool
  rw [(reachable_inv h1).liq, h2.active, ← active_entries]
  exact Strat.wsum_append _ _ _

/-- C115: a range from `w` below to `w` above the tick, moved to multiples of the spacing, contains the tick if it is not
empty, unless the width is exactly half the spacing. -/
theorem C115_centred {unit t w : Int} {r : Int × Int} (hu : 0 < unit) (h : Centred unit t w r) (hr : r.1 < r.2) (hw : 2 * w ≠ unit) :
    r.1 ≤ t ∧ t < r.2 := by
  obtain ⟨⟨⟨a, ha⟩, h1, -⟩, ⟨⟨b, hb⟩, h2, -⟩⟩ := h
  have hab : a < b := by
    by_contra hc
    have := mul_le_mul_of_nonneg_left (not_lt.mp hc) hu.le
    omega
  have hstep : r.1 + unit ≤ r.2 := by
    have := mul_le_mul_of_nonneg_left (show a + 1 ≤ b by omega) hu.le
    rw [ha, hb]
    linarith
  have := abs_le.1 (show |t - w - r.1| ≤ |t - w - r.1| from le_refl _)
  have := abs_le.1 (show |t + w - r.2| ≤ |t + w - r.2| from le_refl _)
  omega

/-- C115: such a range is not empty if the width is more than half the spacing. -/
theorem C115_wide {unit t w : Int} {r : Int × Int} (h : Centred unit t w r) (hw : unit < 2 * w) :
    r.1 ≤ t ∧ t < r.2 := by
  obtain ⟨⟨-, h1, -⟩, ⟨-, h2, -⟩⟩ := h
  have := abs_le.1 (show |t - w - r.1| ≤ |t - w - r.1| from le_refl _)
  have := abs_le.1 (show |t + w - r.2| ≤ |t + w - r.2| from le_refl _)
  omega

/-- C115: a range that starts at the next multiple of the spacing above the tick contains it only if the tick is such a
multiple; one that ends at the multiple below never contains it. -/
theorem C115_side {unit t c f b : Int} (hb : 0 < b) (hc : NextUp unit t c) (hf : NextDown unit t f) :
    ((c ≤ t ∧ t < c + b) ↔ unit ∣ t) ∧ ¬ (f - b ≤ t ∧ t < f) := by
  obtain ⟨h1, h2, h3⟩ := hc
  refine ⟨⟨fun h => ?_, fun h => ?_⟩, fun h => by have := hf.2.1; omega⟩
  · rw [show t = c by omega]; exact h1
  · have hd : unit ∣ c - t := dvd_sub h1 h
    have : c - t = 0 := Int.eq_zero_of_dvd_of_nonneg_of_lt (by omega) (by omega) hd
    omega

/-- C115: the band around the current price reaches down to the current tick; it reaches above it, and so contains it,
exactly if its upper price reaches the next tick. -/
theorem C115_band {P W : Nat} {t : Int} {r : Int × Int} (ht : TickOf P t) (h : BandOf P W r) :
    r.1 ≤ t ∧ (t < r.2 ↔ maxPrice < P + W ∨ tickPrice (t + 1) ≤ P + W) := by
  obtain ⟨t1, t2, t3, t4⟩ := ht
  obtain ⟨h1, h2⟩ := h
  constructor
  · by_cases c : P < minPrice + W
    · rw [if_pos c] at h1; omega
    · rw [if_neg c] at h1
      obtain ⟨k1, k2, k3, k4⟩ := h1
      by_contra hc
      have : tickPrice (t + 1) ≤ tickPrice r.1 := by
        rcases (show t + 1 = r.1 ∨ t + 1 < r.1 by omega) with e | e
        · rw [e]
        · exact (Strat.tickPrice_strict (by omega) e (by omega)).le
      omega
  · by_cases c : maxPrice < P + W
    · rw [if_pos c] at h2
      exact ⟨fun _ => Or.inl c, fun _ => by omega⟩
    · rw [if_neg c] at h2
      obtain ⟨k1, k2, k3, k4⟩ := h2
      constructor
      · intro hl
        refine Or.inr ?_
        have : tickPrice (t + 1) ≤ tickPrice r.2 := by
          rcases (show t + 1 = r.2 ∨ t + 1 < r.2 by omega) with e | e
          · rw [e]
          · exact (Strat.tickPrice_strict (by omega) e (by omega)).le
        omega
      · rintro (hl | hl)
        · exact absurd hl c
        · by_contra hc
          have : tickPrice (r.2 + 1) ≤ tickPrice (t + 1) := by
            rcases (show r.2 + 1 = t + 1 ∨ r.2 + 1 < t + 1 by omega) with e | e
            · rw [e]
            · exact (Strat.tickPrice_strict (by omega) e (by omega)).le
          omega

theorem spacing_pos {m : List Entry} {s : Strat} (hr : Runs m s) : 0 < s.pool.spacing := by
  obtain ⟨h, h1, _⟩ := (Strat.runs_owns hr).pool
  rcases (Strat.reachable_unit h1).2 with e | e | e <;> omega

theorem follows_init {s : Strat} {w : Int} {r : Int × Int} {rs : List (Int × Int)} (hk : Follows s.kind w ∨ s.kind = .constantInterval w)
    (h : InitRanges s (r :: rs)) : Centred s.pool.spacing s.pool.tick w r := by
  unfold InitRanges at h
  rcases hk with hk | hk
  · revert h hk
    cases s.kind <;> intro h hk <;> first | exact absurd hk id | skip
    · obtain ⟨_, h, e⟩ := h
      cases e; exact (show _ = w from hk) ▸ h
    · obtain ⟨_, _, _, h, _, _, e⟩ := h
      cases e; exact (show _ = w from hk) ▸ h
    · obtain ⟨_, h, e⟩ := h
      rcases e with e | ⟨_, _, _, e⟩ | ⟨_, _, _, e⟩ <;> (cases e; exact (show _ = w from hk) ▸ h)
    · obtain ⟨_, _, _, h, _, _, e⟩ := h
      cases e; exact (show _ = w from hk) ▸ h
  · rw [hk] at h
    obtain ⟨_, h, e⟩ := h
    cases e; exact h

/-- C115, `Init` of a strategy that centres its main range on the current tick: unless the balances are too small for any
liquidity there, its first position contains the current tick and raises the active liquidity by at least its amount. -/
theorem C115_init {m : List Entry} {s s' : Strat} {fuel : Nat} {c : U256 × U256} {w : Int} (hr : Runs m s)
    (hx : s.init fuel = .ok (c, s')) (hf : Fits m s') (hs : Kind.Sane s.kind) (hk : Follows s.kind w ∨ s.kind = .constantInterval w)
    (hw : 2 * w ≠ s.pool.spacing) :
    ∃ r a b L, Centred s.pool.spacing s.pool.tick w r ∧ a.toNat = tickPrice r.1 ∧ b.toNat = tickPrice r.2 ∧
      getLiquidityForAmount s.pool.price a b s.amount0 s.amount1 = .ok L ∧
      (L.toNat ≠ 0 → (∃ more, s'.positions = s.positions ++ ⟨L, r.1, r.2⟩ :: more) ∧ s'.pool.tick = s.pool.tick ∧
        r.1 ≤ s'.pool.tick ∧ s'.pool.tick < r.2 ∧ s.pool.liquidity.toNat + L.toNat ≤ s'.pool.liquidity.toNat) := by
  have hns : ∀ v, s.kind ≠ .swapHalf v := by
    intro v hv
    rw [hv] at hk
    rcases hk with hk | hk
    · exact hk
    · cases hk
  have hnp : s.kind ≠ .noProvision := by
    intro hv
    rw [hv] at hk
    rcases hk with hk | hk
    · exact hk
    · cases hk
  have hm : MaySwap s c (book m s) := fun v hv => absurd hv (hns v)
  have hr' : Runs m s' := .init fuel hr hx hf hm
  obtain ⟨_, _, _, _, _, _, _, _, _, _, _, _, _, hst⟩ := C39_init hr hx hf hm
  have htick := (hst hns).2.2.2
  obtain ⟨r, rs, a, b, L, h1, h2, h3, h4, h5⟩ := C60_init hr hx hs hns hnp
  have hc := follows_init hk h1
  refine ⟨r, a, b, L, hc, h2, h3, h4, fun hL => ?_⟩
  obtain ⟨more, h6⟩ := h5 hL
  have hwf := C42_wellformed hr' (q := ⟨L, r.1, r.2⟩) (by rw [h6]; simp)
  have hin := C115_centred (spacing_pos hr) hc hwf.2.1 hw
  rw [← htick] at hin
  refine ⟨⟨more, h6⟩, htick, hin.1, hin.2, ?_⟩
  have e := C115_active hr
  have e' := C115_active hr'
  rw [h6, earning_append, earning_cons, if_pos hin] at e'
  rw [← htick] at e
  push_cast at e'
  omega

/-- C115, `Rebalance` of such a strategy: the same, with the balances after closing; what is active without the strategy
is the liquidity of the others. -/
theorem C115_rebalance {m : List Entry} {s s' : Strat} {fuel : Nat} {c : U256 × U256} {w : Int} (hr : Runs m s)
    (hx : s.rebalance fuel = .ok (some c, s')) (hf : Fits m s') (hs : Kind.Sane s.kind) (hk : Follows s.kind w)
    (hw : 2 * w ≠ s.pool.spacing) :
    ∃ r a b L, Centred s.pool.spacing s.pool.tick w r ∧ a.toNat = tickPrice r.1 ∧ b.toNat = tickPrice r.2 ∧
      getLiquidityForAmount s.pool.price a b c.1 c.2 = .ok L ∧
      (L.toNat ≠ 0 → (∃ more, s'.positions = ⟨L, r.1, r.2⟩ :: more) ∧ s'.pool.tick = s.pool.tick ∧
        r.1 ≤ s'.pool.tick ∧ s'.pool.tick < r.2 ∧ active m s.pool.tick + L.toNat ≤ s'.pool.liquidity.toNat) := by
  have hns : ∀ v, s.kind ≠ .swapHalf v := by
    intro v hv
    rw [hv] at hk
    exact hk
  have hm : MaySwap s c m := fun v hv => absurd hv (hns v)
  have hr' : Runs m s' := .rebalance fuel hr hx hf (fun x e => fun v hv => absurd hv (hns v))
  obtain ⟨_, _, _, _, _, _, _, _, _, _, _, _, _, hst⟩ := C39_rebalance hr hx hf hm
  have htick := (hst hns).2.2.2
  obtain ⟨r, rs, a, b, L, h1, h2, h3, h4, h5⟩ := C60_rebalance hr hx hs hns
  have h1' : InitRanges s (r :: rs) := by
    unfold RebalanceRanges at h1
    revert h1
    rcases hkk : s.kind <;> intro h1 <;> rw [hkk] at hk <;> first | exact h1 | exact absurd hk id
  have hc := follows_init (Or.inl hk) h1'
  refine ⟨r, a, b, L, hc, h2, h3, h4, fun hL => ?_⟩
  obtain ⟨more, h6⟩ := h5 hL
  have hwf := C42_wellformed hr' (q := ⟨L, r.1, r.2⟩) (by rw [h6]; simp)
  have hin := C115_centred (spacing_pos hr) hc hwf.2.1 hw
  rw [← htick] at hin
  refine ⟨⟨more, h6⟩, htick, hin.1, hin.2, ?_⟩
  have e' := C115_active hr'
  rw [h6, earning_cons, if_pos hin] at e'
  rw [← htick]
  push_cast at e'
  omega

/-! ### Strategies that open where they earn nothing -/

open StratDemo in
/-- C115: the swapping strategy centres its range on the tick before its swap.  Here its swap moves the price out of the
range, and all its liquidity is idle when `Init` returns. -/
theorem C115_swapped : ∃ (m : List Entry) (s s' : Strat) (c : U256 × U256), Runs m s ∧ s.kind = .swapHalf 120 ∧
    s.init 10 = .ok (c, s') ∧ Runs m s' ∧ s'.positions = [⟨ofNat 125005499, -120, 120⟩] ∧ s'.pool.tick = 198 ∧
    earning s'.positions s'.pool.tick = 0 :=
  ⟨m1, g1, g2, j2.1, s1, by decide +kernel, eq_getOk _ (by decide +kernel), s2, gvalues.1, gvalues.2.2.2, by decide +kernel⟩

namespace InRangeDemo

/-- A pool at tick -60. -/
def q0 : Pool := getOk (Pool.new "WETH" "USDC" 3000 (ofNat (tickPrice (-60)))) (by decide +kernel)
theorem n0 : Pool.new "WETH" "USDC" 3000 (ofNat (tickPrice (-60))) = .ok q0 := eq_getOk _ _

/-- A strategy of half the spacing. -/
def k0 : Strat := getOk (Strat.new (.aroundPrice 30) (ofNat 1000000) (ofNat 2000000) q0) (by decide +kernel)
def i1 : (U256 × U256) × Strat := getOk (k0.init 10) (by decide +kernel)
theorem r0 : Runs [] k0 := .start (Or.inr (Or.inl rfl)) n0 (eq_getOk _ (by decide +kernel))
theorem r1 : Runs [] i1.2 := .init 10 r0 (eq_getOk _ (by decide +kernel)) (by unfold Fits; decide +kernel) (by
  intro w hw
  rw [show k0.kind = .aroundPrice 30 by decide +kernel] at hw
  cases hw)

end InRangeDemo

open InRangeDemo in
/-- C115: the condition on the width is needed.  With half the spacing, at tick -60, both ends are rounded down, and the
position ends at the current tick. -/
theorem C115_half : ∃ (s s' : Strat) (c : U256 × U256) (L : U256), Runs [] s ∧ s.kind = .aroundPrice 30 ∧ s.pool.spacing = 60 ∧
    s.init 10 = .ok (c, s') ∧ Runs [] s' ∧ s'.positions = [⟨L, -120, -60⟩] ∧ 0 < L.toNat ∧ s'.pool.tick = -60 ∧
    earning s'.positions s'.pool.tick = 0 ∧ s'.pool.liquidity.toNat = 0 := by
  refine ⟨k0, i1.2, i1.1, (i1.2.positions.headD ⟨zero, 0, 0⟩).amount, r0, by decide +kernel, by decide +kernel,
    eq_getOk _ (by decide +kernel), r1, by decide +kernel, by decide +kernel, by decide +kernel, by decide +kernel, by decide +kernel⟩

open StratDemo in
/-- C115: the fill-up strategy meets the hypotheses, at `Init` and at `Rebalance`, with a nonzero amount; its main position
contains the tick (0, then 9) and its second one does not. -/
example : Runs m1 f1 ∧ f1.init 10 = .ok (i2.1, f2) ∧ Fits m1 f2 ∧ Kind.Sane f1.kind ∧ Follows f1.kind 120 ∧ 2 * 120 ≠ f1.pool.spacing ∧
    Runs m1 f3 ∧ f3.rebalance 10 = .ok (some (ofNat 923288, ofNat 2076975), f4) ∧ Fits m1 f4 ∧ Kind.Sane f3.kind ∧ Follows f3.kind 120 ∧
    2 * 120 ≠ f3.pool.spacing ∧ f2.pool.liquidity.toNat = 50000000 + 167175499 ∧ f4.pool.liquidity.toNat = 50000000 + 167175318 ∧
    earning f4.positions f4.pool.tick = 167175318 :=
  ⟨r1, e2, fits2, sane.1, by rw [show f1.kind = .fillUp 120 by decide +kernel]; exact rfl, by decide +kernel, r3, e4', fits4, sane.2,
    by rw [show f3.kind = .fillUp 120 by decide +kernel]; exact rfl, by decide +kernel, by decide +kernel, by decide +kernel, by decide +kernel⟩

-- a band of half width 2^90 around the price 1: the current tick 0 is inside
example : TickOf (2 ^ 96) 0 ∧ tickPrice (0 + 1) ≤ 2 ^ 96 + 2 ^ 90 := ⟨⟨by decide, by decide, by decide +kernel, by decide +kernel⟩, by decide +kernel⟩

end Props
end Uni
