import Verif.Proofs.Strategy
/-! # The ranges strategies open -/
namespace Uni
open U256 Spec TickData TickMath SwapMath FullMath SqrtPriceMath LiquidityAmounts Pool
namespace Strat

/-- The pool facts the ranges depend on. -/
structure Ready (s : Strat) : Prop where
  unit : s.unit = s.pool.spacing
  pos : 0 < s.pool.spacing
  small : s.pool.spacing ≤ 200
  lo : -887272 ≤ s.pool.tick
  hi : s.pool.tick < 887272

theorem Owns.ready {m : List Entry} {s : Strat} {ps : List StratPos} (ho : Owns m ps s.pool) : Ready s := by
  obtain ⟨h, hr, _⟩ := ho.pool
  have hi := Props.reachable_inv hr
  obtain ⟨h1, h2⟩ := reachable_unit hr
  exact ⟨h1, by omega, by omega, hi.tlo, hi.thi⟩

theorem around_centred {s : Strat} (hr : Ready s) {t w : Int} (ht : -887272 ≤ t) (ht2 : t < 887272) (hw : |w| ≤ 2 ^ 30) :
    Centred s.pool.spacing t w (s.around t w) := by
  have h1 := hr.pos
  have h2 := hr.small
  obtain ⟨h3, h4⟩ := abs_le.1 hw
  unfold around Centred Nearest
  rw [hr.unit]
  obtain ⟨_, _, a⟩ := Props.C17_rounding (t - w) s.pool.spacing (by omega) (by omega) h1 (by omega)
  obtain ⟨_, _, b⟩ := Props.C17_rounding (t + w) s.pool.spacing (by omega) (by omega) h1 (by omega)
  exact ⟨a, b⟩

theorem next_ok {s : Strat} (hr : Ready s) : NextUp s.pool.spacing s.pool.tick (TickRound.ceil s.pool.tick s.unit) ∧
    NextDown s.pool.spacing s.pool.tick (TickRound.floor s.pool.tick s.unit) := by
  have h1 := hr.pos
  have h2 := hr.small
  have h3 := hr.lo
  have h4 := hr.hi
  rw [hr.unit]
  obtain ⟨⟨a1, a2, a3⟩, ⟨b1, b2, b3⟩, _⟩ := Props.C17_rounding s.pool.tick s.pool.spacing (by omega) (by omega) h1 (by omega)
  exact ⟨⟨b1, b3, by omega⟩, a1, a2, a3⟩

theorem tickOf_ok {p : U256} {t : Int} (h : getTickAtSqrtRatio p = .ok t) : TickOf p.toNat t := by
  obtain ⟨h1, h2, h3, h4⟩ := getTickAtSqrtRatio_ok h
  refine ⟨h1, h2, ?_, ?_⟩
  · rw [Props.tickPrice_eq h1 (by omega)]; exact h3
  · rw [Props.tickPrice_eq (by omega) (by omega)]; exact h4

theorem sqrt_ok {x r : U256} (h : sqrt x = .ok r) : r.toNat = Nat.sqrt x.toNat := by
  obtain ⟨r', h1, h2⟩ := sqrt_spec x
  rw [h] at h1
  cases h1
  exact h2

theorem averageTicks_ok {s : Strat} (hr : Ready s) {w : Int} (hw : |w| ≤ 2 ^ 30) {r : Int × Int} (hx : s.averageTicks w = .ok r) :
    ∃ avg t, s.history.average = .ok avg ∧ TickOf (Nat.sqrt avg.toNat) t ∧ Centred s.pool.spacing t w r := by
  unfold averageTicks at hx
  obtain ⟨avg, h1, hx⟩ := bind_ok hx
  obtain ⟨q, h2, hx⟩ := bind_ok hx
  obtain ⟨t, h3, hx⟩ := bind_ok hx
  cases hx
  have h4 := tickOf_ok h3
  rw [sqrt_ok h2] at h4
  exact ⟨avg, t, h1, h4, around_centred hr h4.1 h4.2.1 hw⟩

theorem minSqrt_nat : minSqrtRatio.toNat = minPrice := by decide +kernel
theorem maxSqrt_nat : maxSqrtRatio.toNat = maxPrice := by decide +kernel

theorem band_ok {c w : U256} {r : Int × Int} (hx : band c w = .ok r) : BandOf c.toNat w.toNat r := by
  unfold band at hx
  obtain ⟨l, h1, hx⟩ := bind_ok hx
  obtain ⟨u, h2, hx⟩ := bind_ok hx
  cases hx
  unfold BandOf
  constructor
  · unfold bandLower at h1
    have e := subOverflow_spec c w
    have f := subOverflow_flag c w
    by_cases hc : c.toNat < minPrice + w.toNat
    · rw [if_pos hc]
      rw [if_pos] at h1
      · exact (Except.ok.inj h1).symm
      · rw [Bool.or_eq_true, decide_eq_true_iff, cmp_neg_iff, minSqrt_nat]
        by_cases hf : (subOverflow c w).2 = true
        · exact Or.inl hf
        · right
          rw [if_neg hf] at e
          omega
    · rw [if_neg hc]
      have hf : ¬ (subOverflow c w).2 = true := by rw [f]; unfold minPrice at hc; omega
      rw [if_neg hf] at e
      rw [if_neg] at h1
      · have := tickOf_ok h1
        rw [show (subOverflow c w).1.toNat = c.toNat - w.toNat by omega] at this
        exact this
      · rw [Bool.or_eq_true, decide_eq_true_iff, cmp_neg_iff, minSqrt_nat]
        rintro (h | h)
        · exact hf h
        · omega
  · unfold bandUpper at h2
    have e := addOverflow_spec c w
    have f := addOverflow_flag c w
    by_cases hc : maxPrice < c.toNat + w.toNat
    · rw [if_pos hc]
      rw [if_pos] at h2
      · exact (Except.ok.inj h2).symm
      · rw [Bool.or_eq_true, decide_eq_true_iff, cmp_pos_iff, maxSqrt_nat]
        by_cases hf : (addOverflow c w).2 = true
        · exact Or.inl hf
        · right
          rw [if_neg hf] at e
          omega
    · rw [if_neg hc]
      have hf : ¬ (addOverflow c w).2 = true := by rw [f]; unfold maxPrice at hc; omega
      rw [if_neg hf] at e
      rw [if_neg] at h2
      · have := tickOf_ok h2
        rw [show (addOverflow c w).1.toNat = c.toNat + w.toNat by omega] at this
        exact this
      · rw [Bool.or_eq_true, decide_eq_true_iff, cmp_pos_iff, maxSqrt_nat]
        rintro (h | h)
        · exact hf h
        · omega

theorem bandWidth_ok {s : Strat} {k : Int} (hk : 0 ≤ k ∧ k < 2 ^ 64) {w : U256} (hx : s.bandWidth k = .ok w) :
    ∃ vol, s.history.volatility = .ok vol ∧ w.toNat = bandHalf vol k := by
  unfold bandWidth at hx
  obtain ⟨vol, h1, hx⟩ := bind_ok hx
  refine ⟨vol, h1, ?_⟩
  rw [sqrt_ok hx, toNat_rsh, toNat_mul, toNat_ofWord]
  unfold bandHalf
  rw [show (BitVec.ofInt 64 k).toNat = k.toNat by
    rw [BitVec.toNat_ofInt]
    congr 1
    exact Int.emod_eq_of_lt hk.1 (by exact_mod_cast hk.2)]

theorem bollingerTicks_ok {s : Strat} {k : Int} (hk : 0 ≤ k ∧ k < 2 ^ 64) {r : Int × Int} (hx : s.bollingerTicks k = .ok r) :
    AverageBand s k r := by
  unfold bollingerTicks at hx
  obtain ⟨w, h1, hx⟩ := bind_ok hx
  obtain ⟨avg, h2, hx⟩ := bind_ok hx
  obtain ⟨c, h3, hx⟩ := bind_ok hx
  obtain ⟨vol, h4, h5⟩ := bandWidth_ok hk h1
  have h6 := band_ok hx
  rw [sqrt_ok h3, h5] at h6
  exact ⟨avg, vol, h2, h4, h6⟩

theorem volatilityTicks_ok {s : Strat} {k : Int} (hk : 0 ≤ k ∧ k < 2 ^ 64) {r : Int × Int} (hx : s.volatilityTicks k = .ok r) :
    ∃ vol, s.history.volatility = .ok vol ∧ BandOf s.pool.price.toNat (bandHalf vol k) r := by
  unfold volatilityTicks at hx
  obtain ⟨w, h1, hx⟩ := bind_ok hx
  obtain ⟨vol, h4, h5⟩ := bandWidth_ok hk h1
  have h6 := band_ok hx
  rw [h5] at h6
  exact ⟨vol, h4, h6⟩

theorem filled_ok {s : Strat} (hr : Ready s) {r : Int × Int} {rs : List (Int × Int)} (h : fillPlan s.unit s.pool.tick r rs) :
    Filled s.pool.spacing s.pool.tick r (r :: rs) := by
  obtain ⟨n1, n2⟩ := next_ok hr
  rcases h with rfl | ⟨h, rfl⟩ | ⟨h, rfl⟩
  · exact Or.inl rfl
  · exact Or.inr (Or.inl ⟨_, n1, h, rfl⟩)
  · exact Or.inr (Or.inr ⟨_, n2, h, rfl⟩)

/-- The positions of `Init`, except for the swapping strategy: they are paid for, and their ranges are among the
documented ones. -/
theorem openFirst_opens (m : List Entry) {s s' : Strat} {fuel : Nat} (hns : ∀ w, s.kind ≠ .swapHalf w)
    (hx : s.openFirst fuel = .ok s') : ∃ rs, (Ready s → Kind.Sane s.kind → InitRanges s rs) ∧ Opens m s s' rs := by
  unfold openFirst at hx
  unfold InitRanges Kind.Sane
  generalize hk : s.kind = kind at *
  cases kind with
  | constantInterval w =>
    dsimp only at hx ⊢
    obtain ⟨n, g, hs⟩ := mintUnchecked_opens m hx
    exact ⟨_, fun hr hw => ⟨_, around_centred hr hr.lo hr.hi hw, rfl⟩, n, ⟨g.pos, g.kind.trans hk.symm, g.history, g.still, g.own, g.recs, g.path⟩, hs⟩
  | aroundPrice w => exact ⟨_, fun hr hw => ⟨_, around_centred hr hr.lo hr.hi hw, rfl⟩, mintUnchecked_opens m hx⟩
  | twoInterval a b =>
    exact ⟨_, fun hr hw => ⟨_, _, _, around_centred hr hr.lo hr.hi hw, (next_ok hr).1, (next_ok hr).2, rfl⟩, setTwo_opens m hx⟩
  | aroundAverage w n =>
    obtain ⟨r, h1, hx⟩ := bind_ok hx
    refine ⟨_, fun hr hw => ?_, mintPosition_opens m hx⟩
    obtain ⟨avg, t, a1, a2, a3⟩ := averageTicks_ok hr hw h1
    exact ⟨avg, t, r, a1, a2, a3, rfl⟩
  | bollinger n k =>
    obtain ⟨r, h1, hx⟩ := bind_ok hx
    exact ⟨_, fun _ hw => ⟨r, bollingerTicks_ok hw h1, rfl⟩, mintPosition_opens m hx⟩
  | bollingerFillUp n k =>
    obtain ⟨r, h1, hx⟩ := bind_ok hx
    exact ⟨_, fun _ hw => ⟨r, bollingerTicks_ok hw h1, rfl⟩, mintPosition_opens m hx⟩
  | volatilitySized n k =>
    obtain ⟨r, h1, hx⟩ := bind_ok hx
    refine ⟨_, fun _ hw => ?_, mintPosition_opens m hx⟩
    obtain ⟨vol, a1, a2⟩ := volatilityTicks_ok hw h1
    exact ⟨vol, r, a1, a2, rfl⟩
  | fillUp w =>
    obtain ⟨rs, h1, h2⟩ := setFill_opens m hx
    exact ⟨_, fun hr hw => ⟨_, around_centred hr hr.lo hr.hi hw, filled_ok hr h1⟩, h2⟩
  | limitOrder w =>
    exact ⟨_, fun hr hw => ⟨_, _, _, around_centred hr hr.lo hr.hi hw, (next_ok hr).1, (next_ok hr).2, rfl⟩, setLimit_opens m hx⟩
  | swapHalf w => exact absurd rfl (hns w)
  | v2 => exact ⟨_, fun _ _ => rfl, mintPosition_opens m hx⟩
  | noProvision => cases hx; exact ⟨[], fun _ _ => rfl, Opens.none _ _ _⟩

/-- The same for `Rebalance`. -/
theorem openAgain_opens (m : List Entry) {s s' : Strat} {fuel : Nat} (hns : ∀ w, s.kind ≠ .swapHalf w)
    (hx : s.openAgain fuel = .ok s') : ∃ rs, (Ready s → Kind.Sane s.kind → RebalanceRanges s rs) ∧ Opens m s s' rs := by
  unfold openAgain at hx
  unfold RebalanceRanges InitRanges Kind.Sane
  generalize hk : s.kind = kind at *
  cases kind with
  | constantInterval w => exact ⟨_, fun _ _ => rfl, mintPosition_opens m hx⟩
  | aroundPrice w => exact ⟨_, fun hr hw => ⟨_, around_centred hr hr.lo hr.hi hw, rfl⟩, mintPosition_opens m hx⟩
  | twoInterval a b =>
    exact ⟨_, fun hr hw => ⟨_, _, _, around_centred hr hr.lo hr.hi hw, (next_ok hr).1, (next_ok hr).2, rfl⟩, setTwo_opens m hx⟩
  | aroundAverage w n =>
    obtain ⟨r, h1, hx⟩ := bind_ok hx
    refine ⟨_, fun hr hw => ?_, mintPosition_opens m hx⟩
    obtain ⟨avg, t, a1, a2, a3⟩ := averageTicks_ok hr hw h1
    exact ⟨avg, t, r, a1, a2, a3, rfl⟩
  | bollinger n k =>
    obtain ⟨r, h1, hx⟩ := bind_ok hx
    exact ⟨_, fun _ hw => ⟨r, bollingerTicks_ok hw h1, rfl⟩, mintPosition_opens m hx⟩
  | bollingerFillUp n k =>
    obtain ⟨r, rs, h1, h2, h3⟩ := setBollingerFill_opens m hx
    exact ⟨_, fun hr hw => ⟨r, bollingerTicks_ok hw h1, filled_ok hr h2⟩, h3⟩
  | volatilitySized n k =>
    obtain ⟨r, h1, hx⟩ := bind_ok hx
    refine ⟨_, fun _ hw => ?_, mintPosition_opens m hx⟩
    obtain ⟨vol, a1, a2⟩ := volatilityTicks_ok hw h1
    exact ⟨vol, r, a1, a2, rfl⟩
  | fillUp w =>
    obtain ⟨rs, h1, h2⟩ := setFill_opens m hx
    exact ⟨_, fun hr hw => ⟨_, around_centred hr hr.lo hr.hi hw, filled_ok hr h1⟩, h2⟩
  | limitOrder w =>
    exact ⟨_, fun hr hw => ⟨_, _, _, around_centred hr hr.lo hr.hi hw, (next_ok hr).1, (next_ok hr).2, rfl⟩, setLimit_opens m hx⟩
  | swapHalf w => exact absurd rfl (hns w)
  | v2 => exact ⟨_, fun _ _ => rfl, mintPosition_opens m hx⟩
  | noProvision => cases hx; exact ⟨[], fun _ _ => rfl, Opens.none _ _ _⟩

end Strat
end Uni
