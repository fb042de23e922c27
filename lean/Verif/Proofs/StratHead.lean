import Verif.Proofs.StratRuns
/-! # The main position of a strategy -/
namespace Uni
open U256 Spec TickData TickMath SwapMath FullMath SqrtPriceMath LiquidityAmounts Pool
namespace Strat

/-- The range `r` is opened first, with everything affordable; further positions follow. -/
def Leads (s s' : Strat) (r : Int × Int) : Prop :=
  ∃ L, s.affordable r.1 r.2 = .ok L ∧ (L.toNat ≠ 0 → ∃ more, s'.positions = s.positions ++ ⟨L, r.1, r.2⟩ :: more)

theorem Leads.more {s t s' : Strat} {r : Int × Int} (h : Leads s t r) {m : List Entry} {rs : List (Int × Int)} (ho : Opens m t s' rs) :
    Leads s s' r := by
  obtain ⟨L, h1, h2⟩ := h
  obtain ⟨new, g, _⟩ := ho
  refine ⟨L, h1, fun hz => ?_⟩
  obtain ⟨more, h3⟩ := h2 hz
  exact ⟨more ++ new, by rw [g.pos, h3, List.append_assoc]; rfl⟩

theorem mintAmount_pos {s s' : Strat} {l u : Int} {L : U256} (hx : s.mintAmount l u L = .ok s') :
    s'.positions = s.positions ++ [⟨L, l, u⟩] := by
  unfold mintAmount at hx
  obtain ⟨_, _, hx⟩ := bind_ok hx
  cases hx; rfl

theorem mintPosition_leads {s s' : Strat} {r : Int × Int} (hx : s.mintPosition r.1 r.2 = .ok s') : Leads s s' r := by
  unfold mintPosition at hx
  obtain ⟨L, h1, hx⟩ := bind_ok hx
  refine ⟨L, h1, fun hz => ?_⟩
  rw [if_neg (fun h => hz ((isZero_iff _).1 h))] at hx
  exact ⟨[], mintAmount_pos hx⟩

theorem mintUnchecked_leads {s s' : Strat} {r : Int × Int} (hx : s.mintUnchecked r.1 r.2 = .ok s') : Leads s s' r := by
  unfold mintUnchecked at hx
  obtain ⟨L, h1, hx⟩ := bind_ok hx
  exact ⟨L, h1, fun _ => ⟨[], mintAmount_pos hx⟩⟩

theorem setTwo_leads {s s' : Strat} {a b : Int} (hx : s.setTwo a b = .ok s') : Leads s s' (s.around s.pool.tick a) := by
  unfold setTwo at hx
  dsimp only at hx
  obtain ⟨s1, h1, hx⟩ := bind_ok hx
  obtain ⟨s2, h2, hx⟩ := bind_ok hx
  exact ((mintPosition_leads h1).more (twoAbove_opens [] h2)).more (twoBelow_opens [] hx)

theorem setLimit_leads {s s' : Strat} {w : Int} (hx : s.setLimit w = .ok s') : Leads s s' (s.around s.pool.tick w) := by
  unfold setLimit at hx
  dsimp only at hx
  obtain ⟨s1, h1, hx⟩ := bind_ok hx
  obtain ⟨s2, h2, hx⟩ := bind_ok hx
  exact ((mintPosition_leads h1).more (limitAbove_opens [] h2)).more (limitBelow_opens [] hx)

theorem setFill_leads {s s' : Strat} {w : Int} (hx : s.setFill w = .ok s') : Leads s s' (s.around s.pool.tick w) := by
  unfold setFill at hx
  dsimp only at hx
  obtain ⟨s1, h1, hx⟩ := bind_ok hx
  obtain ⟨rs, _, k3⟩ := fillSide_opens [] hx
  exact (mintPosition_leads h1).more k3

theorem setBollingerFill_leads {s s' : Strat} {k : Int} (hx : s.setBollingerFill k = .ok s') :
    ∃ r, s.bollingerTicks k = .ok r ∧ Leads s s' r := by
  unfold setBollingerFill at hx
  obtain ⟨r, h0, hx⟩ := bind_ok hx
  obtain ⟨s1, h1, hx⟩ := bind_ok hx
  refine ⟨r, h0, ?_⟩
  split at hx
  · obtain ⟨rs, _, k3⟩ := fillSide_opens [] hx
    exact (mintPosition_leads h1).more k3
  · cases hx
    exact mintPosition_leads h1

theorem openFirst_leads {s s' : Strat} {fuel : Nat} (hns : ∀ w, s.kind ≠ .swapHalf w) (hnp : s.kind ≠ .noProvision)
    (hx : s.openFirst fuel = .ok s') : ∃ r rs, (Ready s → Kind.Sane s.kind → InitRanges s (r :: rs)) ∧ Leads s s' r := by
  unfold openFirst at hx
  unfold InitRanges Kind.Sane
  generalize hk : s.kind = kind at *
  cases kind with
  | constantInterval w =>
    dsimp only at hx ⊢
    obtain ⟨L, h1, h2⟩ := mintUnchecked_leads hx
    exact ⟨_, _, fun hr hw => ⟨_, around_centred hr hr.lo hr.hi hw, rfl⟩, L, h1, h2⟩
  | aroundPrice w => exact ⟨_, _, fun hr hw => ⟨_, around_centred hr hr.lo hr.hi hw, rfl⟩, mintUnchecked_leads hx⟩
  | twoInterval a b =>
    exact ⟨_, _, fun hr hw => ⟨_, _, _, around_centred hr hr.lo hr.hi hw, (next_ok hr).1, (next_ok hr).2, rfl⟩, setTwo_leads hx⟩
  | aroundAverage w n =>
    obtain ⟨r, h1, hx⟩ := bind_ok hx
    refine ⟨r, [], fun hr hw => ?_, mintPosition_leads hx⟩
    obtain ⟨avg, t, a1, a2, a3⟩ := averageTicks_ok hr hw h1
    exact ⟨avg, t, r, a1, a2, a3, rfl⟩
  | bollinger n k =>
    obtain ⟨r, h1, hx⟩ := bind_ok hx
    exact ⟨_, _, fun _ hw => ⟨r, bollingerTicks_ok hw h1, rfl⟩, mintPosition_leads hx⟩
  | bollingerFillUp n k =>
    obtain ⟨r, h1, hx⟩ := bind_ok hx
    exact ⟨_, _, fun _ hw => ⟨r, bollingerTicks_ok hw h1, rfl⟩, mintPosition_leads hx⟩
  | volatilitySized n k =>
    obtain ⟨r, h1, hx⟩ := bind_ok hx
    refine ⟨r, [], fun _ hw => ?_, mintPosition_leads hx⟩
    obtain ⟨vol, a1, a2⟩ := volatilityTicks_ok hw h1
    exact ⟨vol, r, a1, a2, rfl⟩
  | fillUp w => exact ⟨_, _, fun hr hw => ⟨_, around_centred hr hr.lo hr.hi hw, Or.inl rfl⟩, setFill_leads hx⟩
  | limitOrder w =>
    exact ⟨_, _, fun hr hw => ⟨_, _, _, around_centred hr hr.lo hr.hi hw, (next_ok hr).1, (next_ok hr).2, rfl⟩, setLimit_leads hx⟩
  | swapHalf w => exact absurd rfl (hns w)
  | v2 => exact ⟨(-887270, 887270), [], fun _ _ => rfl, mintPosition_leads hx⟩
  | noProvision => exact absurd rfl hnp

theorem openAgain_leads {s s' : Strat} {fuel : Nat} (hns : ∀ w, s.kind ≠ .swapHalf w) (hnp : s.kind ≠ .noProvision)
    (hx : s.openAgain fuel = .ok s') : ∃ r rs, (Ready s → Kind.Sane s.kind → RebalanceRanges s (r :: rs)) ∧ Leads s s' r := by
  unfold openAgain at hx
  unfold RebalanceRanges InitRanges Kind.Sane
  generalize hk : s.kind = kind at *
  cases kind with
  | constantInterval w => exact ⟨(s.tickLower, s.tickUpper), [], fun _ _ => rfl, mintPosition_leads hx⟩
  | aroundPrice w => exact ⟨_, _, fun hr hw => ⟨_, around_centred hr hr.lo hr.hi hw, rfl⟩, mintPosition_leads hx⟩
  | twoInterval a b =>
    exact ⟨_, _, fun hr hw => ⟨_, _, _, around_centred hr hr.lo hr.hi hw, (next_ok hr).1, (next_ok hr).2, rfl⟩, setTwo_leads hx⟩
  | aroundAverage w n =>
    obtain ⟨r, h1, hx⟩ := bind_ok hx
    refine ⟨r, [], fun hr hw => ?_, mintPosition_leads hx⟩
    obtain ⟨avg, t, a1, a2, a3⟩ := averageTicks_ok hr hw h1
    exact ⟨avg, t, r, a1, a2, a3, rfl⟩
  | bollinger n k =>
    obtain ⟨r, h1, hx⟩ := bind_ok hx
    exact ⟨_, _, fun _ hw => ⟨r, bollingerTicks_ok hw h1, rfl⟩, mintPosition_leads hx⟩
  | bollingerFillUp n k =>
    obtain ⟨r, h1, h2⟩ := setBollingerFill_leads hx
    exact ⟨_, _, fun hr hw => ⟨r, bollingerTicks_ok hw h1, Or.inl rfl⟩, h2⟩
  | volatilitySized n k =>
    obtain ⟨r, h1, hx⟩ := bind_ok hx
    refine ⟨r, [], fun _ hw => ?_, mintPosition_leads hx⟩
    obtain ⟨vol, a1, a2⟩ := volatilityTicks_ok hw h1
    exact ⟨vol, r, a1, a2, rfl⟩
  | fillUp w => exact ⟨_, _, fun hr hw => ⟨_, around_centred hr hr.lo hr.hi hw, Or.inl rfl⟩, setFill_leads hx⟩
  | limitOrder w =>
    exact ⟨_, _, fun hr hw => ⟨_, _, _, around_centred hr hr.lo hr.hi hw, (next_ok hr).1, (next_ok hr).2, rfl⟩, setLimit_leads hx⟩
  | swapHalf w => exact absurd rfl (hns w)
  | v2 => exact ⟨(-887270, 887270), [], fun _ _ => rfl, mintPosition_leads hx⟩
  | noProvision => exact absurd rfl hnp

/-- Everything affordable, in terms of the prices at the ends of the range. -/
theorem affordable_ticks {s : Strat} {l u : Int} {L : U256} (hx : s.affordable l u = .ok L) :
    (-887272 ≤ l ∧ l ≤ 887272) ∧ (-887272 ≤ u ∧ u ≤ 887272) := by
  unfold affordable at hx
  obtain ⟨a, ha, hx⟩ := bind_ok hx
  obtain ⟨b, hb, _⟩ := bind_ok hx
  obtain ⟨h1, h2, _⟩ := getSqrtRatioAtTick_ok ha
  obtain ⟨h3, h4, _⟩ := getSqrtRatioAtTick_ok hb
  exact ⟨⟨h1, h2⟩, h3, h4⟩

theorem affordable_eq {s : Strat} {l u : Int} {L : U256} (hx : s.affordable l u = .ok L) :
    ∃ a b : U256, a.toNat = tickPrice l ∧ b.toNat = tickPrice u ∧
      getLiquidityForAmount s.pool.price a b s.amount0 s.amount1 = .ok L := by
  unfold affordable at hx
  obtain ⟨a, ha, hx⟩ := bind_ok hx
  obtain ⟨b, hb, hx⟩ := bind_ok hx
  refine ⟨a, b, ?_, ?_, hx⟩
  · unfold tickPrice; rw [ha]
  · unfold tickPrice; rw [hb]

/-- The documented ranges depend on what closing the positions leaves alone. -/
theorem rebalanceRanges_congr {s s1 : Strat} (hk : s1.kind = s.kind) (hh : s1.history = s.history) (hl : s1.tickLower = s.tickLower)
    (hu : s1.tickUpper = s.tickUpper) (hst : Still s.pool s1.pool) {rs : List (Int × Int)} (h : RebalanceRanges s1 rs) :
    RebalanceRanges s rs := by
  unfold RebalanceRanges InitRanges AverageBand at h ⊢
  rw [hk, hh, hl, hu, hst.same.1, hst.tick, hst.price] at h
  exact h

/-! ### Strategies without positions -/

theorem runs_idle {m : List Entry} {s : Strat} (hr : Runs m s) (hk : s.kind = .noProvision) : s.positions = [] := by
  induction hr with
  | start hf hn hs => exact (new_owns hf hn hs).2.1
  | trade fuel op _ hb hx ih => exact ih hk
  | @snapshot m s s' _ hx ih =>
    have h2 := (makeSnapshot_eq hx).2
    rw [h2]
    apply ih
    unfold makeSnapshot at hx
    split at hx
    · obtain ⟨h, h1, hx⟩ := bind_ok hx; cases hx; exact hk
    · obtain ⟨h, h1, hx⟩ := bind_ok hx; cases hx; exact hk
    · obtain ⟨h, h1, hx⟩ := bind_ok hx; cases hx; exact hk
    · obtain ⟨h, h1, hx⟩ := bind_ok hx; cases hx; exact hk
    · cases hx; exact hk
  | @init m s s' c fuel hr0 hx hf hw ih =>
    obtain ⟨h1, rfl⟩ := init_eq hx
    obtain ⟨new, x0, x1, rs, h2, _⟩ := openFirst_opened (runs_owns hr0) hf hw h1
    have hk0 := h2.kind.symm.trans hk
    unfold openFirst at h1
    rw [hk0] at h1
    cases h1
    exact ih hk
  | @rebalance m s s' c fuel hr0 hx hf hw ih =>
    rcases rebalance_eq hx with ⟨_, _, rfl⟩ | ⟨hne, c0, s1, h1, h2, rfl⟩
    · exact ih hk
    · obtain ⟨o, e, hb, hk1, _, _, _, hst, rfl⟩ := closed_owns (runs_owns hr0) h1
      obtain ⟨new, x0, x1, rs, h3, _⟩ := openAgain_opened o hf (closed_swap hk1 hb hst (hw _ rfl)) h2
      exact absurd (hk1.symm.trans (h3.kind.symm.trans hk)) hne
  | burnAll _ hx he ih => exact he

/-! ### The reported amounts -/

theorem worth_nonneg (P : Nat) (ps : List StratPos) : 0 ≤ worth0 P ps ∧ 0 ≤ worth1 P ps := by
  induction ps with
  | nil => exact ⟨le_refl _, le_refl _⟩
  | cons q ps ih =>
    rw [worth0_cons, worth1_cons]
    have hn := holding_nonneg (P := P) (l := q.lower) (u := q.upper)
    have hq : (0 : ℚ) ≤ (q.amount.toNat : ℚ) := by exact_mod_cast Nat.zero_le _
    have h0 : 0 ≤ ⌊(q.amount.toNat : ℚ) * holding0 P q.lower q.upper⌋ := Int.floor_nonneg.2 (mul_nonneg hq hn.1)
    have h1 : 0 ≤ ⌊(q.amount.toNat : ℚ) * holding1 P q.lower q.upper⌋ := Int.floor_nonneg.2 (mul_nonneg hq hn.2)
    omega

theorem amountsLoop_spec (P : U256) : ∀ (ps : List StratPos), (∀ q ∈ ps, WellFormed q ∧ q.amount.toNat < 2 ^ 128) → ∀ acc : U256 × U256,
    ∃ r, amountsLoop P ps acc = .ok r ∧ (r.1.toNat : Int) = (acc.1.toNat + worth0 P.toNat ps) % 2 ^ 256 ∧
      (r.2.toNat : Int) = (acc.2.toNat + worth1 P.toNat ps) % 2 ^ 256 := by
  intro ps
  induction ps with
  | nil =>
    intro _ acc
    have h0 := acc.1.toNat_lt
    have h1 := acc.2.toNat_lt
    refine ⟨acc, rfl, ?_, ?_⟩
    · show (acc.1.toNat : Int) = (acc.1.toNat + 0) % 2 ^ 256; omega
    · show (acc.2.toNat : Int) = (acc.2.toNat + 0) % 2 ^ 256; omega
  | cons q ps ih =>
    intro hw acc
    obtain ⟨⟨_, hlu, hl, hu⟩, hL⟩ := hw q (List.mem_cons_self ..)
    obtain ⟨a, ha, ha2⟩ := getSqrtRatioAtTick_spec q.lower hl (by omega)
    obtain ⟨b, hb, hb2⟩ := getSqrtRatioAtTick_spec q.upper (by omega) hu
    obtain ⟨r1, r2⟩ := ratio_lt hl hlu hu
    have hB := ratioN_lt160 (t := q.upper) (by omega) hu
    obtain ⟨r, h1, h2, h3⟩ := Props.C38_amounts P a b q.amount (by omega) (by omega) (by omega) hL
    obtain ⟨f0, f1⟩ := holding_ratio (P := P.toNat) hl hlu hu q.amount.toNat
    rw [ha2, hb2] at h2 h3
    rw [f0] at h2
    rw [f1] at h3
    obtain ⟨r', k1, k2, k3⟩ := ih (fun x hx => hw x (List.mem_cons_of_mem _ hx)) (add acc.1 r.1, add acc.2 r.2)
    refine ⟨r', ?_, ?_, ?_⟩
    · unfold amountsLoop
      rw [ha, Except_bind_ok, hb, Except_bind_ok, h1, Except_bind_ok, k1]
    · rw [k2, worth0_cons]
      dsimp only
      rw [toNat_add]
      push_cast at h2 ⊢
      omega
    · rw [k3, worth1_cons]
      dsimp only
      rw [toNat_add]
      push_cast at h3 ⊢
      omega

theorem Owns.small {m : List Entry} {ps : List StratPos} {p : Pool} (ho : Owns m ps p) : ∀ q ∈ ps, WellFormed q ∧ q.amount.toNat < 2 ^ 128 := by
  intro q hq
  refine ⟨ho.wf q hq, ?_⟩
  obtain ⟨h, hi, hs⟩ := ho.inv
  have hlt := hi.cov.outstanding_lt q.lower q.upper
  rw [hs.outstanding, outstanding_append] at hlt
  obtain ⟨a, b, rfl⟩ := List.append_of_mem hq
  rw [entries_append, outstanding_append] at hlt
  have := outstanding_entries_nonneg a q.lower q.upper
  have := outstanding_entries_nonneg b q.lower q.upper
  have := ho.nonneg q.lower q.upper
  have e : outstanding (entries (q :: b)) q.lower q.upper = (q.amount.toNat : Int) + outstanding (entries b) q.lower q.upper := by
    show outstanding (⟨q.lower, q.upper, q.amount.toNat⟩ :: entries b) _ _ = _
    rw [outstanding_cons, if_pos ⟨rfl, rfl⟩]
  omega

end Strat
end Uni
