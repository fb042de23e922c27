import Verif.Spec.Invest
import Verif.Proofs.StratHead
/-! # What the strategies buy -/
namespace Uni
open U256 Spec TickData TickMath SwapMath FullMath SqrtPriceMath LiquidityAmounts Pool
namespace Strat

/-! ### A plan determines the purchases -/

theorem pair_ext {x y : U256 × U256} (h0 : x.1.toNat = y.1.toNat) (h1 : x.2.toNat = y.2.toNat) : x = y :=
  Prod.ext (ext_toNat h0) (ext_toNat h1)

end Strat
namespace Spec
theorem Buys.unique {P : U256} {plan : List Purchase} {x y y' : U256 × U256} {ps ps' : List StratPos}
    (h : Buys P plan x ps y) (h' : Buys P plan x ps' y') : ps = ps' ∧ y = y' := by
  induction h generalizing ps' y' with
  | done x => cases h'; exact ⟨rfl, rfl⟩
  | skip hs _ ih =>
    cases h' with
    | skip _ h2 => exact ih h2
    | step hn => exact absurd hs hn
  | @step o plan x z y ps a b A L hs hv ha hb hA hL h0 h1 _ ih =>
    cases h' with
    | skip hn _ => exact absurd hn hs
    | @step _ _ _ z' _ ps2 a' b' A' L' _ _ ha' hb' hA' hL' h0' h1' h2 =>
      obtain rfl : a = a' := ext_toNat (ha.trans ha'.symm)
      obtain rfl : b = b' := ext_toNat (hb.trans hb'.symm)
      rw [hA] at hA'
      cases hA'
      obtain rfl : L = L' := ext_toNat (hL.trans hL'.symm)
      obtain rfl : z = z' := Strat.pair_ext (by omega) (by omega)
      obtain ⟨e1, e2⟩ := ih h2
      exact ⟨by rw [e1], e2⟩

theorem Buys.append {P : U256} {p1 p2 : List Purchase} {x z y : U256 × U256} {a b : List StratPos}
    (h : Buys P p1 x a z) (h' : Buys P p2 z b y) : Buys P (p1 ++ p2) x (a ++ b) y := by
  induction h with
  | done x => exact h'
  | skip hs _ ih => exact .skip hs (ih h')
  | step hs hv ha hb hA hL h0 h1 _ ih =>
    rw [List.append_assoc]
    exact .step hs hv ha hb hA hL h0 h1 (ih h')

end Spec
namespace Strat

/-! ### The strategies follow their plans -/

/-- From one state to the next by following a plan. -/
def Follows (m : List Entry) (s s' : Strat) (plan : List Purchase) : Prop :=
  ∃ new, Grown m s s' new ∧ (Owns m s.positions s.pool → Fits m s' →
    Buys s.pool.price plan (s.amount0, s.amount1) new (s'.amount0, s'.amount1))

theorem Follows.refl (m : List Entry) (s : Strat) : Follows m s s [] := ⟨[], Grown.refl m s, fun _ _ => .done _⟩

theorem Grown.fits {m : List Entry} {s t : Strat} {b : List StratPos} (h : Grown m s t b) (hf : Fits m t) : Fits m s := by
  unfold Fits book at hf ⊢
  rw [h.pos] at hf
  exact wsum_total_fits hf

theorem Follows.trans {m : List Entry} {s t r : Strat} {a b : List Purchase} (h1 : Follows m s t a) (h2 : Follows m t r b) :
    Follows m s r (a ++ b) := by
  obtain ⟨x, g1, k1⟩ := h1
  obtain ⟨y, g2, k2⟩ := h2
  refine ⟨x ++ y, g1.trans g2, fun ho hf => ?_⟩
  have hft := g2.fits hf
  have h2 := k2 (g1.own ho hft).1 hf
  rw [g1.still.price] at h2
  exact (k1 ho hft).append h2

theorem ceil_zero_mul (q : ℚ) {L : U256} (h : L.toNat = 0) : ⌈(L.toNat : ℚ) * q⌉ = 0 := by
  rw [h]; simp

/-- One purchase that opens nothing. -/
theorem follows_none (m : List Entry) {s : Strat} {o : Purchase} {A L : U256} (hn : ¬ o.Skipped (s.amount0, s.amount1))
    (hx : s.affordable o.lower o.upper = .ok A) (hL : L.toNat = if o.half then A.toNat / 2 else A.toNat) (hz : L.toNat = 0) :
    Follows m s s [o] := by
  obtain ⟨a, b, ha, hb, hA⟩ := affordable_eq hx
  have hv := affordable_ticks hx
  refine ⟨[], Grown.refl m s, fun _ _ => ?_⟩
  have := Buys.step (z := (s.amount0, s.amount1)) hn hv ha hb hA hL (by rw [ceil_zero_mul _ hz]; omega) (by rw [ceil_zero_mul _ hz]; omega)
    (.done _)
  rw [if_pos hz] at this
  exact this

/-- One purchase that opens a position. -/
theorem follows_one (m : List Entry) {s s' : Strat} {o : Purchase} {A L : U256} (hn : ¬ o.Skipped (s.amount0, s.amount1))
    (hx : s.affordable o.lower o.upper = .ok A) (hL : L.toNat = if o.half then A.toNat / 2 else A.toNat)
    (hm : s.mintAmount o.lower o.upper L = .ok s') : Follows m s s' [o] := by
  have hle : L.toNat ≤ A.toNat := by rw [hL]; split <;> omega
  have hz : L.toNat ≠ 0 := by
    unfold mintAmount at hm
    obtain ⟨⟨a0, a1, q⟩, h1, _⟩ := bind_ok hm
    obtain ⟨b1, b2, _⟩ := mintStrategy_eq h1
    omega
  obtain ⟨a, b, ha, hb, hA⟩ := affordable_eq hx
  have hv := affordable_ticks hx
  have g := mintAmount_grown (m := m) hm (affordable_cost hx hle)
  refine ⟨_, g, fun ho hf => ?_⟩
  obtain ⟨_, c0, c1⟩ := g.own ho hf
  rw [cost0_single] at c0
  rw [cost1_single] at c1
  have := Buys.step (z := (s'.amount0, s'.amount1)) hn hv ha hb hA hL c0 c1 (.done _)
  rw [if_neg hz] at this
  exact this

theorem follows_skip (m : List Entry) {s : Strat} {o : Purchase} (hs : o.Skipped (s.amount0, s.amount1)) : Follows m s s [o] :=
  ⟨[], Grown.refl m s, fun _ _ => .skip hs (.done _)⟩

theorem mintPosition_follows (m : List Entry) {s s' : Strat} {l u : Int} {n : Needs}
    (hn : ¬ (⟨l, u, false, n⟩ : Purchase).Skipped (s.amount0, s.amount1)) (hx : s.mintPosition l u = .ok s') :
    Follows m s s' [⟨l, u, false, n⟩] := by
  unfold mintPosition at hx
  obtain ⟨L, h1, hx⟩ := bind_ok hx
  have hL : L.toNat = if (false : Bool) = true then L.toNat / 2 else L.toNat := by rw [if_neg Bool.false_ne_true]
  by_cases hz : L.isZero
  · rw [if_pos hz] at hx
    cases hx
    exact follows_none m hn h1 hL ((isZero_iff _).1 hz)
  · rw [if_neg hz] at hx
    exact follows_one m hn h1 hL hx

theorem all_needs {l u : Int} {x : U256 × U256} : ¬ (all (l, u)).Skipped x := fun h => h

theorem mintPosition_all (m : List Entry) {s s' : Strat} {l u : Int} (hx : s.mintPosition l u = .ok s') :
    Follows m s s' [all (l, u)] := mintPosition_follows m all_needs hx

theorem mintUnchecked_all (m : List Entry) {s s' : Strat} {l u : Int} (hx : s.mintUnchecked l u = .ok s') :
    Follows m s s' [all (l, u)] := by
  unfold mintUnchecked at hx
  obtain ⟨L, h1, hx⟩ := bind_ok hx
  exact follows_one m all_needs h1 (if_neg Bool.false_ne_true).symm hx

theorem mintHalf_follows (m : List Entry) {s s' : Strat} {l u : Int} {n : Needs}
    (hn : ¬ (⟨l, u, true, n⟩ : Purchase).Skipped (s.amount0, s.amount1)) (hx : s.mintHalf l u = .ok s') :
    Follows m s s' [⟨l, u, true, n⟩] := by
  unfold mintHalf at hx
  obtain ⟨A, h1, hx⟩ := bind_ok hx
  obtain ⟨L, h2, hx⟩ := bind_ok hx
  have hL : L.toNat = if (true : Bool) = true then A.toNat / 2 else A.toNat := by rw [if_pos rfl]; exact half_le h2
  by_cases hz : L.isZero
  · rw [if_pos hz] at hx
    cases hx
    exact follows_none m hn h1 hL ((isZero_iff _).1 hz)
  · rw [if_neg hz] at hx
    exact follows_one m hn h1 hL hx

theorem twoAbove_follows (m : List Entry) {s s' : Strat} {unit b : Int} (hx : s.twoAbove unit b = .ok s') :
    Follows m s s' [⟨TickRound.ceil s.pool.tick unit, TickRound.ceil s.pool.tick unit + b, false, .token0⟩] := by
  unfold twoAbove at hx
  by_cases hz : s.amount0.isZero
  · rw [if_pos hz] at hx
    cases hx
    exact follows_skip m ((isZero_iff _).1 hz)
  · rw [if_neg hz] at hx
    exact mintPosition_follows m (fun h => hz ((isZero_iff _).2 h)) hx

theorem twoBelow_follows (m : List Entry) {s s' : Strat} {unit b : Int} (hx : s.twoBelow unit b = .ok s') :
    Follows m s s' [⟨TickRound.floor s.pool.tick unit - b, TickRound.floor s.pool.tick unit, false, .token1⟩] := by
  unfold twoBelow at hx
  by_cases hz : s.amount1.isZero
  · rw [if_pos hz] at hx
    cases hx
    exact follows_skip m ((isZero_iff _).1 hz)
  · rw [if_neg hz] at hx
    exact mintPosition_follows m (fun h => hz ((isZero_iff _).2 h)) hx

theorem Follows.mark {m : List Entry} {s s' : Strat} {plan : List Purchase} (h : Follows m s s' plan) (t : Int) (d : Bool) :
    Follows m s { s' with limitTick := t, direction := d } plan := by
  obtain ⟨n, g, k⟩ := h
  exact ⟨n, ⟨g.pos, g.kind, g.history, g.still, g.own, g.recs, g.path⟩, k⟩

theorem limitAbove_follows (m : List Entry) {s s' : Strat} {unit : Int} (hx : s.limitAbove unit = .ok s') :
    Follows m s s' [⟨TickRound.ceil s.pool.tick unit, TickRound.ceil s.pool.tick unit + 10, true, .token0⟩] := by
  unfold limitAbove at hx
  by_cases hz : s.amount0.isZero
  · rw [if_pos hz] at hx
    cases hx
    exact follows_skip m ((isZero_iff _).1 hz)
  · rw [if_neg hz] at hx
    dsimp only at hx
    obtain ⟨s1, h1, hx⟩ := bind_ok hx
    cases hx
    exact (mintHalf_follows m (n := .token0) (fun h => hz ((isZero_iff _).2 h)) h1).mark _ _

theorem limitBelow_follows (m : List Entry) {s s' : Strat} {unit : Int} (hx : s.limitBelow unit = .ok s') :
    Follows m s s' [⟨TickRound.floor s.pool.tick unit - 10, TickRound.floor s.pool.tick unit, true, .token1⟩] := by
  unfold limitBelow at hx
  by_cases hz : s.amount1.isZero
  · rw [if_pos hz] at hx
    cases hx
    exact follows_skip m ((isZero_iff _).1 hz)
  · rw [if_neg hz] at hx
    dsimp only at hx
    obtain ⟨s1, h1, hx⟩ := bind_ok hx
    cases hx
    exact (mintHalf_follows m (n := .token1) (fun h => hz ((isZero_iff _).2 h)) h1).mark _ _

theorem Follows.tick {m : List Entry} {s s' : Strat} {plan : List Purchase} (h : Follows m s s' plan) : s'.pool.tick = s.pool.tick := by
  obtain ⟨_, g, _⟩ := h; exact g.still.tick

theorem setTwo_follows (m : List Entry) {s s' : Strat} {a b : Int} (hx : s.setTwo a b = .ok s') :
    Follows m s s' [all (s.around s.pool.tick a), ⟨TickRound.ceil s.pool.tick s.unit, TickRound.ceil s.pool.tick s.unit + b, false, .token0⟩,
      ⟨TickRound.floor s.pool.tick s.unit - b, TickRound.floor s.pool.tick s.unit, false, .token1⟩] := by
  unfold setTwo at hx
  dsimp only at hx
  obtain ⟨s1, h1, hx⟩ := bind_ok hx
  obtain ⟨s2, h2, hx⟩ := bind_ok hx
  have k1 := mintPosition_all m h1
  have k2 := twoAbove_follows m h2
  have k3 := twoBelow_follows m hx
  rw [k2.tick, k1.tick] at k3
  rw [k1.tick] at k2
  exact (k1.trans k2).trans k3

theorem setLimit_follows (m : List Entry) {s s' : Strat} {w : Int} (hx : s.setLimit w = .ok s') :
    Follows m s s' [all (s.around s.pool.tick w), ⟨TickRound.ceil s.pool.tick s.unit, TickRound.ceil s.pool.tick s.unit + 10, true, .token0⟩,
      ⟨TickRound.floor s.pool.tick s.unit - 10, TickRound.floor s.pool.tick s.unit, true, .token1⟩] := by
  unfold setLimit at hx
  dsimp only at hx
  obtain ⟨s1, h1, hx⟩ := bind_ok hx
  obtain ⟨s2, h2, hx⟩ := bind_ok hx
  have k1 := mintPosition_all m h1
  have k2 := limitAbove_follows m h2
  have k3 := limitBelow_follows m hx
  rw [k2.tick, k1.tick] at k3
  rw [k1.tick] at k2
  exact (k1.trans k2).trans k3

/-- The plan of the fill-up step. -/
def fillStep (c f : Int) (r : Int × Int) (z : U256 × U256) : List Purchase :=
  if z.1.toNat ≠ 0 then (if c < r.2 then [all (c, r.2)] else [])
  else if z.2.toNat ≠ 0 then (if r.1 < f then [all (r.1, f)] else []) else []

theorem not_isZero {a : U256} : (!a.isZero) = true ↔ a.toNat ≠ 0 := by
  rw [Bool.not_eq_true', ← Bool.not_eq_true, isZero_iff]

theorem fillSide_follows (m : List Entry) {s s' : Strat} {l u : Int} (hx : s.fillSide l u = .ok s') :
    Follows m s s' (fillStep (TickRound.ceil s.pool.tick s.unit) (TickRound.floor s.pool.tick s.unit) (l, u) (s.amount0, s.amount1)) := by
  unfold fillSide at hx
  unfold fillStep
  by_cases h0 : s.amount0.toNat ≠ 0
  · rw [if_pos (not_isZero.2 h0)] at hx
    rw [if_pos h0]
    by_cases hc : TickRound.ceil s.pool.tick s.unit < u
    · rw [if_pos hc] at hx ⊢
      exact mintPosition_all m hx
    · rw [if_neg hc] at hx ⊢
      cases hx
      exact Follows.refl m s
  · rw [if_neg (fun h => h0 (not_isZero.1 h))] at hx
    rw [if_neg h0]
    by_cases h1 : s.amount1.toNat ≠ 0
    · rw [if_pos (not_isZero.2 h1)] at hx
      rw [if_pos h1]
      by_cases hc : l < TickRound.floor s.pool.tick s.unit
      · rw [if_pos hc] at hx ⊢
        exact mintPosition_all m hx
      · rw [if_neg hc] at hx ⊢
        cases hx
        exact Follows.refl m s
    · rw [if_neg (fun h => h1 (not_isZero.1 h))] at hx
      rw [if_neg h1]
      cases hx
      exact Follows.refl m s

/-- From one state to the next by following one of the two fill-up strategies. -/
def Fills (m : List Entry) (s s' : Strat) (r : Int × Int) : Prop :=
  ∃ new, Grown m s s' new ∧ (Ready s → Owns m s.positions s.pool → Fits m s' →
    FillBuys s.pool.price s.pool.spacing s.pool.tick r (s.amount0, s.amount1) new (s'.amount0, s'.amount1))

theorem fills {m : List Entry} {s s1 s' : Strat} {r : Int × Int} (h1 : s.mintPosition r.1 r.2 = .ok s1)
    (h2 : s1.fillSide r.1 r.2 = .ok s') : Fills m s s' r := by
  obtain ⟨n1, g1, k1⟩ := mintPosition_all m h1
  obtain ⟨n2, g2, k2⟩ := fillSide_follows m h2
  refine ⟨n1 ++ n2, g1.trans g2, fun hr ho hf => ?_⟩
  have hft := g2.fits hf
  have e1 := k1 ho hft
  have e2 := k2 (g1.own ho hft).1 hf
  rw [g1.still.price, g1.still.tick, unit_still g1.still] at e2
  exact ⟨_, _, n1, n2, _, (next_ok hr).1, (next_ok hr).2, rfl, e1, e2⟩

/-- From one state to the next by following a plan or filling up. -/
def Invests (m : List Entry) (s s' : Strat) (B : U256 × U256 → List StratPos → U256 × U256 → Prop) : Prop :=
  ∃ new, Grown m s s' new ∧ (Ready s → Kind.Sane s.kind → Owns m s.positions s.pool → Fits m s' →
    B (s.amount0, s.amount1) new (s'.amount0, s'.amount1))

theorem Follows.invests {m : List Entry} {s s' : Strat} {plan : List Purchase} (h : Follows m s s' plan)
    {B : U256 × U256 → List StratPos → U256 × U256 → Prop}
    (hB : ∀ x ps y, Ready s → Kind.Sane s.kind → Buys s.pool.price plan x ps y → B x ps y) : Invests m s s' B := by
  obtain ⟨n, g, k⟩ := h
  exact ⟨n, g, fun hr hs ho hf => hB _ _ _ hr hs (k ho hf)⟩

theorem Fills.invests {m : List Entry} {s s' : Strat} {r : Int × Int} (h : Fills m s s' r)
    {B : U256 × U256 → List StratPos → U256 × U256 → Prop}
    (hB : ∀ x ps y, Ready s → Kind.Sane s.kind → FillBuys s.pool.price s.pool.spacing s.pool.tick r x ps y → B x ps y) : Invests m s s' B := by
  obtain ⟨n, g, k⟩ := h
  exact ⟨n, g, fun hr hs ho hf => hB _ _ _ hr hs (k hr ho hf)⟩

theorem openFirst_invests (m : List Entry) {s s' : Strat} {fuel : Nat} (hns : ∀ w, s.kind ≠ .swapHalf w)
    (hx : s.openFirst fuel = .ok s') : Invests m s s' (InitBuys s) := by
  unfold openFirst at hx
  cases hk : s.kind with
  | constantInterval w =>
    rw [hk] at hx
    dsimp only at hx
    obtain ⟨n, g, k⟩ := mintUnchecked_all m hx
    refine ⟨n, ⟨g.pos, g.kind.trans hk.symm, g.history, g.still, g.own, g.recs, g.path⟩, fun hr hs ho hf => ?_⟩
    have hb := k ho hf
    unfold InitBuys InitRanges
    rw [hk] at hs ⊢
    exact ⟨_, ⟨_, around_centred hr hr.lo hr.hi hs, rfl⟩, hb⟩
  | aroundPrice w =>
    rw [hk] at hx
    refine (mintUnchecked_all m hx).invests fun x ps y hr hs hb => ?_
    unfold InitBuys InitRanges
    rw [hk] at hs ⊢
    exact ⟨_, ⟨_, around_centred hr hr.lo hr.hi hs, rfl⟩, hb⟩
  | twoInterval a b =>
    rw [hk] at hx
    refine (setTwo_follows m hx).invests fun x ps y hr hs hb => ?_
    unfold InitBuys
    rw [hk] at hs ⊢
    exact ⟨_, _, _, around_centred hr hr.lo hr.hi hs, (next_ok hr).1, (next_ok hr).2, hb⟩
  | aroundAverage w n =>
    rw [hk] at hx
    obtain ⟨r, h1, hx⟩ := bind_ok hx
    refine (mintPosition_all m hx).invests fun x ps y hr hs hb => ?_
    unfold InitBuys InitRanges
    rw [hk] at hs ⊢
    obtain ⟨avg, t, a1, a2, a3⟩ := averageTicks_ok hr hs h1
    exact ⟨_, ⟨avg, t, r, a1, a2, a3, rfl⟩, hb⟩
  | bollinger n k =>
    rw [hk] at hx
    obtain ⟨r, h1, hx⟩ := bind_ok hx
    refine (mintPosition_all m hx).invests fun x ps y hr hs hb => ?_
    unfold InitBuys InitRanges
    rw [hk] at hs ⊢
    exact ⟨_, ⟨r, bollingerTicks_ok hs h1, rfl⟩, hb⟩
  | bollingerFillUp n k =>
    rw [hk] at hx
    obtain ⟨r, h1, hx⟩ := bind_ok hx
    refine (mintPosition_all m hx).invests fun x ps y hr hs hb => ?_
    unfold InitBuys InitRanges
    rw [hk] at hs ⊢
    exact ⟨_, ⟨r, bollingerTicks_ok hs h1, rfl⟩, hb⟩
  | volatilitySized n k =>
    rw [hk] at hx
    obtain ⟨r, h1, hx⟩ := bind_ok hx
    refine (mintPosition_all m hx).invests fun x ps y hr hs hb => ?_
    unfold InitBuys InitRanges
    rw [hk] at hs ⊢
    obtain ⟨vol, a1, a2⟩ := volatilityTicks_ok hs h1
    exact ⟨_, ⟨vol, r, a1, a2, rfl⟩, hb⟩
  | fillUp w =>
    rw [hk] at hx
    dsimp only at hx
    unfold setFill at hx
    dsimp only at hx
    obtain ⟨s1, h1, hx⟩ := bind_ok hx
    refine (fills h1 hx).invests fun x ps y hr hs hb => ?_
    unfold InitBuys
    rw [hk] at hs ⊢
    exact ⟨_, around_centred hr hr.lo hr.hi hs, hb⟩
  | limitOrder w =>
    rw [hk] at hx
    refine (setLimit_follows m hx).invests fun x ps y hr hs hb => ?_
    unfold InitBuys
    rw [hk] at hs ⊢
    exact ⟨_, _, _, around_centred hr hr.lo hr.hi hs, (next_ok hr).1, (next_ok hr).2, hb⟩
  | swapHalf w => exact absurd hk (hns w)
  | v2 =>
    rw [hk] at hx
    refine (mintPosition_all m hx).invests fun x ps y hr hs hb => ?_
    unfold InitBuys InitRanges
    rw [hk]
    exact ⟨(-887270, 887270), rfl, hb⟩
  | noProvision =>
    rw [hk] at hx
    cases hx
    refine ⟨[], Grown.refl m _, fun _ _ _ _ => ?_⟩
    unfold InitBuys
    rw [hk]
    exact ⟨rfl, rfl⟩

theorem openAgain_invests (m : List Entry) {s s' : Strat} {fuel : Nat} (hns : ∀ w, s.kind ≠ .swapHalf w)
    (hx : s.openAgain fuel = .ok s') : Invests m s s' (RebalanceBuys s) := by
  unfold openAgain at hx
  cases hk : s.kind with
  | constantInterval w =>
    rw [hk] at hx
    refine (mintPosition_all m hx).invests fun x ps y hr hs hb => ?_
    unfold RebalanceBuys
    rw [hk]
    exact hb
  | aroundPrice w =>
    rw [hk] at hx
    refine (mintPosition_all m hx).invests fun x ps y hr hs hb => ?_
    unfold RebalanceBuys InitBuys InitRanges
    rw [hk] at hs ⊢
    exact ⟨_, ⟨_, around_centred hr hr.lo hr.hi hs, rfl⟩, hb⟩
  | twoInterval a b =>
    rw [hk] at hx
    refine (setTwo_follows m hx).invests fun x ps y hr hs hb => ?_
    unfold RebalanceBuys InitBuys
    rw [hk] at hs ⊢
    exact ⟨_, _, _, around_centred hr hr.lo hr.hi hs, (next_ok hr).1, (next_ok hr).2, hb⟩
  | aroundAverage w n =>
    rw [hk] at hx
    obtain ⟨r, h1, hx⟩ := bind_ok hx
    refine (mintPosition_all m hx).invests fun x ps y hr hs hb => ?_
    unfold RebalanceBuys InitBuys InitRanges
    rw [hk] at hs ⊢
    obtain ⟨avg, t, a1, a2, a3⟩ := averageTicks_ok hr hs h1
    exact ⟨_, ⟨avg, t, r, a1, a2, a3, rfl⟩, hb⟩
  | bollinger n k =>
    rw [hk] at hx
    obtain ⟨r, h1, hx⟩ := bind_ok hx
    refine (mintPosition_all m hx).invests fun x ps y hr hs hb => ?_
    unfold RebalanceBuys InitBuys InitRanges
    rw [hk] at hs ⊢
    exact ⟨_, ⟨r, bollingerTicks_ok hs h1, rfl⟩, hb⟩
  | bollingerFillUp n k =>
    rw [hk] at hx
    dsimp only at hx
    unfold setBollingerFill at hx
    obtain ⟨r, h0, hx⟩ := bind_ok hx
    obtain ⟨s1, h1, hx⟩ := bind_ok hx
    have ht := (mintPosition_all m h1).tick
    by_cases hc : r.1 ≤ s1.pool.tick ∧ s1.pool.tick ≤ r.2
    · rw [if_pos hc] at hx
      refine (fills h1 hx).invests fun x ps y hr hs hb => ?_
      unfold RebalanceBuys
      rw [hk] at hs ⊢
      refine ⟨r, bollingerTicks_ok hs h0, ?_⟩
      rw [ht] at hc
      rw [if_pos hc]
      exact hb
    · rw [if_neg hc] at hx
      cases hx
      refine (mintPosition_all m h1).invests fun x ps y hr hs hb => ?_
      unfold RebalanceBuys
      rw [hk] at hs ⊢
      refine ⟨r, bollingerTicks_ok hs h0, ?_⟩
      rw [ht] at hc
      rw [if_neg hc]
      exact hb
  | volatilitySized n k =>
    rw [hk] at hx
    obtain ⟨r, h1, hx⟩ := bind_ok hx
    refine (mintPosition_all m hx).invests fun x ps y hr hs hb => ?_
    unfold RebalanceBuys InitBuys InitRanges
    rw [hk] at hs ⊢
    obtain ⟨vol, a1, a2⟩ := volatilityTicks_ok hs h1
    exact ⟨_, ⟨vol, r, a1, a2, rfl⟩, hb⟩
  | fillUp w =>
    rw [hk] at hx
    dsimp only at hx
    unfold setFill at hx
    dsimp only at hx
    obtain ⟨s1, h1, hx⟩ := bind_ok hx
    refine (fills h1 hx).invests fun x ps y hr hs hb => ?_
    unfold RebalanceBuys InitBuys
    rw [hk] at hs ⊢
    exact ⟨_, around_centred hr hr.lo hr.hi hs, hb⟩
  | limitOrder w =>
    rw [hk] at hx
    refine (setLimit_follows m hx).invests fun x ps y hr hs hb => ?_
    unfold RebalanceBuys InitBuys
    rw [hk] at hs ⊢
    exact ⟨_, _, _, around_centred hr hr.lo hr.hi hs, (next_ok hr).1, (next_ok hr).2, hb⟩
  | swapHalf w => exact absurd hk (hns w)
  | v2 =>
    rw [hk] at hx
    refine (mintPosition_all m hx).invests fun x ps y hr hs hb => ?_
    unfold RebalanceBuys InitBuys InitRanges
    rw [hk]
    exact ⟨(-887270, 887270), rfl, hb⟩
  | noProvision =>
    rw [hk] at hx
    cases hx
    refine ⟨[], Grown.refl m _, fun _ _ _ _ => ?_⟩
    unfold RebalanceBuys InitBuys
    rw [hk]
    exact ⟨rfl, rfl⟩

theorem rebalanceBuys_congr {s s1 : Strat} (hk : s1.kind = s.kind) (hh : s1.history = s.history) (hl : s1.tickLower = s.tickLower)
    (hu : s1.tickUpper = s.tickUpper) (hst : Still s.pool s1.pool) {x y : U256 × U256} {ps : List StratPos} (h : RebalanceBuys s1 x ps y) :
    RebalanceBuys s x ps y := by
  unfold RebalanceBuys InitBuys InitRanges AverageBand at h ⊢
  rw [hk, hh, hl, hu, hst.same.1, hst.tick, hst.price] at h
  exact h

/-! ### The swapping strategy -/

theorem swapMint_invests {m : List Entry} {s s' : Strat} {fuel : Nat} {w : Int}
    (ho : Owns m s.positions s.pool) (hne : s.pool.token0 ≠ s.pool.token1)
    (h0 : s.amount0.toNat < 2 ^ 160) (h1 : s.amount1.toNat < 2 ^ 160)
    (hc : ClearAbove s.pool.spacing s.pool.tick (book m s)) (hw : |w| ≤ 2 ^ 30) (hf : Fits m s')
    (hx : s.swapMint fuel (s.around s.pool.tick w).1 (s.around s.pool.tick w).2 = .ok s') :
    ∃ p' new, s'.positions = s.positions ++ new ∧ Still p' s'.pool ∧
      SwapBuys fuel s w p' (s.amount0, s.amount1) new (s'.amount0, s'.amount1) := by
  have hcen := around_centred ho.ready ho.ready.lo ho.ready.hi hw
  generalize s.around s.pool.tick w = r at hx hcen
  obtain ⟨l, u⟩ := r
  unfold swapMint at hx
  obtain ⟨a, h2, hx⟩ := bind_ok hx
  obtain ⟨b, h3, hx⟩ := bind_ok hx
  obtain ⟨s1, h4, hx⟩ := bind_ok hx
  obtain ⟨L, h5, hx⟩ := bind_ok hx
  have hlu : l < u ∧ -887272 ≤ l ∧ u ≤ 887272 := by
    unfold mintAmount at hx
    obtain ⟨⟨a0, a1, q⟩, h6, hx⟩ := bind_ok hx
    obtain ⟨_, _, pos, h7⟩ := mintStrategy_eq h6
    obtain ⟨k1, k2, k3, _⟩ := modifyStrategy_eq h7
    exact ⟨k1, k2, k3⟩
  obtain ⟨hlu, hl, hu⟩ := hlu
  obtain ⟨a', ha', ha2⟩ := getSqrtRatioAtTick_spec l hl (by omega)
  obtain ⟨b', hb', hb2⟩ := getSqrtRatioAtTick_spec u (by omega) hu
  dsimp only at h2 h3
  rw [h2] at ha'
  rw [h3] at hb'
  cases ha'
  cases hb'
  obtain ⟨r1, r2⟩ := ratio_lt hl hlu hu
  obtain ⟨x0, x1, ht, L0, v, d0, d1, e1, e2, e3, e4, e5⟩ := swapExcess_traded ho hne h0 h1 hc (by omega) (by omega) h4
  have haff : s1.affordable l u = .ok L := by
    rw [← h5]
    unfold affordable
    rw [h2, h3]
    simp only [bind, Except.bind]
  obtain ⟨new, g, k⟩ := follows_one m (o := all (l, u)) all_needs haff (if_neg Bool.false_ne_true).symm hx
  refine ⟨s1.pool, new, by rw [g.pos, ht.pos], g.still, ?_⟩
  have p1 : a.toNat = tickPrice l := by unfold tickPrice; rw [h2]
  have p2 : b.toNat = tickPrice u := by unfold tickPrice; rw [h3]
  unfold SwapBuys
  refine ⟨(l, u), a, b, L0, v, (s1.amount0, s1.amount1), d0, d1, hcen, p1, p2, e1, e2, e3, e4, ?_, ?_⟩
  · exact e5
  · exact k ht.own hf

/-! ### Nothing else matters -/

/-- The two strategies agree on everything that matters, and have opened the same positions. -/
structure Twins (s t s' t' : Strat) : Prop where
  alike : Alike s' t'
  amount0 : s'.amount0 = t'.amount0
  amount1 : s'.amount1 = t'.amount1
  opened : ∃ new, s'.positions = s.positions ++ new ∧ t'.positions = t.positions ++ new

theorem Twins.refl {s t : Strat} (ha : Alike s t) (h0 : s.amount0 = t.amount0) (h1 : s.amount1 = t.amount1) : Twins s t s t :=
  ⟨ha, h0, h1, [], (List.append_nil _).symm, (List.append_nil _).symm⟩

theorem Twins.trans {s t s1 t1 s2 t2 : Strat} (h : Twins s t s1 t1) (h' : Twins s1 t1 s2 t2) : Twins s t s2 t2 := by
  obtain ⟨n, e1, e2⟩ := h.opened
  obtain ⟨n', f1, f2⟩ := h'.opened
  exact ⟨h'.alike, h'.amount0, h'.amount1, n ++ n', by rw [f1, e1, List.append_assoc], by rw [f2, e2, List.append_assoc]⟩

theorem amountsFor_congr {p q : Pool} (hp : p.price = q.price) (ht : p.tick = q.tick) (l u : Int) (d : U256) :
    p.amountsFor l u d = q.amountsFor l u d := by
  unfold amountsFor
  rw [hp, ht]

theorem mintStrategy_price {p p' : Pool} {l u : Int} {L a0 a1 : U256} (h : p.mintStrategy l u L = .ok (a0, a1, p')) :
    p.amountsFor l u L = .ok (a0, a1) ∧ Still p p' := by
  obtain ⟨b1, b2, pos, b3⟩ := mintStrategy_eq h
  have hs := modifyStrategy_still b3
  obtain ⟨_, _, _, q, h1, _, h2⟩ := modifyStrategy_eq b3
  obtain ⟨h3, h4⟩ := h2 (by omega)
  refine ⟨?_, hs⟩
  rw [← h3]
  refine amountsFor_congr ?_ ?_ _ _ _
  · rw [← hs.price, h4]
  · rw [← hs.tick, h4]

theorem mintAmount_twins {s t s' t' : Strat} {l u : Int} {L : U256} (ha : Alike s t) (h0 : s.amount0 = t.amount0)
    (h1 : s.amount1 = t.amount1) (hs : s.mintAmount l u L = .ok s') (ht : t.mintAmount l u L = .ok t') : Twins s t s' t' := by
  unfold mintAmount at hs ht
  obtain ⟨⟨a0, a1, p⟩, k1, hs⟩ := bind_ok hs
  obtain ⟨⟨b0, b1, q⟩, k2, ht⟩ := bind_ok ht
  cases hs
  cases ht
  obtain ⟨e1, f1⟩ := mintStrategy_price k1
  obtain ⟨e2, f2⟩ := mintStrategy_price k2
  rw [amountsFor_congr ha.price ha.tick, e2] at e1
  cases e1
  refine ⟨⟨ha.kind, ha.tickLower, ha.tickUpper, ha.history, ?_, ?_, ?_⟩, ?_, ?_, _, rfl, rfl⟩
  · dsimp only; rw [f1.same.2.1, f2.same.2.1]; exact ha.fee
  · dsimp only; rw [f1.price, f2.price]; exact ha.price
  · dsimp only; rw [f1.tick, f2.tick]; exact ha.tick
  · dsimp only; rw [h0]
  · dsimp only; rw [h1]

theorem affordable_congr {s t : Strat} (ha : Alike s t) (h0 : s.amount0 = t.amount0)
    (h1 : s.amount1 = t.amount1) (l u : Int) : s.affordable l u = t.affordable l u := by
  unfold affordable
  rw [ha.price, h0, h1]

theorem mintPosition_twins {s t s' t' : Strat} {l u : Int} (ha : Alike s t) (h0 : s.amount0 = t.amount0)
    (h1 : s.amount1 = t.amount1) (hs : s.mintPosition l u = .ok s') (ht : t.mintPosition l u = .ok t') : Twins s t s' t' := by
  unfold mintPosition at hs ht
  rw [← affordable_congr ha h0 h1] at ht
  obtain ⟨L, k1, hs⟩ := bind_ok hs
  obtain ⟨L', k2, ht⟩ := bind_ok ht
  rw [k1] at k2
  cases k2
  by_cases hz : L.isZero
  · rw [if_pos hz] at hs ht
    cases hs
    cases ht
    exact Twins.refl ha h0 h1
  · rw [if_neg hz] at hs ht
    exact mintAmount_twins ha h0 h1 hs ht

theorem mintUnchecked_twins {s t s' t' : Strat} {l u : Int} (ha : Alike s t) (h0 : s.amount0 = t.amount0)
    (h1 : s.amount1 = t.amount1) (hs : s.mintUnchecked l u = .ok s') (ht : t.mintUnchecked l u = .ok t') : Twins s t s' t' := by
  unfold mintUnchecked at hs ht
  rw [← affordable_congr ha h0 h1] at ht
  obtain ⟨L, k1, hs⟩ := bind_ok hs
  obtain ⟨L', k2, ht⟩ := bind_ok ht
  rw [k1] at k2
  cases k2
  exact mintAmount_twins ha h0 h1 hs ht

theorem mintHalf_twins {s t s' t' : Strat} {l u : Int} (ha : Alike s t) (h0 : s.amount0 = t.amount0)
    (h1 : s.amount1 = t.amount1) (hs : s.mintHalf l u = .ok s') (ht : t.mintHalf l u = .ok t') : Twins s t s' t' := by
  unfold mintHalf at hs ht
  rw [← affordable_congr ha h0 h1] at ht
  obtain ⟨L, k1, hs⟩ := bind_ok hs
  obtain ⟨L', k2, ht⟩ := bind_ok ht
  rw [k1] at k2
  cases k2
  obtain ⟨H, k3, hs⟩ := bind_ok hs
  obtain ⟨H', k4, ht⟩ := bind_ok ht
  rw [k3] at k4
  cases k4
  by_cases hz : H.isZero
  · rw [if_pos hz] at hs ht
    cases hs
    cases ht
    exact Twins.refl ha h0 h1
  · rw [if_neg hz] at hs ht
    exact mintAmount_twins ha h0 h1 hs ht

theorem _root_.Uni.Spec.Alike.unit {s t : Strat} (ha : Alike s t) : s.unit = t.unit := by
  unfold Strat.unit; rw [ha.fee]

theorem _root_.Uni.Spec.Alike.around {s t : Strat} (ha : Alike s t) (k w : Int) : s.around k w = t.around k w := by
  unfold Strat.around; rw [ha.unit]

theorem twoAbove_twins {s t s' t' : Strat} {unit b : Int} (ha : Alike s t) (h0 : s.amount0 = t.amount0)
    (h1 : s.amount1 = t.amount1) (hs : s.twoAbove unit b = .ok s') (ht : t.twoAbove unit b = .ok t') : Twins s t s' t' := by
  unfold twoAbove at hs ht
  rw [← h0, ← ha.tick] at ht
  by_cases hz : s.amount0.isZero
  · rw [if_pos hz] at hs ht
    cases hs
    cases ht
    exact Twins.refl ha h0 h1
  · rw [if_neg hz] at hs ht
    exact mintPosition_twins ha h0 h1 hs ht

theorem twoBelow_twins {s t s' t' : Strat} {unit b : Int} (ha : Alike s t) (h0 : s.amount0 = t.amount0)
    (h1 : s.amount1 = t.amount1) (hs : s.twoBelow unit b = .ok s') (ht : t.twoBelow unit b = .ok t') : Twins s t s' t' := by
  unfold twoBelow at hs ht
  rw [← h1, ← ha.tick] at ht
  by_cases hz : s.amount1.isZero
  · rw [if_pos hz] at hs ht
    cases hs
    cases ht
    exact Twins.refl ha h0 h1
  · rw [if_neg hz] at hs ht
    exact mintPosition_twins ha h0 h1 hs ht

theorem Twins.mark {s t s' t' : Strat} (h : Twins s t s' t') (k : Int) (d : Bool) :
    Twins s t { s' with limitTick := k, direction := d } { t' with limitTick := k, direction := d } :=
  ⟨⟨h.alike.kind, h.alike.tickLower, h.alike.tickUpper, h.alike.history, h.alike.fee, h.alike.price, h.alike.tick⟩,
    h.amount0, h.amount1, h.opened⟩

theorem limitAbove_twins {s t s' t' : Strat} {unit : Int} (ha : Alike s t) (h0 : s.amount0 = t.amount0)
    (h1 : s.amount1 = t.amount1) (hs : s.limitAbove unit = .ok s') (ht : t.limitAbove unit = .ok t') : Twins s t s' t' := by
  unfold limitAbove at hs ht
  rw [← h0, ← ha.tick] at ht
  by_cases hz : s.amount0.isZero
  · rw [if_pos hz] at hs ht
    cases hs
    cases ht
    exact Twins.refl ha h0 h1
  · rw [if_neg hz] at hs ht
    dsimp only at hs ht
    obtain ⟨s1, k1, hs⟩ := bind_ok hs
    obtain ⟨t1, k2, ht⟩ := bind_ok ht
    cases hs
    cases ht
    exact (mintHalf_twins ha h0 h1 k1 k2).mark _ _

theorem limitBelow_twins {s t s' t' : Strat} {unit : Int} (ha : Alike s t) (h0 : s.amount0 = t.amount0)
    (h1 : s.amount1 = t.amount1) (hs : s.limitBelow unit = .ok s') (ht : t.limitBelow unit = .ok t') : Twins s t s' t' := by
  unfold limitBelow at hs ht
  rw [← h1, ← ha.tick] at ht
  by_cases hz : s.amount1.isZero
  · rw [if_pos hz] at hs ht
    cases hs
    cases ht
    exact Twins.refl ha h0 h1
  · rw [if_neg hz] at hs ht
    dsimp only at hs ht
    obtain ⟨s1, k1, hs⟩ := bind_ok hs
    obtain ⟨t1, k2, ht⟩ := bind_ok ht
    cases hs
    cases ht
    exact (mintHalf_twins ha h0 h1 k1 k2).mark _ _

theorem setTwo_twins {s t s' t' : Strat} {a b : Int} (ha : Alike s t) (h0 : s.amount0 = t.amount0)
    (h1 : s.amount1 = t.amount1) (hs : s.setTwo a b = .ok s') (ht : t.setTwo a b = .ok t') : Twins s t s' t' := by
  unfold setTwo at hs ht
  dsimp only at hs ht
  rw [← ha.around, ← ha.tick, ← ha.unit] at ht
  obtain ⟨s1, k1, hs⟩ := bind_ok hs
  obtain ⟨t1, l1, ht⟩ := bind_ok ht
  obtain ⟨s2, k2, hs⟩ := bind_ok hs
  obtain ⟨t2, l2, ht⟩ := bind_ok ht
  have e1 := mintPosition_twins ha h0 h1 k1 l1
  have e2 := twoAbove_twins e1.alike e1.amount0 e1.amount1 k2 l2
  exact (e1.trans e2).trans (twoBelow_twins e2.alike e2.amount0 e2.amount1 hs ht)

theorem setLimit_twins {s t s' t' : Strat} {w : Int} (ha : Alike s t) (h0 : s.amount0 = t.amount0)
    (h1 : s.amount1 = t.amount1) (hs : s.setLimit w = .ok s') (ht : t.setLimit w = .ok t') : Twins s t s' t' := by
  unfold setLimit at hs ht
  dsimp only at hs ht
  rw [← ha.around, ← ha.tick, ← ha.unit] at ht
  obtain ⟨s1, k1, hs⟩ := bind_ok hs
  obtain ⟨t1, l1, ht⟩ := bind_ok ht
  obtain ⟨s2, k2, hs⟩ := bind_ok hs
  obtain ⟨t2, l2, ht⟩ := bind_ok ht
  have e1 := mintPosition_twins ha h0 h1 k1 l1
  have e2 := limitAbove_twins e1.alike e1.amount0 e1.amount1 k2 l2
  exact (e1.trans e2).trans (limitBelow_twins e2.alike e2.amount0 e2.amount1 hs ht)

theorem fillSide_twins {s t s' t' : Strat} {l u : Int} (ha : Alike s t) (h0 : s.amount0 = t.amount0)
    (h1 : s.amount1 = t.amount1) (hs : s.fillSide l u = .ok s') (ht : t.fillSide l u = .ok t') : Twins s t s' t' := by
  unfold fillSide at hs ht
  rw [← h0, ← h1, ← ha.tick, ← ha.unit] at ht
  by_cases c0 : (!s.amount0.isZero) = true
  · rw [if_pos c0] at hs ht
    by_cases c : TickRound.ceil s.pool.tick s.unit < u
    · rw [if_pos c] at hs ht
      exact mintPosition_twins ha h0 h1 hs ht
    · rw [if_neg c] at hs ht
      cases hs
      cases ht
      exact Twins.refl ha h0 h1
  · rw [if_neg c0] at hs ht
    by_cases c1 : (!s.amount1.isZero) = true
    · rw [if_pos c1] at hs ht
      by_cases c : l < TickRound.floor s.pool.tick s.unit
      · rw [if_pos c] at hs ht
        exact mintPosition_twins ha h0 h1 hs ht
      · rw [if_neg c] at hs ht
        cases hs
        cases ht
        exact Twins.refl ha h0 h1
    · rw [if_neg c1] at hs ht
      cases hs
      cases ht
      exact Twins.refl ha h0 h1

theorem setFill_twins {s t s' t' : Strat} {w : Int} (ha : Alike s t) (h0 : s.amount0 = t.amount0)
    (h1 : s.amount1 = t.amount1) (hs : s.setFill w = .ok s') (ht : t.setFill w = .ok t') : Twins s t s' t' := by
  unfold setFill at hs ht
  dsimp only at hs ht
  rw [← ha.around, ← ha.tick] at ht
  obtain ⟨s1, k1, hs⟩ := bind_ok hs
  obtain ⟨t1, l1, ht⟩ := bind_ok ht
  have e1 := mintPosition_twins ha h0 h1 k1 l1
  exact e1.trans (fillSide_twins e1.alike e1.amount0 e1.amount1 hs ht)

theorem _root_.Uni.Spec.Alike.bollingerTicks {s t : Strat} (ha : Alike s t) (k : Int) : s.bollingerTicks k = t.bollingerTicks k := by
  unfold Strat.bollingerTicks Strat.bandWidth; rw [ha.history]
theorem _root_.Uni.Spec.Alike.volatilityTicks {s t : Strat} (ha : Alike s t) (k : Int) : s.volatilityTicks k = t.volatilityTicks k := by
  unfold Strat.volatilityTicks Strat.bandWidth; rw [ha.history, ha.price]
theorem _root_.Uni.Spec.Alike.averageTicks {s t : Strat} (ha : Alike s t) (k : Int) : s.averageTicks k = t.averageTicks k := by
  unfold Strat.averageTicks Strat.around; rw [ha.history, ha.unit]

theorem setBollingerFill_twins {s t s' t' : Strat} {k : Int} (ha : Alike s t) (h0 : s.amount0 = t.amount0)
    (h1 : s.amount1 = t.amount1) (hs : s.setBollingerFill k = .ok s') (ht : t.setBollingerFill k = .ok t') : Twins s t s' t' := by
  unfold setBollingerFill at hs ht
  rw [← ha.bollingerTicks] at ht
  obtain ⟨r, k0, hs⟩ := bind_ok hs
  obtain ⟨r', l0, ht⟩ := bind_ok ht
  rw [k0] at l0
  cases l0
  obtain ⟨s1, k1, hs⟩ := bind_ok hs
  obtain ⟨t1, l1, ht⟩ := bind_ok ht
  have e1 := mintPosition_twins ha h0 h1 k1 l1
  rw [← e1.alike.tick] at ht
  by_cases c : r.1 ≤ s1.pool.tick ∧ s1.pool.tick ≤ r.2
  · rw [if_pos c] at hs ht
    exact e1.trans (fillSide_twins e1.alike e1.amount0 e1.amount1 hs ht)
  · rw [if_neg c] at hs ht
    cases hs
    cases ht
    exact e1

theorem openFirst_twins {s t s' t' : Strat} {fuel fuel' : Nat} (ha : Alike s t) (h0 : s.amount0 = t.amount0)
    (h1 : s.amount1 = t.amount1) (hns : ∀ w, s.kind ≠ .swapHalf w) (hs : s.openFirst fuel = .ok s')
    (ht : t.openFirst fuel' = .ok t') : Twins s t s' t' := by
  unfold openFirst at hs ht
  rw [← ha.kind] at ht
  cases hk : s.kind with
  | constantInterval w =>
    rw [hk] at hs ht
    dsimp only at hs ht
    rw [← ha.around, ← ha.tick] at ht
    have e := fun A B C => mintUnchecked_twins A B C hs ht
    have e := e ⟨rfl, rfl, rfl, ha.history, ha.fee, ha.price, ha.tick⟩ h0 h1
    exact ⟨e.alike, e.amount0, e.amount1, e.opened⟩
  | aroundPrice w =>
    rw [hk] at hs ht
    dsimp only at hs ht
    rw [← ha.around, ← ha.tick] at ht
    exact mintUnchecked_twins ha h0 h1 hs ht
  | twoInterval a b => rw [hk] at hs ht; exact setTwo_twins ha h0 h1 hs ht
  | aroundAverage w n =>
    rw [hk] at hs ht
    dsimp only at hs ht
    rw [← ha.averageTicks] at ht
    obtain ⟨r, k0, hs⟩ := bind_ok hs
    obtain ⟨r', l0, ht⟩ := bind_ok ht
    rw [k0] at l0
    cases l0
    exact mintPosition_twins ha h0 h1 hs ht
  | bollinger n k =>
    rw [hk] at hs ht
    dsimp only at hs ht
    rw [← ha.bollingerTicks] at ht
    obtain ⟨r, k0, hs⟩ := bind_ok hs
    obtain ⟨r', l0, ht⟩ := bind_ok ht
    rw [k0] at l0
    cases l0
    exact mintPosition_twins ha h0 h1 hs ht
  | bollingerFillUp n k =>
    rw [hk] at hs ht
    dsimp only at hs ht
    rw [← ha.bollingerTicks] at ht
    obtain ⟨r, k0, hs⟩ := bind_ok hs
    obtain ⟨r', l0, ht⟩ := bind_ok ht
    rw [k0] at l0
    cases l0
    exact mintPosition_twins ha h0 h1 hs ht
  | volatilitySized n k =>
    rw [hk] at hs ht
    dsimp only at hs ht
    rw [← ha.volatilityTicks] at ht
    obtain ⟨r, k0, hs⟩ := bind_ok hs
    obtain ⟨r', l0, ht⟩ := bind_ok ht
    rw [k0] at l0
    cases l0
    exact mintPosition_twins ha h0 h1 hs ht
  | fillUp w => rw [hk] at hs ht; exact setFill_twins ha h0 h1 hs ht
  | limitOrder w => rw [hk] at hs ht; exact setLimit_twins ha h0 h1 hs ht
  | swapHalf w => exact absurd hk (hns w)
  | v2 => rw [hk] at hs ht; exact mintPosition_twins ha h0 h1 hs ht
  | noProvision =>
    rw [hk] at hs ht
    cases hs
    cases ht
    exact Twins.refl ha h0 h1

theorem openAgain_twins {s t s' t' : Strat} {fuel fuel' : Nat} (ha : Alike s t) (h0 : s.amount0 = t.amount0)
    (h1 : s.amount1 = t.amount1) (hns : ∀ w, s.kind ≠ .swapHalf w) (hs : s.openAgain fuel = .ok s')
    (ht : t.openAgain fuel' = .ok t') : Twins s t s' t' := by
  unfold openAgain at hs ht
  rw [← ha.kind] at ht
  cases hk : s.kind with
  | constantInterval w =>
    rw [hk] at hs ht
    dsimp only at hs ht
    rw [← ha.tickLower, ← ha.tickUpper] at ht
    exact mintPosition_twins ha h0 h1 hs ht
  | aroundPrice w =>
    rw [hk] at hs ht
    dsimp only at hs ht
    rw [← ha.around, ← ha.tick] at ht
    exact mintPosition_twins ha h0 h1 hs ht
  | twoInterval a b => rw [hk] at hs ht; exact setTwo_twins ha h0 h1 hs ht
  | aroundAverage w n =>
    rw [hk] at hs ht
    dsimp only at hs ht
    rw [← ha.averageTicks] at ht
    obtain ⟨r, k0, hs⟩ := bind_ok hs
    obtain ⟨r', l0, ht⟩ := bind_ok ht
    rw [k0] at l0
    cases l0
    exact mintPosition_twins ha h0 h1 hs ht
  | bollinger n k =>
    rw [hk] at hs ht
    dsimp only at hs ht
    rw [← ha.bollingerTicks] at ht
    obtain ⟨r, k0, hs⟩ := bind_ok hs
    obtain ⟨r', l0, ht⟩ := bind_ok ht
    rw [k0] at l0
    cases l0
    exact mintPosition_twins ha h0 h1 hs ht
  | bollingerFillUp n k => rw [hk] at hs ht; exact setBollingerFill_twins ha h0 h1 hs ht
  | volatilitySized n k =>
    rw [hk] at hs ht
    dsimp only at hs ht
    rw [← ha.volatilityTicks] at ht
    obtain ⟨r, k0, hs⟩ := bind_ok hs
    obtain ⟨r', l0, ht⟩ := bind_ok ht
    rw [k0] at l0
    cases l0
    exact mintPosition_twins ha h0 h1 hs ht
  | fillUp w => rw [hk] at hs ht; exact setFill_twins ha h0 h1 hs ht
  | limitOrder w => rw [hk] at hs ht; exact setLimit_twins ha h0 h1 hs ht
  | swapHalf w => exact absurd hk (hns w)
  | v2 => rw [hk] at hs ht; exact mintPosition_twins ha h0 h1 hs ht
  | noProvision =>
    rw [hk] at hs ht
    cases hs
    cases ht
    exact Twins.refl ha h0 h1

end Strat
end Uni
