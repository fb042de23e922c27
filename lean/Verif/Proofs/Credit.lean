import Verif.Proofs.Growth
/-! # Fees credited to a position -/
namespace Uni
open U256 Spec TickData TickMath FullMath
namespace Pool

theorem init_of_gross {h : List Entry} {p : Pool} (hi : Inv h p) {i : Int} (hg : grossAt h i ≠ 0) : Pool.Initialized p i := by
  unfold Spec.Pool.Initialized
  rcases hx : lookup p.ticks.ticks i with _ | x
  · exact absurd (hi.ticks.none i hx) hg
  · rfl

theorem setPos_ne {m : String → Option Info} {k k' : String} {i : Info} (h : k' ≠ k) : setPos m k i k' = m k' := if_neg h
theorem setPos_same {m : String → Option Info} {k : String} {i : Info} : setPos m k i k = some i := if_pos rfl

theorem exec_alone {p p' : Pool} {l u : Int} {fuel : Nat} {op : PoolOp} (ha : op.LeavesAlone l u) (hx : op.exec fuel p = .ok p') :
    p'.positions (posKey l u) = p.positions (posKey l u) := by
  cases op with
  | mint a b d =>
    obtain ⟨_, _, h3⟩ := bind_ok hx
    rw [modifyPosition_pos h3]
  | burn a b d => rw [modifyPosition_pos hx]
  | mintStrategy a b d =>
    obtain ⟨⟨r0, r1, q'⟩, h3, h4⟩ := bind_ok hx
    cases h4
    obtain ⟨pos, h5⟩ := mintStrategy_pos h3
    dsimp only
    rw [h5, setPos_ne (Ne.symm ha)]
  | burnStrategy a b d =>
    obtain ⟨⟨r0, r1, q'⟩, h3, h4⟩ := bind_ok hx
    cases h4
    obtain ⟨pos, h5⟩ := burnStrategy_pos h3
    dsimp only
    rw [h5, setPos_ne (Ne.symm ha)]
  | collectStrategy a b =>
    obtain ⟨⟨r0, r1, q'⟩, h3, h4⟩ := bind_ok hx
    cases h4
    unfold collectStrategy at h3
    split at h3
    · cases h3
    · cases h3
      exact setPos_ne (Ne.symm ha)
  | flash a b =>
    obtain ⟨_, _, hx⟩ := bind_ok hx
    obtain ⟨_, _, hx⟩ := bind_ok hx
    obtain ⟨_, _, hx⟩ := bind_ok hx
    obtain ⟨_, _, hx⟩ := bind_ok hx
    obtain ⟨_, _, hx⟩ := bind_ok hx
    cases hx
    rfl
  | exactInput a t lim =>
    obtain ⟨⟨r0, r1, q'⟩, h3, h4⟩ := bind_ok hx
    cases h4
    dsimp only
    rw [swap_pos h3]
  | exactOutput a t lim =>
    obtain ⟨⟨r0, r1, q'⟩, h3, h4⟩ := bind_ok hx
    cases h4
    dsimp only
    rw [swap_pos h3]

theorem ledger_alone {l u : Int} {op : PoolOp} {h : List Entry} (ha : op.LeavesAlone l u) :
    outstanding h l u ≤ outstanding (op.ledger h) l u := by
  have hcons : ∀ a b (n : Nat), outstanding h l u ≤ outstanding (⟨a, b, (n : Int)⟩ :: h) l u := by
    intro a b n
    rw [outstanding_cons]
    dsimp only
    split <;> omega
  have hburn : ∀ a b (n : Nat), ¬ (a = l ∧ b = u) → outstanding h l u ≤ outstanding (if n = 0 then h else ⟨a, b, -(n : Int)⟩ :: h) l u := by
    intro a b n hn
    split
    · exact le_refl _
    · rw [outstanding_cons, if_neg hn]; omega
  cases op with
  | mint a b d => exact hcons a b d.toNat
  | burn a b d => exact hburn a b d.toNat ha
  | mintStrategy a b d => exact hcons a b d.toNat
  | burnStrategy a b d =>
    refine hburn a b d.toNat ?_
    rintro ⟨rfl, rfl⟩
    exact ha rfl
  | collectStrategy a b => exact le_refl _
  | flash a b => exact le_refl _
  | exactInput a t lim => exact le_refl _
  | exactOutput a t lim => exact le_refl _

theorem evolves_alone {keep : Pool → Prop} {h h' : List Entry} {p p' : Pool} {log : List Accrual} {l u : Int}
    (hi : Inv h p) (ho : 0 < outstanding h l u) (hev : Evolves (PoolOp.LeavesAlone l u) keep h p log h' p') :
    Inv h' p' ∧ SameId p p' ∧ outstanding h l u ≤ outstanding h' l u ∧ p'.positions (posKey l u) = p.positions (posKey l u) ∧
      Evolves (PoolOp.LeavesAlone l u) (fun q => Pool.Initialized q l ∧ Pool.Initialized q u) h p log h' p' := by
  have init : ∀ {h' : List Entry} {p' : Pool}, Inv h' p' → 0 < outstanding h' l u → Pool.Initialized p' l ∧ Pool.Initialized p' u := by
    intro h' p' hi' ho'
    obtain ⟨h1, h2⟩ := hi'.cov.gross_pos ho'
    exact ⟨init_of_gross hi' (by omega), init_of_gross hi' (by omega)⟩
  induction hev with
  | refl hk0 => exact ⟨hi, ⟨rfl, rfl, rfl, rfl⟩, le_refl _, rfl, .refl (init hi ho)⟩
  | step fuel op hr hal ha hx hk2 ih =>
    obtain ⟨i1, ⟨i2, i3, i4, i5⟩, i6, i7, i8⟩ := ih
    obtain ⟨e1, e2, e3, e4⟩ := exec_id hx
    have k1 := exec_inv i1 ha hx
    have k2 := le_trans i6 (ledger_alone hal)
    exact ⟨k1, ⟨e1.trans i2, e2.trans i3, e3.trans i4, e4.trans i5⟩, k2, (exec_alone hal hx).trans i7,
      .step fuel op i8 hal ha hx (init k1 (by omega))⟩

/-- The record of `[l, u)` is `i` and its growth snapshot is up to date. -/
def Fresh (l u : Int) (p : Pool) (i : Info) : Prop :=
  p.positions (posKey l u) = some i ∧
    p.ticks.getFeeGrowthInside l u p.tick p.growth0 p.growth1 = .ok (i.inside0, i.inside1)

theorem update_ok {i i' : Info} {d a b : U256} (h : i.update d a b = .ok i') :
    i'.inside0 = a ∧ i'.inside1 = b ∧ i'.liquidity = i.liquidity + d ∧
    i'.owed0 = i.owed0 + share i.liquidity (a - i.inside0) ∧ i'.owed1 = i.owed1 + share i.liquidity (b - i.inside1) := by
  unfold Info.update at h
  obtain ⟨o0, h0, h⟩ := bind_ok h
  obtain ⟨o1, h1, h⟩ := bind_ok h
  cases h
  have e0 := ((mulDiv_ok_iff _ _ _ _).1 h0).2
  have e1 := ((mulDiv_ok_iff _ _ _ _).1 h1).2
  rw [SqrtPriceMath.toNat_q128] at e0 e1
  refine ⟨rfl, rfl, rfl, ?_, ?_⟩
  · dsimp only; unfold share; rw [e0, mul_comm]; rfl
  · dsimp only; unfold share; rw [e1, mul_comm]; rfl

/-- The growths inside the range before and after the tick updates of a touch. -/
theorem touch_inside {h : List Entry} {p p' : Pool} (hi : Inv h p) {pos : Info} {l u : Int} {d a0 a1 : U256}
    (hx : p.modifyPositionStrategy l u d = .ok (pos, a0, a1, p')) :
    ∃ ins : U256 × U256, (posOrNew (p.positions (posKey l u))).update d ins.1 ins.2 = .ok pos ∧
      (Pool.Initialized p l ∧ Pool.Initialized p u → p.ticks.getFeeGrowthInside l u p.tick p.growth0 p.growth1 = .ok ins) ∧
      (Pool.Initialized p' l ∧ Pool.Initialized p' u → Fresh l u p' pos) := by
  obtain ⟨hlu, _, _, q, h1, h2, h3⟩ := modifyStrategy_eq hx
  obtain ⟨t2, t', ins, m1, m2, m3, m4, m5, m6, m7, rfl⟩ := updatePosition_eq hi.ticks.inc hlu h1
  have hp : p'.ticks = t' ∧ p'.tick = p.tick ∧ p'.growth0 = p.growth0 ∧ p'.growth1 = p.growth1 ∧
      p'.positions = setPos p.positions (posKey l u) pos := by
    by_cases hz : d.toNat = 0
    · obtain ⟨_, _, rfl⟩ := h2 hz; exact ⟨rfl, rfl, rfl, rfl, rfl⟩
    · obtain ⟨_, rfl⟩ := h3 hz; exact ⟨rfl, rfl, rfl, rfl, rfl⟩
  obtain ⟨hp1, hp2, hp3, hp4, hp5⟩ := hp
  obtain ⟨x, y, hx1, hy1⟩ := inside_init m1 m3
  have e := inside_eq m1 hx1 hy1 p.tick p.growth0 p.growth1
  rw [m3] at e
  have hul : l ≠ u := by omega
  have out : ∀ (t : TickData), Increasing t.ticks → (∃ x', lookup t.ticks l = some x' ∧ x'.out0 = x.out0 ∧ x'.out1 = x.out1) →
      (∃ y', lookup t.ticks u = some y' ∧ y'.out0 = y.out0 ∧ y'.out1 = y.out1) →
      t.getFeeGrowthInside l u p.tick p.growth0 p.growth1 = .ok ins := by
    rintro t ht ⟨x', b1, b2, b3⟩ ⟨y', c1, c2, c3⟩
    rw [inside_eq ht b1 c1, b2, b3, c2, c3, e]
  refine ⟨ins, m4, ?_, ?_⟩
  · rintro ⟨i1, i2⟩
    obtain ⟨x0, hx0⟩ := Option.isSome_iff_exists.1 i1
    obtain ⟨y0, hy0⟩ := Option.isSome_iff_exists.1 i2
    have g1 := m2 l
    have g2 := m2 u
    rw [hx1] at g1
    rw [hy1] at g2
    refine out _ hi.ticks.inc ⟨x0, hx0, ?_⟩ ⟨y0, hy0, ?_⟩
    · by_cases hz : d.toNat = 0
      · rw [if_pos hz, hx0] at g1; cases g1; exact ⟨rfl, rfl⟩
      · rw [if_neg hz, if_neg hul, if_pos rfl, hx0] at g1; cases g1; exact ⟨rfl, rfl⟩
    · by_cases hz : d.toNat = 0
      · rw [if_pos hz, hy0] at g2; cases g2; exact ⟨rfl, rfl⟩
      · rw [if_neg hz, if_pos rfl, hy0] at g2; cases g2; exact ⟨rfl, rfl⟩
  · rintro ⟨i1, i2⟩
    obtain ⟨x0, hx0⟩ := Option.isSome_iff_exists.1 i1
    obtain ⟨y0, hy0⟩ := Option.isSome_iff_exists.1 i2
    rw [hp1] at hx0 hy0
    obtain ⟨u1, u2, _⟩ := update_ok m4
    unfold Fresh
    rw [hp1, hp2, hp3, hp4, hp5, u1, u2]
    refine ⟨setPos_same, ?_⟩
    have g1 := m2 l
    have g2 := m2 u
    have k1 := m7 l
    have k2 := m7 u
    rw [hx1] at g1
    rw [hy1] at g2
    rw [hx0] at k1
    rw [hy0] at k2
    have := out _ m5 ⟨x0, hx0, ?_⟩ ⟨y0, hy0, ?_⟩
    · rw [this]
    · by_cases hz : d.toNat = 0
      · rw [if_pos hz] at g1 k1; rw [← g1] at k1; cases k1; exact ⟨rfl, rfl⟩
      · rw [if_neg hz, if_neg hul, if_pos rfl] at g1 k1
        split at k1
        · cases k1
        · rw [← g1] at k1; cases k1; exact ⟨rfl, rfl⟩
    · by_cases hz : d.toNat = 0
      · rw [if_pos hz] at g2 k2; rw [← g2] at k2; cases k2; exact ⟨rfl, rfl⟩
      · rw [if_neg hz, if_pos rfl] at g2 k2
        split at k2
        · cases k2
        · rw [← g2] at k2; cases k2; exact ⟨rfl, rfl⟩

/-- Growth inside a range over a history in which both boundaries stay initialized. -/
theorem evolves_inside {allowed : PoolOp → Prop} {h h' : List Entry} {p p' : Pool} {log : List Accrual} {l u : Int} (hlu : l ≤ u)
    (hi : Inv h p) (hev : Evolves allowed (fun q => Pool.Initialized q l ∧ Pool.Initialized q u) h p log h' p')
    {a b : U256 × U256} (ha : p.ticks.getFeeGrowthInside l u p.tick p.growth0 p.growth1 = .ok a)
    (hb : p'.ticks.getFeeGrowthInside l u p'.tick p'.growth0 p'.growth1 = .ok b) :
    b.1 = a.1 + accrued0 l u log ∧ b.2 = a.2 + accrued1 l u log := by
  obtain ⟨x, y, hx, hy⟩ := inside_init hi.ticks.inc ha
  obtain ⟨i1, _, _, _, _, k1⟩ := evolves_growth (i := l) hi (fun q hq => hq.1) hev
  obtain ⟨_, _, _, _, _, k2⟩ := evolves_growth (i := u) hi (fun q hq => hq.2) hev
  obtain ⟨x', y', hx', hy'⟩ := inside_init i1.ticks.inc hb
  obtain ⟨e1, e2⟩ := k1 x x' hx hx'
  obtain ⟨e3, e4⟩ := k2 y y' hy hy'
  rw [inside_eq hi.ticks.inc hx hy] at ha
  rw [inside_eq i1.ticks.inc hx' hy'] at hb
  cases ha
  cases hb
  dsimp only
  rw [accrued0_eq hlu, accrued1_eq hlu, e1, e2, e3, e4]
  constructor <;> abel

/-- A touch after a touch. -/
theorem touch_credit {keep : Pool → Prop} {h h' : List Entry} {p p' q : Pool} {log : List Accrual} {l u : Int} {i pos : Info}
    (hi : Inv h p) (hf : Fresh l u p i) (ho : 0 < outstanding h l u) (hev : Evolves (PoolOp.LeavesAlone l u) keep h p log h' p')
    {d a0 a1 : U256} (hx : p'.modifyPositionStrategy l u d = .ok (pos, a0, a1, q)) :
    pos.liquidity = i.liquidity + d ∧ pos.owed0 = i.owed0 + share i.liquidity (accrued0 l u log) ∧
      pos.owed1 = i.owed1 + share i.liquidity (accrued1 l u log) := by
  obtain ⟨i1, _, i3, i4, i5⟩ := evolves_alone hi ho hev
  obtain ⟨hlu, _⟩ := modifyStrategy_eq hx
  obtain ⟨ins, k1, k2, _⟩ := touch_inside i1 hx
  obtain ⟨g1, g2⟩ := i1.cov.gross_pos (show 0 < outstanding h' l u by omega)
  have k3 := k2 ⟨init_of_gross i1 (by omega), init_of_gross i1 (by omega)⟩
  obtain ⟨e1, e2⟩ := evolves_inside (le_of_lt hlu) hi i5 hf.2 k3
  rw [i4, hf.1] at k1
  obtain ⟨_, _, u3, u4, u5⟩ := update_ok k1
  change pos.liquidity = i.liquidity + d at u3
  change pos.owed0 = i.owed0 + share i.liquidity (ins.1 - i.inside0) at u4
  change pos.owed1 = i.owed1 + share i.liquidity (ins.2 - i.inside1) at u5
  rw [e1, add_sub_cancel_left] at u4
  rw [e2, add_sub_cancel_left] at u5
  exact ⟨u3, u4, u5⟩

end Pool
end Uni
