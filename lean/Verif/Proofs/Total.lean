import Verif.Proofs.Restore
import Verif.Proofs.Credit
import Verif.Proofs.PosAmounts
import Verif.Proofs.Cash
import Verif.Spec.Total
/-! # When calls on a pool return -/
namespace Uni
open U256 Spec TickData TickMath FullMath SqrtPriceMath
namespace Pool

theorem words_q128 : words (2 ^ 128) = 3 := words_bounds (by norm_num) (by norm_num) (by norm_num)

theorem share_total (L g : U256) : (∃ r, mulDiv g L Cons.q128 = .ok r) ↔ Payable L g := by
  have e : (∃ r, mulDiv g L Cons.q128 = .ok r) ↔ (g.toNat * L.toNat = 0 ∨ ¬ Panics (g.toNat * L.toNat) Cons.q128.toNat) := by
    constructor
    · rintro ⟨r, hr⟩; exact ((mulDiv_ok_iff _ _ _ _).1 hr).1
    · intro h; exact ⟨_, (mulDiv_ok_iff _ _ _ _).2 ⟨h, rfl⟩⟩
  rw [e, SqrtPriceMath.toNat_q128, Nat.mul_comm]
  unfold Payable Panics
  rw [words_q128]
  generalize L.toNat * g.toNat = x
  by_cases h0 : x = 0
  · simp [h0]
  · have e1 : words x + 2 ≤ 3 ↔ x < 2 ^ 64 := by
      constructor
      · intro h
        have := lt_words x
        have h2 : 2 ^ (64 * words x) ≤ 2 ^ (64 * 1) := Nat.pow_le_pow_right (by norm_num) (by omega)
        exact lt_of_lt_of_le this (by simpa using h2)
      · intro h
        have := words_le (k := 1) (n := x) (by simpa using h)
        omega
    have e2 : 3 + 5 ≤ words x ↔ 2 ^ 448 ≤ x := by
      constructor
      · intro h
        have := words_ge h0
        have h2 : 2 ^ (64 * 7) ≤ 2 ^ (64 * (words x - 1)) := Nat.pow_le_pow_right (by norm_num) (by omega)
        exact le_trans (by simpa using h2) this
      · intro h
        by_contra hc
        have := lt_words x
        have h2 : 2 ^ (64 * words x) ≤ 2 ^ (64 * 7) := Nat.pow_le_pow_right (by norm_num) (by omega)
        have h3 : x < 2 ^ 448 := lt_of_lt_of_le this (by simpa using h2)
        exact absurd h (Nat.not_le.2 h3)
    rw [e1, e2, not_or, not_or, Nat.not_lt, Nat.not_le]
    constructor
    · rintro (h | ⟨_, h1, h2⟩)
      · exact absurd h h0
      · exact Or.inr ⟨h1, h2⟩
    · rintro (h | ⟨h1, h2⟩)
      · exact absurd h h0
      · exact Or.inr ⟨by norm_num, h1, h2⟩

theorem update_total (i : Info) (d a b : U256) :
    (∃ r, i.update d a b = .ok r) ↔ Payable i.liquidity (sub a i.inside0) ∧ Payable i.liquidity (sub b i.inside1) := by
  rw [← share_total, ← share_total]
  unfold Info.update
  constructor
  · rintro ⟨r, hr⟩
    obtain ⟨o0, h0, hr⟩ := bind_ok hr
    obtain ⟨o1, h1, hr⟩ := bind_ok hr
    exact ⟨⟨_, h0⟩, ⟨_, h1⟩⟩
  · rintro ⟨⟨o0, h0⟩, ⟨o1, h1⟩⟩
    rw [h0, Except_bind_ok, h1, Except_bind_ok]
    exact ⟨_, rfl⟩

/-- The growth below a boundary, with the values a touch gives it. -/
theorem touched_below (p : Pool) (i : Int) (d : U256) (up : Bool) :
    (growthBelow i p.tick p.growth0 (updated (lookup p.ticks.ticks i) i p.tick d p.growth0 p.growth1 up).out0,
      growthBelow i p.tick p.growth1 (updated (lookup p.ticks.ticks i) i p.tick d p.growth0 p.growth1 up).out1) = belowOf p i := by
  unfold belowOf outsideOf growthBelow updated makeTick
  rcases lookup p.ticks.ticks i with _ | x
  · dsimp only
    by_cases h : i ≤ p.tick
    · rw [if_pos h, if_pos h, if_pos h]
      simp only [ge_iff_le, if_pos h]
    · rw [if_neg h, if_neg h, if_neg h]
      simp only [ge_iff_le, if_neg h]
  · dsimp only
    by_cases h : i ≤ p.tick
    · rw [if_pos h]
      simp only [ge_iff_le, if_pos h]
    · rw [if_neg h]
      simp only [ge_iff_le, if_neg h]

theorem stored_below {p : Pool} {i : Int} {x : Tick} (h : lookup p.ticks.ticks i = some x) :
    (growthBelow i p.tick p.growth0 x.out0, growthBelow i p.tick p.growth1 x.out1) = belowOf p i := by
  unfold belowOf outsideOf growthBelow
  rw [h]
  dsimp only
  by_cases h : i ≤ p.tick
  · rw [if_pos h]
    simp only [ge_iff_le, if_pos h]
  · rw [if_neg h]
    simp only [ge_iff_le, if_neg h]

theorem inside_of_below {p : Pool} {t : TickData} (hs : Increasing t.ticks) {l u : Int} {x y : Tick}
    (hx : lookup t.ticks l = some x) (hy : lookup t.ticks u = some y)
    (bx : (growthBelow l p.tick p.growth0 x.out0, growthBelow l p.tick p.growth1 x.out1) = belowOf p l)
    (by' : (growthBelow u p.tick p.growth0 y.out0, growthBelow u p.tick p.growth1 y.out1) = belowOf p u) :
    t.getFeeGrowthInside l u p.tick p.growth0 p.growth1 = .ok (insideOf p l u) := by
  rw [inside_eq hs hx hy]
  unfold insideOf
  rw [← bx, ← by']
  rfl

theorem inside_stored {p : Pool} (hs : Increasing p.ticks.ticks) {l u : Int} (h1 : Pool.Initialized p l) (h2 : Pool.Initialized p u) :
    p.ticks.getFeeGrowthInside l u p.tick p.growth0 p.growth1 = .ok (insideOf p l u) := by
  obtain ⟨x, hx⟩ := Option.isSome_iff_exists.1 h1
  obtain ⟨y, hy⟩ := Option.isSome_iff_exists.1 h2
  exact inside_of_below hs hx hy (stored_below hx) (stored_below hy)

theorem updatePosition_total {p : Pool} (hs : Increasing p.ticks.ticks) {l u : Int} (hlu : l < u) {d : U256} (hd : d.toNat ≠ 0) :
    (∃ r, p.updatePosition l u d = .ok r) ↔ Creditable p l u := by
  unfold updatePosition updateBounds
  rw [if_neg (fun h => hd ((isZero_iff _).1 h))]
  obtain ⟨t1, t2, b1, b2, b3, b4, b5⟩ := bounds_spec hs (show l ≠ u by omega) p.tick d p.growth0 p.growth1
  rw [b1, Except_bind_ok]
  dsimp only
  rw [b2, Except_bind_ok]
  have hl : lookup t2.ticks l = some (updated (lookup p.ticks.ticks l) l p.tick d p.growth0 p.growth1 false) := by
    rw [b5 l, if_neg (by omega), if_pos rfl]
  have hu : lookup t2.ticks u = some (updated (lookup p.ticks.ticks u) u p.tick d p.growth0 p.growth1 true) := by
    rw [b5 u, if_pos rfl]
  have hin := inside_of_below (p := p) b3 hl hu (touched_below p l d false) (touched_below p u d true)
  show (∃ r, (Except.ok _ >>= _) = _) ↔ _
  rw [Except_bind_ok]
  dsimp only
  rw [hin, Except_bind_ok]
  unfold Creditable
  rw [record_posOrNew]
  dsimp only
  rw [← update_total _ d]
  constructor
  · rintro ⟨r, hr⟩
    obtain ⟨pos, h1, _⟩ := bind_ok hr
    exact ⟨pos, h1⟩
  · rintro ⟨pos, h1⟩
    rw [h1, Except_bind_ok]
    obtain ⟨t3, c1, c2, _⟩ := clearIf_spec b3 (decide (d.sign = -1) && nowEmpty (lookup p.ticks.ticks l) d) l
    rw [c1, Except_bind_ok]
    obtain ⟨t4, d1, _⟩ := clearIf_spec c2 (decide (d.sign = -1) && nowEmpty (lookup p.ticks.ticks u) d) u
    rw [d1, Except_bind_ok]
    exact ⟨_, rfl⟩

/-- The same for the zero change, which needs stored boundaries. -/
theorem updatePosition_zero {p : Pool} (hs : Increasing p.ticks.ticks) {l u : Int} {d : U256} (hd : d.toNat = 0) :
    (∃ r, p.updatePosition l u d = .ok r) ↔ (Pool.Initialized p l ∧ Pool.Initialized p u) ∧ Creditable p l u := by
  have hz := (isZero_iff d).2 hd
  unfold Creditable
  rw [record_posOrNew]
  dsimp only
  rw [← update_total _ d]
  unfold updatePosition updateBounds
  rw [if_pos hz, Except_bind_ok]
  dsimp only
  constructor
  · rintro ⟨r, hr⟩
    obtain ⟨ins, h1, hr⟩ := bind_ok hr
    obtain ⟨x, y, hx, hy⟩ := inside_init hs h1
    have i1 : Pool.Initialized p l := by unfold Spec.Pool.Initialized; rw [hx]; rfl
    have i2 : Pool.Initialized p u := by unfold Spec.Pool.Initialized; rw [hy]; rfl
    rw [inside_stored hs i1 i2] at h1
    cases h1
    obtain ⟨pos, h2, _⟩ := bind_ok hr
    exact ⟨⟨i1, i2⟩, ⟨pos, h2⟩⟩
  · rintro ⟨⟨i1, i2⟩, ⟨pos, h2⟩⟩
    rw [inside_stored hs i1 i2, Except_bind_ok, h2, Except_bind_ok]
    have hn : decide (d.sign = -1) = false := by
      apply decide_eq_false
      rw [sign_eq_toInt, toInt_eq_zero.2 hd]; decide
    rw [hn]
    exact ⟨_, rfl⟩

theorem checkTicks_iff (l u : Int) : checkTicks l u = .ok () ↔ ValidRange l u := by
  constructor
  · exact checkTicks_ok
  · rintro ⟨hlu, hl, hu⟩
    have e1 : minTick = -887272 := by decide
    have e2 : maxTick = 887272 := by decide
    unfold checkTicks
    rw [decide_eq_true hlu, decide_eq_true (show l ≥ minTick by omega), decide_eq_true (show u ≤ maxTick by omega)]
    rfl

/-- The amounts of a removal can always be computed, those of an addition unless the liquidity is too small. -/
theorem amountsFor_total {p : Pool} {l u : Int} {d : U256} (ht1 : -887272 ≤ p.tick) (ht2 : p.tick < 887272)
    (hp1 : ratioN p.tick ≤ p.price.toNat) (hp2 : p.price.toNat ≤ ratioN (p.tick + 1)) (hv : ValidRange l u)
    (hd0 : d.toInt ≠ 0) (hd : -2 ^ 128 < d.toInt) (hd' : d.toInt < 2 ^ 128) :
    (∃ r, p.amountsFor l u d = .ok r) ↔
      (0 < d.toInt → ¬ Unpriceable (clamp p.price.toNat (ratioN l) (ratioN u)) (ratioN u) d.toNat) := by
  obtain ⟨hlu, hl, hu⟩ := hv
  have hlt := ratioN_lt (s := l) (t := u) hl hlu hu
  have hA := ratioN_ge (t := l) hl (by omega)
  have hA' := ratioN_lt160 (t := l) hl (by omega)
  have hB := ratioN_ge (t := u) (by omega) hu
  have hB' := ratioN_lt160 (t := u) (by omega) hu
  have hP0 := ratioN_ge (t := p.tick) ht1 (by omega)
  have hP1 := ratioN_lt160 (t := p.tick + 1) (by omega) (by omega)
  have tA : (ofNat (ratioN l)).toNat = ratioN l := toNat_ofNat_of_lt (by omega)
  have tB : (ofNat (ratioN u)).toNat = ratioN u := toNat_ofNat_of_lt (by omega)
  have key : ∀ a b : U256, 0 < a.toNat → a.toNat ≤ b.toNat → b.toNat < 2 ^ 160 →
      ((∃ r, getAmount0DeltaRounded a b d = .ok r) ↔ (0 < d.toInt → ¬ Unpriceable a.toNat b.toNat d.toNat)) := by
    intro a b ha hab hb
    by_cases hs : d.toInt < 0
    · obtain ⟨r, h1, _⟩ := (Props.C18_rounded a b d ha (by omega) (by omega) hb hd hd').2 (Or.inl hs)
      exact ⟨fun _ h => absurd h (by omega), fun _ => ⟨r, h1⟩⟩
    · have hn := toNat_of_nonneg (x := d) (by omega)
      have hsg : ¬ sign d = -1 := by rw [sign_eq_toInt, Int.sign_eq_neg_one_iff_neg]; exact hs
      unfold getAmount0DeltaRounded
      rw [if_neg hsg, getAmount0Delta_up a b d ha (by omega) (by omega) hb (by omega)]
      have e : Panics0 a.toNat b.toNat d.toNat ↔ Unpriceable a.toNat b.toNat d.toNat := by
        unfold Panics0 Unpriceable inner0 Spec.dist
        rw [Nat.min_eq_left hab, Nat.max_eq_right hab, lt_ceilDiv_iff (by omega), Nat.zero_mul]
        have e2 : Spec.ceilDiv (d.toNat * 2 ^ 96 * (b.toNat - a.toNat)) b.toNat < 2 ^ 64 ↔
            d.toNat * 2 ^ 96 * (b.toNat - a.toNat) ≤ (2 ^ 64 - 1) * b.toNat := by
          rw [← ceilDiv_le_iff (by omega)]; omega
        rw [e2]
        constructor
        · rintro ⟨h1, h2, h3⟩
          refine ⟨h1, ?_, h3⟩
          by_contra hc
          rw [show b.toNat - a.toNat = 0 by omega, Nat.mul_zero] at h2
          omega
        · rintro ⟨h1, h2, h3⟩
          exact ⟨h1, Nat.mul_pos (Nat.mul_pos (by omega) (by norm_num)) (by omega), h3⟩
      constructor
      · rintro ⟨r, hr⟩ _ hc
        rw [if_pos (e.2 hc)] at hr
        cases hr
      · intro h
        rw [if_neg (fun hc => h (by omega) (e.1 hc))]
        exact ⟨_, rfl⟩
  have one : ∀ a b : U256, 0 < a.toNat → 0 < b.toNat → a.toNat < 2 ^ 160 → b.toNat < 2 ^ 160 →
      ∃ r, getAmount1DeltaRounded a b d = .ok r := by
    intro a b h1 h2 h3 h4
    obtain ⟨r, hr, _⟩ := (Props.C18_rounded a b d h1 h2 h3 h4 hd hd').1
    exact ⟨r, hr⟩
  unfold amountsFor
  rw [getSqrtRatioAtTick_eq l hl (by omega), getSqrtRatioAtTick_eq u (by omega) hu]
  by_cases h1 : p.tick < l
  · rw [if_pos h1, Except_bind_ok, Except_bind_ok]
    have hc : clamp p.price.toNat (ratioN l) (ratioN u) = ratioN l := by
      have := ratioN_le (s := p.tick + 1) (t := l) (by omega) (by omega) (by omega)
      unfold clamp; omega
    have k := key (ofNat (ratioN l)) (ofNat (ratioN u)) (by omega) (by omega) (by omega)
    rw [tA, tB] at k
    rw [hc, ← k]
    constructor
    · rintro ⟨r, hr⟩
      obtain ⟨x, h2, _⟩ := bind_ok hr
      exact ⟨x, h2⟩
    · rintro ⟨x, h2⟩
      rw [h2, Except_bind_ok]
      exact ⟨_, rfl⟩
  · rw [if_neg h1]
    by_cases h2 : p.tick < u
    · rw [if_pos h2, Except_bind_ok]
      have hle := ratioN_le (s := p.tick + 1) (t := u) (by omega) (by omega) (by omega)
      have hc : clamp p.price.toNat (ratioN l) (ratioN u) = p.price.toNat := by
        have := ratioN_le (s := l) (t := p.tick) (by omega) (by omega) (by omega)
        unfold clamp; omega
      have k := key p.price (ofNat (ratioN u)) (by omega) (by omega) (by omega)
      rw [tB] at k
      rw [hc, ← k]
      constructor
      · rintro ⟨r, hr⟩
        obtain ⟨x, h2, _⟩ := bind_ok hr
        exact ⟨x, h2⟩
      · rintro ⟨x, h2⟩
        obtain ⟨y, h3⟩ := one p.price (ofNat (ratioN l)) (by omega) (by omega) (by omega) (by omega)
        rw [h2, Except_bind_ok, Except_bind_ok, h3, Except_bind_ok]
        exact ⟨_, rfl⟩
    · rw [if_neg h2, Except_bind_ok, Except_bind_ok]
      have hc : clamp p.price.toNat (ratioN l) (ratioN u) = ratioN u := by
        have := ratioN_le (s := u) (t := p.tick) (by omega) (by omega) (by omega)
        unfold clamp; omega
      obtain ⟨y, h3⟩ := one (ofNat (ratioN l)) (ofNat (ratioN u)) (by omega) (by omega) (by omega) (by omega)
      rw [h3, Except_bind_ok, hc]
      exact ⟨fun _ _ hx => absurd hx.2.1 (lt_irrefl _), fun _ => ⟨_, rfl⟩⟩

theorem modifyStrategy_total {h : List Entry} {p : Pool} (hi : Inv h p) {l u : Int} {d : U256} (hd0 : d.toInt ≠ 0)
    (hd : -2 ^ 128 < d.toInt) (hd' : d.toInt < 2 ^ 128) :
    (∃ r, p.modifyPositionStrategy l u d = .ok r) ↔ ValidRange l u ∧ Creditable p l u ∧
      (0 < d.toInt → ¬ Unpriceable (clamp p.price.toNat (ratioN l) (ratioN u)) (ratioN u) d.toNat) := by
  have hdn : d.toNat ≠ 0 := fun h => hd0 (toInt_eq_zero.2 h)
  constructor
  · rintro ⟨⟨pos, a0, a1, p'⟩, hx⟩
    obtain ⟨hlu, hl, hu, q, h1, _, h3⟩ := modifyStrategy_eq hx
    have hv : ValidRange l u := ⟨hlu, hl, hu⟩
    refine ⟨hv, (updatePosition_total hi.ticks.inc hlu hdn).1 ⟨_, h1⟩, ?_⟩
    obtain ⟨e, _⟩ := h3 hdn
    obtain ⟨t2, t', ins, _, _, _, _, _, _, _, rfl⟩ := updatePosition_eq hi.ticks.inc hlu h1
    exact (amountsFor_total (p := { p with ticks := t', positions := setPos p.positions (posKey l u) pos })
      hi.tlo hi.thi hi.plo hi.phi hv hd0 hd hd').1 ⟨_, e⟩
  · rintro ⟨hv, h1, h2⟩
    obtain ⟨⟨pos, q⟩, hq⟩ := (updatePosition_total hi.ticks.inc hv.1 hdn).2 h1
    unfold modifyPositionStrategy
    rw [(checkTicks_iff l u).2 hv, Except_bind_ok, hq, Except_bind_ok, if_neg (fun h => hdn ((isZero_iff _).1 h))]
    obtain ⟨t2, t', ins, _, _, _, _, _, _, _, rfl⟩ := updatePosition_eq hi.ticks.inc hv.1 hq
    obtain ⟨am, ha⟩ := (amountsFor_total (p := { p with ticks := t', positions := setPos p.positions (posKey l u) pos })
      hi.tlo hi.thi hi.plo hi.phi hv hd0 hd hd').2 h2
    rw [ha, Except_bind_ok]
    split
    · exact ⟨_, rfl⟩
    · exact ⟨_, rfl⟩

theorem modifyStrategy_zero {h : List Entry} {p : Pool} (hi : Inv h p) {l u : Int} {d : U256} (hd : d.toNat = 0) :
    (∃ r, p.modifyPositionStrategy l u d = .ok r) ↔ ValidRange l u ∧ (Pool.Initialized p l ∧ Pool.Initialized p u) ∧ Creditable p l u := by
  constructor
  · rintro ⟨⟨pos, a0, a1, p'⟩, hx⟩
    obtain ⟨hlu, hl, hu, q, h1, _, h3⟩ := modifyStrategy_eq hx
    exact ⟨⟨hlu, hl, hu⟩, (updatePosition_zero hi.ticks.inc hd).1 ⟨_, h1⟩⟩
  · rintro ⟨hv, h1⟩
    obtain ⟨q, hq⟩ := (updatePosition_zero hi.ticks.inc hd).2 h1
    unfold modifyPositionStrategy
    rw [(checkTicks_iff l u).2 hv, Except_bind_ok, hq, Except_bind_ok, if_pos ((isZero_iff _).2 hd)]
    exact ⟨_, rfl⟩

theorem burnStrategy_total (p : Pool) (l u : Int) (a : U256) :
    (∃ r, p.burnStrategy l u a = .ok r) ↔ ∃ r, p.modifyPositionStrategy l u (neg a) = .ok r := by
  unfold burnStrategy
  constructor
  · rintro ⟨r, hr⟩
    obtain ⟨x, h1, _⟩ := bind_ok hr
    exact ⟨x, h1⟩
  · rintro ⟨x, h1⟩
    rw [h1, Except_bind_ok]
    exact ⟨_, rfl⟩

theorem positive_ok {a : U256} (h : 0 < a.toInt) : invariant (a.sgt zero) = .ok () := by
  have : a.sgt zero = true := (sgt_iff _ _).2 (by rw [show zero.toInt = 0 by decide]; exact h)
  rw [this]; rfl

theorem mintStrategy_total (p : Pool) (l u : Int) (a : U256) :
    (∃ r, p.mintStrategy l u a = .ok r) ↔ 0 < a.toInt ∧ ∃ r, p.modifyPositionStrategy l u a = .ok r := by
  unfold mintStrategy
  constructor
  · rintro ⟨r, hr⟩
    obtain ⟨_, h0, hr⟩ := bind_ok hr
    obtain ⟨x, h1, _⟩ := bind_ok hr
    exact ⟨(sgt_zero_pos h0).1, x, h1⟩
  · rintro ⟨h0, x, h1⟩
    rw [positive_ok h0, Except_bind_ok, h1, Except_bind_ok]
    exact ⟨_, rfl⟩

end Pool
end Uni
