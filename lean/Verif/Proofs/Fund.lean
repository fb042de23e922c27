import Verif.Proofs.Start
/-! # When the liquidity for given amounts can be computed -/
namespace Uni
open U256 Spec TickData TickMath SwapMath FullMath SqrtPriceMath LiquidityAmounts Pool
namespace Strat

theorem tooLong_iff {p d : Nat} (hp : p ≠ 0) : TooLong p d ↔ Spec.words d + 5 ≤ Spec.words p := by
  constructor
  · rintro ⟨k, h1, h2⟩
    have a : Spec.words d ≤ k := by
      by_contra hc
      by_cases hd : d = 0
      · subst hd
        have : Spec.words 0 = 0 := by decide
        omega
      · have h3 := words_ge hd
        have : 2 ^ (64 * k) ≤ 2 ^ (64 * (Spec.words d - 1)) := Nat.pow_le_pow_right (by norm_num) (by omega)
        omega
    have b : k + 5 ≤ Spec.words p := by
      by_contra hc
      have h3 := lt_words p
      have : 2 ^ (64 * Spec.words p) ≤ 2 ^ (64 * (k + 4)) := Nat.pow_le_pow_right (by norm_num) (by omega)
      omega
    omega
  · intro h
    refine ⟨Spec.words d, lt_words d, ?_⟩
    have h3 := words_ge hp
    have : 2 ^ (64 * (Spec.words d + 4)) ≤ 2 ^ (64 * (Spec.words p - 1)) := Nat.pow_le_pow_right (by norm_num) (by omega)
    omega

theorem words_pos {p : Nat} (hp : p ≠ 0) : 1 ≤ Spec.words p := by
  by_contra hc
  have h := lt_words p
  rw [show Spec.words p = 0 by omega] at h
  omega

theorem words_le {p k : Nat} (h : p < 2 ^ (64 * k)) : Spec.words p ≤ k := by
  by_contra hc
  by_cases hp : p = 0
  · subst hp
    have : Spec.words 0 = 0 := by decide
    omega
  · have h3 := words_ge hp
    have : 2 ^ (64 * k) ≤ 2 ^ (64 * (Spec.words p - 1)) := Nat.pow_le_pow_right (by norm_num) (by omega)
    omega

theorem le_words {p k : Nat} (h : 2 ^ (64 * k) ≤ p) : k + 1 ≤ Spec.words p := by
  by_contra hc
  have h3 := lt_words p
  have : 2 ^ (64 * Spec.words p) ≤ 2 ^ (64 * k) := Nat.pow_le_pow_right (by norm_num) (by omega)
  omega

/-- A quotient with a short divisor. -/
theorem mulDiv_returns {x y d : U256} (hd : d.toNat ≠ 0) (hd2 : d.toNat < 2 ^ 160)
    (h : x.toNat * y.toNat ≠ 0 → 2 ^ 128 ≤ d.toNat → 2 ^ 64 ≤ x.toNat * y.toNat) :
    (∃ r, mulDiv x y d = .ok r) ↔ ¬ TooLong (x.toNat * y.toNat) d.toNat := by
  by_cases hp : x.toNat * y.toNat = 0
  · constructor
    · rintro _ ⟨k, _, h2⟩
      rw [hp] at h2
      have : 0 < 2 ^ (64 * (k + 4)) := Nat.pos_of_ne_zero (by positivity)
      omega
    · intro _
      exact ⟨_, (mulDiv_ok_iff x y d _).2 ⟨.inl hp, rfl⟩⟩
  · rw [tooLong_iff hp]
    have hn : ¬ Spec.words (x.toNat * y.toNat) + 2 ≤ Spec.words d.toNat := by
      intro hc
      have a := words_pos hp
      have b := words_le (p := d.toNat) (k := 3) (by omega)
      have c : 2 ^ 128 ≤ d.toNat := by
        have h3 := words_ge hd
        rw [show Spec.words d.toNat = 3 by omega] at h3
        norm_num at h3 ⊢
        exact h3
      have e := le_words (p := x.toNat * y.toNat) (k := 1) (by have := h hp c; norm_num at this ⊢; exact this)
      omega
    constructor
    · rintro ⟨r, hr⟩ hc
      rcases ((mulDiv_ok_iff x y d r).1 hr).1 with h1 | h1
      · exact hp h1
      · exact h1 (.inr (.inr hc))
    · intro hc
      refine ⟨_, (mulDiv_ok_iff x y d _).2 ⟨.inr ?_, rfl⟩⟩
      rintro (h1 | h1 | h1)
      · exact hd h1
      · exact hn h1
      · exact hc h1

theorem toNat_q96 : Cons.q96.toNat = 2 ^ 96 := by decide +kernel

theorem forAmount0_returns {a b x : U256} (ha : 2 ^ 32 ≤ a.toNat) (hab : a.toNat < b.toNat) (hb : b.toNat < 2 ^ 160) :
    (∃ r, getLiquidityForAmount0 a b x = .ok r) ↔ ¬ TooLong (x.toNat * (a.toNat * b.toNat / 2 ^ 96)) (b.toNat - a.toNat) := by
  have hprod : a.toNat * b.toNat < 2 ^ 320 := by
    have : a.toNat * b.toNat < 2 ^ 160 * 2 ^ 160 := Nat.mul_lt_mul'' (by omega) hb
    rw [← pow_add] at this
    exact this
  have hprod1 : 2 ^ 64 ≤ a.toNat * b.toNat := by
    have : 2 ^ 32 * 2 ^ 32 ≤ a.toNat * b.toNat := Nat.mul_le_mul ha (by omega)
    rw [← pow_add] at this
    exact this
  have hI : a.toNat * b.toNat / 2 ^ 96 < 2 ^ 256 := by
    rw [Nat.div_lt_iff_lt_mul (by norm_num), ← pow_add]
    exact lt_of_lt_of_le hprod (Nat.pow_le_pow_right (by norm_num) (by norm_num))
  have hnp : ¬ Panics (a.toNat * b.toNat) Cons.q96.toNat := by
    rw [toNat_q96]
    refine not_panics (by omega) (by norm_num) ?_ hI
    have : 2 ^ 64 * 2 ^ 64 ≤ a.toNat * b.toNat * 2 ^ 64 := Nat.mul_le_mul_right _ hprod1
    rw [← pow_add] at this
    exact le_trans (Nat.pow_le_pow_right (by norm_num) (by norm_num)) this
  have h1 := (mulDiv_ok_iff a b Cons.q96 _).2 ⟨.inr hnp, rfl⟩
  rw [toNat_q96] at h1
  unfold getLiquidityForAmount0
  rw [order_of_le hab.le]
  dsimp only
  rw [h1, Except_bind_ok]
  have e : (ofNat (a.toNat * b.toNat / 2 ^ 96)).toNat = a.toNat * b.toNat / 2 ^ 96 := by
    rw [toNat_ofNat]; exact Nat.mod_eq_of_lt hI
  have es : (sub b a).toNat = b.toNat - a.toNat := toNat_sub_of_le hab.le
  rw [mulDiv_returns (by omega) (by omega), e, es]
  rw [e, es]
  intro hne hd
  have hx : 1 ≤ x.toNat := Nat.pos_of_ne_zero fun h0 => hne (by rw [h0, Nat.zero_mul])
  have : 2 ^ 64 ≤ a.toNat * b.toNat / 2 ^ 96 := by
    rw [Nat.le_div_iff_mul_le (by norm_num), ← pow_add]
    have : 2 ^ 32 * 2 ^ 128 ≤ a.toNat * b.toNat := Nat.mul_le_mul ha (by omega)
    rw [← pow_add] at this
    exact this
  calc 2 ^ 64 = 1 * 2 ^ 64 := (one_mul _).symm
    _ ≤ x.toNat * (a.toNat * b.toNat / 2 ^ 96) := Nat.mul_le_mul hx this

theorem forAmount1_returns {a b x : U256} (hab : a.toNat < b.toNat) (hb : b.toNat < 2 ^ 160) :
    (∃ r, getLiquidityForAmount1 a b x = .ok r) ↔ ¬ TooLong (x.toNat * 2 ^ 96) (b.toNat - a.toNat) := by
  unfold getLiquidityForAmount1
  rw [order_of_le hab.le]
  dsimp only
  have es : (sub b a).toNat = b.toNat - a.toNat := toNat_sub_of_le hab.le
  rw [mulDiv_returns (by omega) (by omega), es, toNat_q96]
  rw [toNat_q96]
  intro hne _
  have hx : 1 ≤ x.toNat := Nat.pos_of_ne_zero fun h0 => hne (by rw [h0, Nat.zero_mul])
  have := Nat.mul_le_mul_right (2 ^ 96) hx
  norm_num at this ⊢
  omega

theorem liquidity_returns {P a b x0 x1 : U256} (ha : 2 ^ 32 ≤ a.toNat) (hab : a.toNat < b.toNat) (hb : b.toNat < 2 ^ 160) :
    (∃ L, getLiquidityForAmount P a b x0 x1 = .ok L) ↔ Fundable P.toNat a.toNat b.toNat x0.toNat x1.toNat := by
  unfold getLiquidityForAmount Fundable
  rw [order_of_le hab.le]
  dsimp only
  by_cases h1 : P.toNat ≤ a.toNat
  · rw [if_pos ((cmp_le0 _ _).2 h1), if_pos h1]
    exact forAmount0_returns ha hab hb
  · rw [if_neg (fun h => h1 ((cmp_le0 _ _).1 h)), if_neg h1]
    by_cases h2 : P.toNat < b.toNat
    · rw [if_pos ((cmp_lt0 _ _).2 h2), if_pos h2]
      rw [← forAmount0_returns (a := P) (b := b) (x := x0) (by omega) h2 hb, ← forAmount1_returns (a := a) (b := P) (x := x1) (by omega) (by omega)]
      constructor
      · rintro ⟨L, hx⟩
        obtain ⟨l0, k0, hx⟩ := bind_ok hx
        obtain ⟨l1, k1, hx⟩ := bind_ok hx
        exact ⟨⟨_, k0⟩, ⟨_, k1⟩⟩
      · rintro ⟨⟨l0, k0⟩, ⟨l1, k1⟩⟩
        rw [k0, Except_bind_ok, k1, Except_bind_ok]
        exact ⟨_, rfl⟩
    · rw [if_neg (fun h => h2 ((cmp_lt0 _ _).1 h)), if_neg h2]
      exact forAmount1_returns hab hb

theorem short {n d : Nat} (hd : 0 < d) (h : n < 2 ^ 320) : ¬ TooLong n d := by
  rintro ⟨k, h1, h2⟩
  have hk : 1 ≤ k := by
    by_contra hc
    rw [show k = 0 by omega] at h1
    norm_num at h1
    omega
  have : 2 ^ 320 ≤ 2 ^ (64 * (k + 4)) := Nat.pow_le_pow_right (by norm_num) (by omega)
  omega

theorem fundable_small {P A B x0 x1 : Nat} (hab : A < B) (hb : B < 2 ^ 160) (h0 : x0 < 2 ^ 96) (h1 : x1 < 2 ^ 224) :
    Fundable P A B x0 x1 := by
  have key : ∀ Q, Q < B → x0 * (Q * B / 2 ^ 96) < 2 ^ 320 := by
    intro Q hQ
    have a : Q * B / 2 ^ 96 < 2 ^ 224 := by
      rw [Nat.div_lt_iff_lt_mul (by norm_num), ← pow_add]
      have : Q * B < 2 ^ 160 * 2 ^ 160 := Nat.mul_lt_mul'' (by omega) hb
      rw [← pow_add] at this
      exact this
    have : x0 * (Q * B / 2 ^ 96) < 2 ^ 96 * 2 ^ 224 := Nat.mul_lt_mul'' h0 a
    rw [← pow_add] at this
    exact this
  have key1 : x1 * 2 ^ 96 < 2 ^ 320 := by
    have : x1 * 2 ^ 96 < 2 ^ 224 * 2 ^ 96 := Nat.mul_lt_mul_of_pos_right h1 (by norm_num)
    rw [← pow_add] at this
    exact this
  unfold Fundable
  by_cases c1 : P ≤ A
  · rw [if_pos c1]; exact short (by omega) (key A hab)
  · rw [if_neg c1]
    by_cases c2 : P < B
    · rw [if_pos c2]; exact ⟨short (by omega) (key P c2), short (by omega) key1⟩
    · rw [if_neg c2]; exact short (by omega) key1

theorem tickPrice_strict {a b : Int} (h1 : -887272 ≤ a) (h : a < b) (h2 : b ≤ 887272) : tickPrice a < tickPrice b := by
  rw [Props.tickPrice_eq h1 (by omega), Props.tickPrice_eq (by omega) h2]
  exact (ratio_lt h1 h h2).2

theorem tickPrice_bounds {t : Int} (h1 : -887272 ≤ t) (h2 : t ≤ 887272) : 2 ^ 32 ≤ tickPrice t ∧ tickPrice t < 2 ^ 160 := by
  have a := tickPrice_mono (a := -887272) (b := t) (by omega) h1 h2
  have b := tickPrice_mono (a := t) (b := 887272) h1 h2 (by omega)
  have e1 : tickPrice (-887272) = 4295128739 := by decide +kernel
  have e2 : tickPrice 887272 = 1461446703485210103287273052203988822378723970342 := by decide +kernel
  rw [e1] at a
  rw [e2] at b
  norm_num
  omega

/-- Every plan of valid ranges can be followed with balances that are not too large. -/
theorem plan_exists (P : U256) : ∀ (plan : List Purchase) (x : U256 × U256), (∀ o ∈ plan, ValidRange o.lower o.upper) →
    x.1.toNat < 2 ^ 96 → x.2.toNat < 2 ^ 224 → ∃ ps y, Buys P plan x ps y ∧ y.1.toNat ≤ x.1.toNat ∧ y.2.toNat ≤ x.2.toNat
  | [], x, _, _, _ => ⟨[], x, .done x, le_refl _, le_refl _⟩
  | o :: plan, x, hv, h0, h1 => by
    by_cases hs : o.Skipped x
    · obtain ⟨ps, y, h, hy⟩ := plan_exists P plan x (fun q hq => hv q (List.mem_cons_of_mem _ hq)) h0 h1
      exact ⟨ps, y, .skip hs h, hy⟩
    · obtain ⟨hlu, hl, hu⟩ := hv o List.mem_cons_self
      obtain ⟨a, ha, ea⟩ := getSqrtRatioAtTick_spec o.lower hl (by omega)
      obtain ⟨b, hb, eb⟩ := getSqrtRatioAtTick_spec o.upper (by omega) hu
      have pa : a.toNat = tickPrice o.lower := by rw [Props.tickPrice_eq hl (by omega)]; exact ea
      have pb : b.toNat = tickPrice o.upper := by rw [Props.tickPrice_eq (by omega) hu]; exact eb
      have hab : a.toNat < b.toNat := by rw [ea, eb]; exact (ratio_lt hl hlu hu).2
      have b1 := tickPrice_bounds hl (by omega : o.lower ≤ 887272)
      have b2 := tickPrice_bounds (by omega : -887272 ≤ o.upper) hu
      obtain ⟨A, hA⟩ := (liquidity_returns (P := P) (x0 := x.1) (x1 := x.2) (by omega) hab (by omega)).2 (fundable_small hab (by omega) h0 h1)
      obtain ⟨L, hL⟩ : ∃ L : U256, L.toNat = if o.half then A.toNat / 2 else A.toNat := by
        by_cases hh : o.half = true
        · refine ⟨ofNat (A.toNat / 2), ?_⟩
          rw [if_pos hh, toNat_ofNat]
          exact Nat.mod_eq_of_lt (by have := toNat_lt A; omega)
        · exact ⟨A, by rw [if_neg hh]⟩
      have hle : L.toNat ≤ A.toNat := by rw [hL]; split <;> omega
      obtain ⟨c0, c1⟩ := forAmount_cost ha hb hA hle hl hlu hu
      have hn := holding_nonneg (P := P.toNat) (l := o.lower) (u := o.upper)
      have n0 : 0 ≤ ⌈(L.toNat : ℚ) * holding0 P.toNat o.lower o.upper⌉ := Int.ceil_nonneg (mul_nonneg (by positivity) hn.1)
      have n1 : 0 ≤ ⌈(L.toNat : ℚ) * holding1 P.toNat o.lower o.upper⌉ := Int.ceil_nonneg (mul_nonneg (by positivity) hn.2)
      generalize e0 : ⌈(L.toNat : ℚ) * holding0 P.toNat o.lower o.upper⌉ = k0 at *
      generalize e1 : ⌈(L.toNat : ℚ) * holding1 P.toNat o.lower o.upper⌉ = k1 at *
      have z0 : (ofNat (x.1.toNat - k0.toNat)).toNat = x.1.toNat - k0.toNat := by
        rw [toNat_ofNat]; exact Nat.mod_eq_of_lt (by have := toNat_lt x.1; omega)
      have z1 : (ofNat (x.2.toNat - k1.toNat)).toNat = x.2.toNat - k1.toNat := by
        rw [toNat_ofNat]; exact Nat.mod_eq_of_lt (by have := toNat_lt x.2; omega)
      obtain ⟨ps, y, h, hy⟩ := plan_exists P plan (ofNat (x.1.toNat - k0.toNat), ofNat (x.2.toNat - k1.toNat))
        (fun q hq => hv q (List.mem_cons_of_mem _ hq)) (by dsimp only; omega) (by dsimp only; omega)
      dsimp only at hy
      refine ⟨_, y, .step hs ⟨⟨hl, by omega⟩, by omega, hu⟩ pa pb hA hL ?_ ?_ h, by omega, by omega⟩
      · rw [e0]; dsimp only; omega
      · rw [e1]; dsimp only; omega

/-! ### Closing before opening again -/

theorem burnAll_of_close {s s1 : Strat} {c : U256 × U256} (hk : s.kind ≠ .noProvision) (hx : s.closeAll = .ok (c, s1)) :
    ∃ s2, s.burnAll = .ok (c, s2) := by
  have keep : ∃ s2, s.closeAllKeep = .ok (c, s2) := by
    unfold closeAll at hx
    obtain ⟨t, h1, hx⟩ := bind_ok hx
    cases hx
    unfold closeAllKeep
    rw [h1]
    exact ⟨_, rfl⟩
  unfold burnAll
  split
  · exact keep
  · exact keep
  · exact keep
  · exact (hk (by assumption)).elim
  · exact ⟨_, hx⟩

theorem close_of_burnAll {s s1 : Strat} {c : U256 × U256} (hk : s.kind ≠ .noProvision) (hx : s.burnAll = .ok (c, s1)) :
    ∃ t, s.closeAll = .ok (c, t) ∧ s1.pool = t.pool := by
  rcases burnAll_eq hx with ⟨h, _⟩ | ⟨t, h1, rfl, h2⟩
  · exact (hk h).elim
  · refine ⟨{ t with positions := [] }, ?_, ?_⟩
    · unfold closeAll
      rw [h1]
      rfl
    · rcases h2 with rfl | rfl <;> rfl

theorem rebalance_of_close {s s1 : Strat} {c : U256 × U256} {fuel : Nat} (hk : s.kind ≠ .noProvision) (hx : s.closeAll = .ok (c, s1)) :
    s.rebalance fuel = (s1.openAgain fuel >>= fun s' => .ok (some c, s')) := by
  unfold rebalance
  split
  · exact (hk (by assumption)).elim
  · rw [hx]; rfl

theorem rebalanceBuys_back {s s1 : Strat} (hk : s1.kind = s.kind) (hh : s1.history = s.history) (hl : s1.tickLower = s.tickLower)
    (hu : s1.tickUpper = s.tickUpper) (hst : Still s.pool s1.pool) {x y : U256 × U256} {ps : List StratPos} (h : RebalanceBuys s x ps y) :
    RebalanceBuys s1 x ps y := by
  unfold RebalanceBuys InitBuys InitRanges AverageBand at h ⊢
  rw [hk, hh, hl, hu, hst.same.1, hst.tick, hst.price]
  exact h

/-! ### Records without liquidity -/

theorem recordAfter_fresh {p : Pool} (h0 : ∀ l u, (recordOf p (l, u)).liquidity = zero) (l u : Int) :
    ∀ done : List StratPos, natAt done (posKey l u) < 2 ^ 256 → (recordAfter p l u done).1.toNat = natAt done (posKey l u)
  | [], _ => by unfold recordAfter; rw [h0]; rfl
  | q :: done, h => by
    rw [natAt_cons] at h ⊢
    unfold recordAfter
    have ih := recordAfter_fresh h0 l u done (by omega)
    by_cases hk : posKey q.lower q.upper = posKey l u
    · rw [if_pos hk] at h ⊢
      rw [if_pos hk]
      dsimp only
      rw [toNat_add_of_lt (by rw [ih]; omega), ih]
      omega
    · rw [if_neg hk] at h ⊢
      rw [if_neg hk, ih]
      omega

theorem payable_large {L : U256} (g : U256) (h : L.toNat = 0 ∨ (2 ^ 64 ≤ L.toNat ∧ L.toNat < 2 ^ 128)) : Payable L g := by
  rcases h with h | ⟨a, b⟩
  · left; rw [h, Nat.zero_mul]
  · rcases Nat.eq_zero_or_pos g.toNat with h | h
    · left; rw [h, Nat.mul_zero]
    · right
      have hg := g.toNat_lt
      have h1 : 2 ^ 64 * 1 ≤ L.toNat * g.toNat := Nat.mul_le_mul a h
      have h2 : L.toNat * g.toNat < 2 ^ 128 * 2 ^ 256 := Nat.mul_lt_mul'' b hg
      rw [← pow_add] at h2
      exact ⟨by omega, lt_trans h2 (Nat.pow_lt_pow_right (by norm_num) (by norm_num))⟩

theorem natAt_none {ps : List StratPos} {k : String} (h : ∀ q ∈ ps, posKey q.lower q.upper ≠ k) : natAt ps k = 0 := by
  induction ps with
  | nil => rfl
  | cons q ps ih =>
    rw [natAt_cons, if_neg (h q List.mem_cons_self), ih fun q' hq => h q' (List.mem_cons_of_mem _ hq)]

theorem natAt_big {ps : List StratPos} {k : String} (h : ∀ q ∈ ps, 2 ^ 64 ≤ q.amount.toNat) : natAt ps k = 0 ∨ 2 ^ 64 ≤ natAt ps k := by
  induction ps with
  | nil => exact .inl rfl
  | cons q ps ih =>
    rw [natAt_cons]
    have := h q List.mem_cons_self
    have := ih fun q' hq => h q' (List.mem_cons_of_mem _ hq)
    split <;> omega

/-- Every position of `done` and `ps` is large, or those of `ps` have records of their own. -/
theorem opens_fresh_after {p : Pool} (h0 : ∀ l u, (recordOf p (l, u)).liquidity = zero) : ∀ (ps done : List StratPos),
    total (entries done) + total (entries ps) < 2 ^ 128 →
    ((ps.Pairwise (fun q q' => posKey q.lower q.upper ≠ posKey q'.lower q'.upper) ∧
        ∀ q ∈ ps, ∀ d ∈ done, posKey d.lower d.upper ≠ posKey q.lower q.upper) ∨
      ((∀ q ∈ ps, 2 ^ 64 ≤ q.amount.toNat) ∧ ∀ d ∈ done, 2 ^ 64 ≤ d.amount.toNat)) →
    (OpensAfter p done ps ↔ ∀ q ∈ ps, ValidRange q.lower q.upper ∧
      ¬ Unpriceable (clamp p.price.toNat (tickPrice q.lower) (tickPrice q.upper)) (tickPrice q.upper) q.amount.toNat)
  | [], done, _, _ => ⟨fun _ q hq => absurd hq List.not_mem_nil, fun _ => trivial⟩
  | q :: ps, done, ht, h => by
    have n1 := total_entries_nonneg ps
    have n2 := total_entries_nonneg done
    have ec : ∀ l : List StratPos, total (entries (q :: l)) = q.amount.toNat + total (entries l) := fun l => by
      rw [show entries (q :: l) = ⟨q.lower, q.upper, q.amount.toNat⟩ :: entries l from rfl, total_cons]
    have hle := natAt_le done (posKey q.lower q.upper)
    rw [ec] at ht
    have hrec := recordAfter_fresh h0 q.lower q.upper done (by omega)
    have hL : (recordAfter p q.lower q.upper done).1.toNat = 0 ∨
        (2 ^ 64 ≤ (recordAfter p q.lower q.upper done).1.toNat ∧ (recordAfter p q.lower q.upper done).1.toNat < 2 ^ 128) := by
      rw [hrec]
      rcases h with ⟨_, h⟩ | ⟨_, h⟩
      · exact .inl (natAt_none (h q List.mem_cons_self))
      · rcases natAt_big (k := posKey q.lower q.upper) h with h | h
        · exact .inl h
        · exact .inr ⟨h, by omega⟩
    have ih := opens_fresh_after h0 ps (q :: done) (by rw [ec]; omega) (by
      rcases h with ⟨h1, h2⟩ | ⟨h1, h2⟩
      · left
        obtain ⟨k1, k2⟩ := List.pairwise_cons.1 h1
        refine ⟨k2, fun q' hq d hd => ?_⟩
        rcases List.mem_cons.1 hd with rfl | hd
        · exact k1 q' hq
        · exact h2 q' (List.mem_cons_of_mem _ hq) d hd
      · right
        refine ⟨fun q' hq => h1 q' (List.mem_cons_of_mem _ hq), fun d hd => ?_⟩
        rcases List.mem_cons.1 hd with rfl | hd
        · exact h1 d List.mem_cons_self
        · exact h2 d hd)
    unfold OpensAfter OpensNext
    rw [ih]
    constructor
    · rintro ⟨⟨a, b, _⟩, k⟩ q' hq
      rcases List.mem_cons.1 hq with rfl | hq
      · exact ⟨a, b⟩
      · exact k q' hq
    · intro k
      obtain ⟨a, b⟩ := k q List.mem_cons_self
      exact ⟨⟨a, b, payable_large _ hL, payable_large _ hL⟩, fun q' hq => k q' (List.mem_cons_of_mem _ hq)⟩

theorem opens_fresh {p : Pool} {ps : List StratPos} (h0 : ∀ l u, (recordOf p (l, u)).liquidity = zero)
    (ht : total (entries ps) < 2 ^ 128)
    (h : ps.Pairwise (fun q q' => posKey q.lower q.upper ≠ posKey q'.lower q'.upper) ∨ ∀ q ∈ ps, 2 ^ 64 ≤ q.amount.toNat) :
    Openable p ps ↔ ∀ q ∈ ps, ValidRange q.lower q.upper ∧
      ¬ Unpriceable (clamp p.price.toNat (tickPrice q.lower) (tickPrice q.upper)) (tickPrice q.upper) q.amount.toNat := by
  refine opens_fresh_after h0 ps [] (by rw [show total (entries []) = 0 from rfl]; omega) ?_
  rcases h with h | h
  · exact .inl ⟨h, fun _ _ d hd => absurd hd List.not_mem_nil⟩
  · exact .inr ⟨h, fun d hd => absurd hd List.not_mem_nil⟩

end Strat
end Uni
