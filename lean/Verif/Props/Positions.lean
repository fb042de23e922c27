import Verif.Proofs.PosAmounts
import Verif.Proofs.Restore
import Verif.Proofs.Credit
import Verif.Props.Pool
import Verif.Spec.Position
import Verif.Spec.Growth
/-! # C30 - C33, C35: positions, collect, flash, burns -/
namespace Uni
namespace Props
open U256 Spec TickData TickMath FullMath Pool

/-! ### C30: charges and refunds -/

/-- C30: a strategy mint charges the exact amounts of the range at the current price, rounded up. -/
theorem C30_mint (h : List Entry) (p p' : Pool) (hr : Reachable h p) (l u : Int) (L a0 a1 : U256) (hL : L.toNat < 2 ^ 128)
    (hx : p.mintStrategy l u L = .ok (a0, a1, p')) :
    (a0.toNat : Int) = ⌈exact0 (clamp p.price.toNat (tickPrice l) (tickPrice u)) (tickPrice u) L.toNat⌉ ∧
    (a1.toNat : Int) = ⌈exact1 (tickPrice l) (clamp p.price.toNat (tickPrice l) (tickPrice u)) L.toNat⌉ := by
  have hi := reachable_inv hr
  obtain ⟨h1, h2, pos, h3⟩ := mintStrategy_eq hx
  obtain ⟨hlu, hl, hu, _⟩ := modifyStrategy_eq h3
  obtain ⟨e0, e1⟩ := modifyStrategy_amounts hi (by omega) (by omega) h3
  rw [tickPrice_eq hl (by omega), tickPrice_eq (by omega) hu, h2]
  have n0 : 0 ≤ a0.toInt := by
    rw [e0]; apply Int.ceil_nonneg; unfold exact0
    have : (0 : ℚ) ≤ (L.toInt : ℚ) := by exact_mod_cast (le_of_lt h1)
    positivity
  have n1 : 0 ≤ a1.toInt := by
    rw [e1]; apply Int.ceil_nonneg; unfold exact1
    have : (0 : ℚ) ≤ (L.toInt : ℚ) := by exact_mod_cast (le_of_lt h1)
    positivity
  exact ⟨by rw [toNat_of_nonneg n0]; exact e0, by rw [toNat_of_nonneg n1]; exact e1⟩

/-- C30: a strategy burn of covered liquidity credits the exact amounts, rounded down. -/
theorem C30_burn (h : List Entry) (p p' : Pool) (hr : Reachable h p) (l u : Int) (L b0 b1 : U256) (hL : L.toNat < 2 ^ 128)
    (hx : p.burnStrategy l u L = .ok (b0, b1, p')) :
    (b0.toNat : Int) = ⌊exact0 (clamp p.price.toNat (tickPrice l) (tickPrice u)) (tickPrice u) L.toNat⌋ ∧
    (b1.toNat : Int) = ⌊exact1 (tickPrice l) (clamp p.price.toNat (tickPrice l) (tickPrice u)) L.toNat⌋ := by
  have hi := reachable_inv hr
  obtain ⟨pos, a0, a1, q, h3, rfl, rfl, _⟩ := burnStrategy_eq hx
  obtain ⟨hlu, hl, hu, _⟩ := modifyStrategy_eq h3
  have hneg : (neg L).toInt = -(L.toNat : Int) := neg_toInt (by omega)
  obtain ⟨e0, e1⟩ := modifyStrategy_amounts hi (by omega) (by omega) h3
  rw [hneg, exact0_neg, Int.ceil_neg] at e0
  rw [hneg, exact1_neg, Int.ceil_neg] at e1
  rw [tickPrice_eq hl (by omega), tickPrice_eq (by omega) hu]
  have key : ∀ (x : U256) (q : ℚ), 0 ≤ q → x.toInt = -⌊q⌋ → ((neg x).toNat : Int) = ⌊q⌋ := by
    intro x q hq hx
    have hf : 0 ≤ ⌊q⌋ := Int.floor_nonneg.2 hq
    by_cases h0 : ⌊q⌋ = 0
    · have : x.toNat = 0 := toInt_eq_zero.1 (by omega)
      have hz : x = zero := by apply ext_toNat; rw [this]; decide
      rw [hz, h0]; decide
    · rw [toNat_neg_of_neg (by omega)]; omega
  have hLq : (0 : ℚ) ≤ ((L.toNat : Int) : ℚ) := by exact_mod_cast (Nat.zero_le _)
  constructor
  · exact key _ _ (by unfold exact0; positivity) e0
  · exact key _ _ (by unfold exact1; positivity) e1

/-- C30: burning liquidity at the price at which it was minted credits at most what the mint charged, and at most one
unit per token less.  (The two pools need only have the same price.) -/
theorem C30_round_trip (h h' : List Entry) (p p' q q' : Pool) (hr : Reachable h p) (hq : Reachable h' q) (hp : q.price = p.price)
    (l u : Int) (L a0 a1 b0 b1 : U256) (hL : L.toNat < 2 ^ 128)
    (hm : p.mintStrategy l u L = .ok (a0, a1, p')) (hb : q.burnStrategy l u L = .ok (b0, b1, q')) :
    b0.toNat ≤ a0.toNat ∧ a0.toNat ≤ b0.toNat + 1 ∧ b1.toNat ≤ a1.toNat ∧ a1.toNat ≤ b1.toNat + 1 := by
  obtain ⟨e0, e1⟩ := C30_mint h p p' hr l u L a0 a1 hL hm
  obtain ⟨f0, f1⟩ := C30_burn h' q q' hq l u L b0 b1 hL hb
  rw [hp] at f0 f1
  have c := fun x : ℚ => Int.floor_le_ceil x
  have d := fun x : ℚ => Int.ceil_le_floor_add_one x
  have c0 := c (exact0 (clamp p.price.toNat (tickPrice l) (tickPrice u)) (tickPrice u) L.toNat)
  have d0 := d (exact0 (clamp p.price.toNat (tickPrice l) (tickPrice u)) (tickPrice u) L.toNat)
  have c1 := c (exact1 (tickPrice l) (clamp p.price.toNat (tickPrice l) (tickPrice u)) L.toNat)
  have d1 := d (exact1 (tickPrice l) (clamp p.price.toNat (tickPrice l) (tickPrice u)) L.toNat)
  omega

-- in the demo pool, at tick 93
example : Reachable Demo.h3 Demo.p3 ∧ ∃ r s, Demo.p3.mintStrategy (-120) 180 (ofNat 1000000) = .ok r ∧
    r.2.2.burnStrategy (-120) 180 (ofNat 1000000) = .ok s ∧ r.1 = ofNat 4320 ∧ s.1 = ofNat 4319 ∧ r.2.1 = ofNat 10643 ∧ s.2.1 = ofNat 10642 := by
  refine ⟨Demo.reachable Demo.r3, _, _, eq_getOk _ (by decide +kernel), eq_getOk _ (by decide +kernel), ?_, ?_, ?_, ?_⟩ <;> decide +kernel

/-! ### C31: position records -/

theorem charOfNat_toNat {n : Nat} (h : n.isValidChar) : (Char.ofNat n).toNat = n := by
  unfold Char.ofNat
  rw [dif_pos h]
  rfl

theorem isValidChar_iff (t : Int) : (0 ≤ t ∧ Nat.isValidChar t.toNat) ↔ IsScalar t := by
  unfold Nat.isValidChar IsScalar
  omega

theorem runeStr_eq (t : Int) : ∃ c : Char, runeStr t = String.singleton c ∧ (c.toNat : Int) = codePoint t := by
  unfold runeStr codePoint
  by_cases h : IsScalar t
  · have h' := (isValidChar_iff t).2 h
    rw [if_pos h', if_pos h]
    refine ⟨_, rfl, ?_⟩
    rw [charOfNat_toNat h'.2]
    omega
  · rw [if_neg (fun hc => h ((isValidChar_iff t).1 hc)), if_neg h]
    exact ⟨_, rfl, by decide⟩

/-- C31: two ranges share a position record exactly when their boundaries are turned into the same code points. -/
theorem C31_key (l u l' u' : Int) : posKey l u = posKey l' u' ↔ codePoint l = codePoint l' ∧ codePoint u = codePoint u' := by
  obtain ⟨a, ha, ha'⟩ := runeStr_eq l
  obtain ⟨b, hb, hb'⟩ := runeStr_eq u
  obtain ⟨c, hc, hc'⟩ := runeStr_eq l'
  obtain ⟨d, hd, hd'⟩ := runeStr_eq u'
  unfold posKey
  rw [ha, hb, hc, hd, ← ha', ← hb', ← hc', ← hd']
  constructor
  · intro h
    have h1 := congrArg String.toList h
    simp only [String.toList_append, String.toList_singleton] at h1
    have h2 : a :: '-' :: [b] = c :: '-' :: [d] := h1
    cases h2
    exact ⟨rfl, rfl⟩
  · rintro ⟨h1, h2⟩
    have e1 : a = c := Char.toNat_inj.1 (by exact_mod_cast h1)
    have e2 : b = d := Char.toNat_inj.1 (by exact_mod_cast h2)
    rw [e1, e2]

/-- C31: ranges whose boundaries are scalar values, for example all ticks from 0 to 55295, have records of their own. -/
theorem C31_injective (l u l' u' : Int) (hl : IsScalar l) (hu : IsScalar u) (hl' : IsScalar l') (hu' : IsScalar u') :
    posKey l u = posKey l' u' ↔ l = l' ∧ u = u' := by
  rw [C31_key]
  unfold codePoint
  rw [if_pos hl, if_pos hu, if_pos hl', if_pos hu']

/-- C31: an operation changes the record of `[l, u)` only if it uses the record of a range with the same code points. -/
theorem C31_frame (p p' : Pool) (fuel : Nat) (op : PoolOp) (l u : Int) (hx : op.exec fuel p = .ok p')
    (hno : ∀ a b, op.usesRecord a b → ¬ (codePoint a = codePoint l ∧ codePoint b = codePoint u)) :
    p'.positions (posKey l u) = p.positions (posKey l u) := by
  have key : ∀ a b, op.usesRecord a b → posKey a b ≠ posKey l u := fun a b h1 h2 => hno a b h1 ((C31_key _ _ _ _).1 h2)
  cases op with
  | burn a b d =>
    have h3 : p.modifyPosition a b (neg d) = .ok p' := hx
    rw [modifyPosition_pos h3]
  | mint a b d => exact exec_alone (op := .mint a b d) trivial hx
  | mintStrategy a b d => exact exec_alone (op := .mintStrategy a b d) (key a b ⟨rfl, rfl⟩) hx
  | burnStrategy a b d => exact exec_alone (op := .burnStrategy a b d) (key a b ⟨rfl, rfl⟩) hx
  | collectStrategy a b => exact exec_alone (op := .collectStrategy a b) (key a b ⟨rfl, rfl⟩) hx
  | flash a b => exact exec_alone (op := .flash a b) trivial hx
  | exactInput a t lim => exact exec_alone (op := .exactInput a t lim) trivial hx
  | exactOutput a t lim => exact exec_alone (op := .exactOutput a t lim) trivial hx

/-- C31 is false for negative ticks: all ranges with negative lower boundaries and the same upper boundary share one
record, and a mint on one of them adds its liquidity to the record of the others. -/
theorem C31_shared (h : List Entry) (p p' : Pool) (hr : Reachable h p) (l l' u : Int) (hl : l < 0) (hl' : l' < 0) (i : Info)
    (hi : p.positions (posKey l u) = some i) (L a0 a1 : U256) (hx : p.mintStrategy l' u L = .ok (a0, a1, p')) :
    posKey l' u = posKey l u ∧ ∃ i', p'.positions (posKey l u) = some i' ∧ i'.liquidity = add i.liquidity L := by
  have hk : posKey l' u = posKey l u := by
    rw [C31_key]
    unfold codePoint
    rw [if_neg (show ¬ IsScalar l by unfold IsScalar; omega), if_neg (show ¬ IsScalar l' by unfold IsScalar; omega)]
    exact ⟨rfl, rfl⟩
  obtain ⟨_, _, pos, h3⟩ := mintStrategy_eq hx
  obtain ⟨ins, k1, _⟩ := touch_inside (reachable_inv hr) h3
  rw [hk, hi] at k1
  refine ⟨hk, pos, ?_, (update_ok k1).2.2.1⟩
  rw [modifyStrategy_pos h3, hk]
  exact setPos_same

-- two different ranges of the demo pool, [-120, 180) and [-60, 180): the second mint ends up in the record of the first
example : Demo.p3.positions (posKey (-120) 180) = some ⟨ofNat 1000000, zero, zero, zero, zero⟩ ∧
    isOk (Demo.p3.mintStrategy (-60) 180 (ofNat 5)) = true ∧ posKey (-60) 180 = posKey (-120) 180 :=
  ⟨by rw [show Demo.p3.positions = setPos (fun _ => none) (posKey (-120) 180) ⟨ofNat 1000000, zero, zero, zero, zero⟩ from rfl]; exact setPos_same,
    by decide +kernel, by decide +kernel⟩

/-! ### C32: collect -/

/-- C32: collecting from a range with a record returns what is owed and changes nothing but setting it to zero. -/
theorem C32_collect (p : Pool) (l u : Int) (i : Info) (hi : p.positions (posKey l u) = some i) :
    ∃ p', p.collectStrategy l u = .ok (i.owed0, i.owed1, p') ∧
      p'.positions (posKey l u) = some { i with owed0 := zero, owed1 := zero } ∧
      (∀ k, k ≠ posKey l u → p'.positions k = p.positions k) ∧
      p'.token0 = p.token0 ∧ p'.token1 = p.token1 ∧ p'.fee = p.fee ∧ p'.price = p.price ∧ p'.liquidity = p.liquidity ∧
      p'.growth0 = p.growth0 ∧ p'.growth1 = p.growth1 ∧ p'.spacing = p.spacing ∧ p'.tick = p.tick ∧ p'.ticks = p.ticks := by
  unfold collectStrategy
  rw [hi]
  exact ⟨_, rfl, setPos_same, fun k hk => setPos_ne hk, rfl, rfl, rfl, rfl, rfl, rfl, rfl, rfl, rfl, rfl⟩

/-- C32: a second collect returns zero. -/
theorem C32_twice (p p' : Pool) (l u : Int) (c0 c1 : U256) (hc : p.collectStrategy l u = .ok (c0, c1, p')) :
    p'.collectStrategy l u = .ok (zero, zero, p') := by
  unfold collectStrategy at hc
  split at hc
  · cases hc
  · cases hc
    unfold collectStrategy
    dsimp only
    rw [setPos_same]
    dsimp only
    rw [setPos_setPos]

/-- C32: collect panics exactly when there is no record. -/
theorem C32_panic (p : Pool) (l u : Int) : p.collectStrategy l u = .error .panic ↔ p.positions (posKey l u) = none := by
  unfold collectStrategy
  cases hi : p.positions (posKey l u) with
  | none => exact ⟨fun _ => rfl, fun _ => rfl⟩
  | some i => exact ⟨fun h => (by cases h), fun h => (by cases h)⟩

-- a burn of 1000 in the demo pool, then two collects
example : ∃ r c, Demo.p3.burnStrategy (-120) 180 (ofNat 1000) = .ok r ∧ r.2.2.collectStrategy (-120) 180 = .ok c ∧
    c.1 = ofNat 4 ∧ c.2.1 = ofNat 24 := by
  refine ⟨_, _, eq_getOk _ (by decide +kernel), eq_getOk _ (by decide +kernel), ?_, ?_⟩ <;> decide +kernel

/-! ### C33: flash -/

theorem flash_fee {p : Pool} (h0 : 0 ≤ p.fee) (h1 : p.fee < 1000000) (a : U256) :
    mulDivRoundingUp a (SwapMath.ofGoInt p.fee) (ofWord 1000000) = .ok (ofNat (ceilDiv (a.toNat * p.fee.toNat) 1000000)) ∧
    ceilDiv (a.toNat * p.fee.toNat) 1000000 ≤ a.toNat := by
  have e1 : (SwapMath.ofGoInt p.fee).toNat = p.fee.toNat := SwapMath.toNat_ofGoInt h0 (by omega)
  have e2 : (ofWord 1000000).toNat = 1000000 := by decide
  have hlt := toNat_lt a
  constructor
  · rw [mulDivRoundingUp_ok_iff, e1, e2]
    refine ⟨?_, rfl⟩
    by_cases hz : a.toNat * p.fee.toNat = 0
    · exact Or.inl hz
    · right
      refine not_panics hz (by norm_num) ?_ ?_
      · have : 1 ≤ a.toNat * p.fee.toNat := Nat.pos_of_ne_zero hz
        calc 1000000 ≤ 1 * 2 ^ 64 := by norm_num
          _ ≤ _ := Nat.mul_le_mul_right _ this
      · rw [Nat.div_lt_iff_lt_mul (by norm_num)]
        calc a.toNat * p.fee.toNat ≤ a.toNat * 1000000 := Nat.mul_le_mul_left _ (by omega)
          _ < 2 ^ 256 * 1000000 := by omega
  · rw [ceilDiv_le_iff (by norm_num)]
    exact Nat.mul_le_mul_left _ (by omega)

/-- A flash on a pool in order. -/
theorem flash_exact {h : List Entry} {p p' : Pool} (hi : Inv h p) {a b : U256} (hx : p.flash a b = .ok p') :
    p' = { p with
      growth0 := add p.growth0 (feePerUnit (ceilDiv (a.toNat * p.fee.toNat) 1000000) (active h p.tick))
      growth1 := add p.growth1 (feePerUnit (ceilDiv (b.toNat * p.fee.toNat) 1000000) (active h p.tick)) } ∧
    0 < active h p.tick := by
  have hL := hi.liq_lt
  rw [← hi.liq]
  unfold flash at hx
  obtain ⟨_, h1, hx⟩ := bind_ok hx
  have h2 := of_decide_eq_true (invariant_ok h1)
  rw [sign_eq_toInt, toInt_of_lt (by omega)] at h2
  have h3 : 0 < p.liquidity.toNat := by
    have := Int.sign_eq_one_iff_pos.1 h2
    omega
  obtain ⟨e1, e2⟩ := flash_fee hi.fee0 hi.fee1 a
  obtain ⟨e3, e4⟩ := flash_fee hi.fee0 hi.fee1 b
  have la := toNat_lt a
  have lb := toNat_lt b
  rw [e1, Except_bind_ok, e3, Except_bind_ok] at hx
  obtain ⟨f0, k0, hx⟩ := bind_ok hx
  obtain ⟨f1, k1, hx⟩ := bind_ok hx
  cases hx
  have g0 := ((mulDiv_ok_iff _ _ _ _).1 k0).2
  have g1 := ((mulDiv_ok_iff _ _ _ _).1 k1).2
  rw [SqrtPriceMath.toNat_q128, toNat_ofNat_of_lt (by omega)] at g0 g1
  unfold feePerUnit
  rw [if_neg (by omega), if_neg (by omega), Int.toNat_natCast, g0, g1]
  exact ⟨rfl, by omega⟩

/-- C33: a flash adds to each global growth exactly the fee `⌈amount * fee / 10^6⌉` per unit of active liquidity, and
changes nothing else. -/
theorem C33_flash (h : List Entry) (p p' : Pool) (hr : Reachable h p) (a b : U256) (hx : p.flash a b = .ok p') :
    p' = { p with
      growth0 := add p.growth0 (feePerUnit (ceilDiv (a.toNat * p.fee.toNat) 1000000) (active h p.tick))
      growth1 := add p.growth1 (feePerUnit (ceilDiv (b.toNat * p.fee.toNat) 1000000) (active h p.tick)) } ∧
    0 < active h p.tick :=
  flash_exact (reachable_inv hr) hx

/-- C33: with active liquidity and amounts below `2^192` a flash returns. -/
theorem C33_returns (h : List Entry) (p : Pool) (hr : Reachable h p) (a b : U256) (hL : 0 < active h p.tick)
    (ha : a.toNat < 2 ^ 192) (hb : b.toNat < 2 ^ 192) : ∃ p', p.flash a b = .ok p' := by
  have hi := reachable_inv hr
  have hl := hi.liq_lt
  rw [← hi.liq] at hL
  obtain ⟨e1, e2⟩ := flash_fee hi.fee0 hi.fee1 a
  obtain ⟨e3, e4⟩ := flash_fee hi.fee0 hi.fee1 b
  have key : ∀ n : Nat, n < 2 ^ 192 → ∃ r, mulDiv (ofNat n) Cons.q128 p.liquidity = .ok r := by
    intro n hn
    refine ⟨_, (mulDiv_ok_iff _ _ _ _).2 ⟨?_, rfl⟩⟩
    rw [SqrtPriceMath.toNat_q128, toNat_ofNat_of_lt (by omega)]
    by_cases hz : n = 0
    · left; rw [hz, Nat.zero_mul]
    · right
      refine fun hc => ?_
      unfold Panics at hc
      have w1 : words (n * 2 ^ 128) ≤ 5 := words_le (by
        calc n * 2 ^ 128 < 2 ^ 192 * 2 ^ 128 := by omega
          _ = 2 ^ (64 * 5) := by rw [← pow_add])
      have w2 : words p.liquidity.toNat ≤ 2 := words_le (by norm_num; omega)
      have w3 : words p.liquidity.toNat ≠ 0 := by
        intro h0
        have := lt_words p.liquidity.toNat
        rw [h0] at this
        omega
      have w4 : 2 < words (n * 2 ^ 128) := by
        by_contra h0
        have h1 := lt_words (n * 2 ^ 128)
        have h2 : 2 ^ (64 * words (n * 2 ^ 128)) ≤ 2 ^ (64 * 2) := Nat.pow_le_pow_right (by norm_num) (by omega)
        have h3 : 1 * 2 ^ 128 ≤ n * 2 ^ 128 := Nat.mul_le_mul_right _ (by omega)
        have h4 : (2 : Nat) ^ (64 * 2) = 1 * 2 ^ 128 := by norm_num
        omega
      omega
  obtain ⟨r0, k0⟩ := key _ (lt_of_le_of_lt e2 ha)
  obtain ⟨r1, k1⟩ := key _ (lt_of_le_of_lt e4 hb)
  unfold flash
  have hs : decide (p.liquidity.sign = 1) = true := by
    apply decide_eq_true
    rw [sign_eq_toInt, toInt_of_lt (by omega), Int.sign_eq_one_of_pos (by omega)]
  have hinv : invariant true = .ok () := rfl
  rw [hs, hinv, Except_bind_ok, e1, Except_bind_ok, e3, Except_bind_ok, k0, Except_bind_ok, k1, Except_bind_ok]
  exact ⟨_, rfl⟩

/-- C33: without active liquidity a flash panics. -/
theorem C33_panic (h : List Entry) (p : Pool) (hr : Reachable h p) (a b : U256) (hL : active h p.tick = 0) :
    p.flash a b = .error .panic := by
  have hi := reachable_inv hr
  rw [← hi.liq] at hL
  unfold flash
  have hs : decide (p.liquidity.sign = 1) = false := by
    apply decide_eq_false
    rw [sign_eq_toInt, toInt_of_lt (by omega), hL]
    decide
  rw [hs]
  rfl

example : ∃ p', Demo.p3.flash (ofNat 5000) (ofNat 7) = .ok p' ∧ p'.growth0 = ofNat (15 * 2 ^ 128 / 3000000) ∧
    p'.growth1 = add Demo.p3.growth1 (ofNat (1 * 2 ^ 128 / 3000000)) := by
  refine ⟨_, eq_getOk _ (by decide +kernel), ?_, ?_⟩ <;> decide +kernel
example : Reachable [] Demo.p0 ∧ active [] Demo.p0.tick = 0 := ⟨Demo.reachable Demo.r0, by decide⟩

/-! ### C35: burns -/

/-- C35: minting and burning the same liquidity restores the pool exactly: boundaries that were not stored before are
removed, the others get their old entries back. -/
theorem C35_restore (h : List Entry) (p p1 p2 : Pool) (hr : Reachable h p) (l u : Int) (L : U256) (hL : L.toNat < 2 ^ 128)
    (h1 : p.mint l u L = .ok p1) (h2 : p1.burn l u L = .ok p2) : p2 = p := by
  obtain ⟨_, h3, h4⟩ := bind_ok h1
  obtain ⟨h5, h6⟩ := sgt_zero_pos h3
  exact mint_burn_restore (reachable_inv hr) (by omega) hL h4 h2

/-- C35: a tick is stored exactly while some liquidity that was minted and not burned ends there. -/
theorem C35_removed (h : List Entry) (p : Pool) (hr : Reachable h p) (i : Int) :
    lookup p.ticks.ticks i = none ↔ grossAt h i = 0 := by
  have h1 := C23_ticks h p hr i
  constructor
  · intro h2; rw [h2] at h1; exact h1
  · intro h2
    cases hx : lookup p.ticks.ticks i with
    | none => rfl
    | some x => rw [hx] at h1; dsimp only at h1; omega

/-- C35: no burn on a valid range is rejected, whatever the amount; the active liquidity is just reduced modulo `2^256`. -/
theorem C35_unchecked (h : List Entry) (p : Pool) (hr : Reachable h p) (l u : Int) (hlu : l < u) (hl : -887272 ≤ l) (hu : u ≤ 887272)
    (a : U256) : ∃ p', p.burn l u a = .ok p' ∧ (l ≤ p.tick → p.tick < u → p'.liquidity = sub p.liquidity a) := by
  have hi := reachable_inv hr
  obtain ⟨p', hp⟩ := modifyPosition_total (neg a) hi.ticks.inc hlu hl hu
  obtain ⟨_, _, _, t', _, _, _, rfl⟩ := modifyPosition_eq hi.ticks.inc hp
  refine ⟨_, hp, ?_⟩
  intro h1 h2
  dsimp only
  rw [if_pos ⟨h1, h2⟩, add_def, neg_def, sub_def, sub_eq_add_neg]

/-- C35: a burn of zero on a range whose lower boundary is not stored leaves a stray tick with no liquidity behind. -/
theorem C35_ghost (h : List Entry) (p p' : Pool) (hr : Reachable h p) (l u : Int) (hg : grossAt h l = 0)
    (hx : p.burn l u zero = .ok p') : ∃ x, lookup p'.ticks.ticks l = some x ∧ x.gross = zero ∧ x.net = zero := by
  have hi := reachable_inv hr
  obtain ⟨hlu, _, _, t', _, _, h3, rfl⟩ := modifyPosition_eq hi.ticks.inc hx
  have hn := (C35_removed h p hr l).2 hg
  have h4 := h3 l
  rw [if_neg (show ¬ l = u by omega), if_pos rfl, hn] at h4
  refine ⟨_, h4, ?_, ?_⟩
  · show (makeTick l p.tick (neg zero) (neg zero) p.growth0 p.growth1).gross = zero
    unfold makeTick; split <;> exact (by decide : neg zero = zero)
  · show (makeTick l p.tick (neg zero) (neg zero) p.growth0 p.growth1).net = zero
    unfold makeTick; split <;> exact (by decide : neg zero = zero)

example : Reachable Demo.h3 Demo.p3 ∧ isOk (Demo.p3.mint (-60) 180 (ofNat 5)) = true ∧ grossAt Demo.h3 (-60) = 0 ∧ grossAt Demo.h3 180 ≠ 0 ∧
    isOk (Demo.p3.burn (-60) 180 zero) = true ∧ isOk (Demo.p3.burn (-60) 180 (ofNat 77)) = true :=
  ⟨Demo.reachable Demo.r3, by decide +kernel, by decide +kernel, by decide +kernel, by decide +kernel, by decide +kernel⟩

end Props
end Uni
