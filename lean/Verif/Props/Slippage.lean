import Verif.Props.Depth
import Verif.Props.Value
import Verif.Props.Mark
/-! # C118: a deeper market pays more -/
namespace Uni
namespace Props
open U256 Pool Spec TickData TickMath FullMath SwapMath

/-! ### The amounts of a path and the principal -/

theorem leg_backed {h : List Entry} (hc : Covered h) (hb : ∀ e ∈ h, -887272 ≤ e.lower ∧ e.upper ≤ 887272) {sp : Int} {z : Bool}
    {rate limit : Nat} {rem : Int} {l : Leg} (hl : l.Ok h sp z rate limit rem) (h0 : 0 ≤ rem) :
    if z then principal0 h l.stop - principal0 h l.start ≤ l.input ∧ (l.output : ℚ) ≤ principal1 h l.start - principal1 h l.stop
    else principal1 h l.stop - principal1 h l.start ≤ l.input ∧ (l.output : ℚ) ≤ principal0 h l.start - principal0 h l.stop := by
  obtain ⟨a, b, h1, h2, h3, h4, h5, h6, h7⟩ := hl.liquidity
  rw [Props.tickPrice_eq h1 (by omega)] at h4
  rw [Props.tickPrice_eq (by omega) h3] at h5
  have hlo := ratioN_ge h1 (show a ≤ 887272 by omega)
  obtain ⟨e0, e1⟩ := principal_move hc hb h1 (le_refl a) h2 h3 h7 (P := l.start) (Q := l.stop) (by omega) (by omega) (by omega) (by omega)
  have eL : ((active h a : Int) : ℚ) = (l.liquidity : ℚ) := by
    rw [h6 a (le_refl _) h2]; push_cast; rfl
  rw [eL] at e0 e1
  have hd := hl.direction
  have hin := hl.input
  have hout := hl.outputIn h0
  cases z
  · rw [if_neg (by decide)] at hd ⊢
    rw [inAmount_f] at hin
    rw [outAmount_f] at hout
    rw [e1, hin]
    refine ⟨up1_ge hd.1, ?_⟩
    have := down0_le (L := l.liquidity) (P := l.start) (Q := l.stop) (by omega) hd.1
    rw [hout]
    linarith
  · rw [if_pos rfl] at hd ⊢
    rw [inAmount_t, amount0Up_comm] at hin
    rw [outAmount_t, amount1Down_comm] at hout
    rw [e0, hin]
    refine ⟨up0_ge (by omega) hd.2, ?_⟩
    have := down1_le (L := l.liquidity) (P := l.stop) (Q := l.start) hd.2
    rw [hout]
    linarith

theorem path_backed {h : List Entry} (hc : Covered h) (hb : ∀ e ∈ h, -887272 ≤ e.lower ∧ e.upper ≤ 887272) {sp : Int} {z : Bool}
    {rate limit P P' : Nat} {rem rem' : Int} {legs : List Leg} (hp : Path h sp z rate limit P rem legs P' rem') (h0 : 0 ≤ rem) :
    if z then principal0 h P' - principal0 h P ≤ ((legs.map (·.input)).sum : Nat) ∧
        (((legs.map (·.output)).sum : Nat) : ℚ) ≤ principal1 h P - principal1 h P'
      else principal1 h P' - principal1 h P ≤ ((legs.map (·.input)).sum : Nat) ∧
        (((legs.map (·.output)).sum : Nat) : ℚ) ≤ principal0 h P - principal0 h P' := by
  induction hp with
  | stop P rem _ => cases z <;> simp
  | leg hr hl hok hp ih =>
    rename_i l rem rem' ls P'
    have hf := leg_backed hc hb hok h0
    have hrest : 0 ≤ l.rest rem := by
      have := hok.budget h0
      unfold Leg.rest
      rw [if_pos h0]
      omega
    have ih := ih hrest
    rw [List.map_cons, List.sum_cons, List.map_cons, List.sum_cons, Nat.cast_add, Nat.cast_add]
    cases z
    · rw [if_neg (by decide)] at ih hf ⊢
      exact ⟨by linarith [ih.1, hf.1], by linarith [ih.2, hf.2]⟩
    · rw [if_pos rfl] at ih hf ⊢
      exact ⟨by linarith [ih.1, hf.1], by linarith [ih.2, hf.2]⟩

theorem active_total {h : List Entry} (hc : Covered h) (t : Int) : active h t ≤ total h := by
  refine wsum_le hc.nonneg (fun e _ _ => ?_)
  split <;> omega

theorem path_none {h : List Entry} {sp : Int} {z : Bool} {rate limit P P' : Nat} {rem' : Int} {legs : List Leg}
    (hp : Path h sp z rate limit P 0 legs P' rem') : legs = [] ∧ P' = P := by
  generalize hz : (0 : Int) = rem at hp
  cases hp with
  | stop => exact ⟨rfl, rfl⟩
  | leg h _ _ _ => exact absurd hz.symm h

/-- What is left of an exact input after the fee goes into the price, up to one unit per leg and what a price one unit further on
would need. -/
theorem path_net {h : List Entry} (hc : Covered h) {sp : Int} {z : Bool} {rate limit P P' : Nat} {rem rem' : Int} {legs : List Leg}
    (hrate : rate < 1000000) (hp : Path h sp z rate limit P rem legs P' rem') (h0 : 0 ≤ rem) :
    (legs.map (fun l => l.input + l.fee)).sum * (1000000 - rate) ≤
      ((legs.map (·.input)).sum + legs.length + inAmount z P' (further z P') (total h).toNat) * 1000000 := by
  induction hp with
  | stop P rem _ => simp
  | leg hr hl hok hp ih =>
    rename_i l rem rem' ls P'
    have hb := hok.budget h0
    have hrest : l.rest rem = rem - (l.input + l.fee : Nat) := by unfold Leg.rest; rw [if_pos h0]
    rw [List.map_cons, List.sum_cons, List.map_cons, List.sum_cons, List.length_cons]
    rcases hok.feeIn h0 with hfee | ⟨hall, hfar⟩
    · have g := ih (by omega)
      have h2 : l.fee ≤ l.input * rate / (1000000 - rate) + 1 := by
        rw [hfee]; exact ceilDiv_le_div_succ _ _
      have h3 := Nat.div_mul_le_self (l.input * rate) (1000000 - rate)
      have h4 : l.fee * (1000000 - rate) ≤ l.input * rate + (1000000 - rate) := by
        have := Nat.mul_le_mul_right (1000000 - rate) h2
        rw [Nat.add_mul] at this
        omega
      have h5 : l.input * (1000000 - rate) + l.input * rate = l.input * 1000000 := by
        rw [← Nat.mul_add]; congr 1; omega
      have h6 : (l.input + l.fee) * (1000000 - rate) ≤ (l.input + 1) * 1000000 := by
        rw [Nat.add_mul, Nat.add_mul]; omega
      rw [Nat.add_mul (l.input + l.fee)]
      generalize inAmount z P' (further z P') (total h).toNat = G at *
      refine (Nat.add_le_add h6 g).trans (le_of_eq ?_)
      ring
    · have z0 : l.rest rem = 0 := by omega
      rw [z0] at hp
      have hnil := path_none hp
      obtain ⟨rfl, rfl⟩ := hnil
      obtain ⟨a, b, k1, k2, k3, k4, k5, k6, k7⟩ := hok.liquidity
      rw [Props.tickPrice_eq k1 (by omega)] at k4
      have hlo := ratioN_ge k1 (show a ≤ 887272 by omega)
      have hL : l.liquidity ≤ (total h).toNat := by
        have := active_total hc a
        rw [k6 a (le_refl _) k2] at this
        omega
      have hd := hok.direction
      have hfp : 0 < further z l.stop := by
        unfold further
        split <;> omega
      have hreach : Reach l.start l.stop (further z l.stop) := by
        unfold Reach further
        cases z
        · rw [if_neg (by decide)] at hd ⊢; omega
        · rw [if_pos rfl] at hd ⊢; omega
      have s1 := in_split z (L := l.liquidity) (show 0 < l.start by omega) (show 0 < l.stop by omega) hfp hreach
      rw [← hok.input] at s1
      have s2 := in_liquidity z (show 0 < l.stop by omega) hfp hL
      generalize inAmount z l.stop (further z l.stop) (total h).toNat = G at *
      have hfar' : (l.input + l.fee) * (1000000 - rate) / 1000000 ≤ l.input + G := by
        have e : rem * ((1000000 - rate : Nat) : Int) / 1000000 = (((l.input + l.fee) * (1000000 - rate) / 1000000 : Nat) : Int) := by
          rw [← hall]; push_cast; rfl
        rw [e] at hfar
        omega
      simp only [List.map_nil, List.sum_nil, List.length_nil, Nat.add_zero, Nat.zero_add]
      generalize (l.input + l.fee) * (1000000 - rate) = X at *
      omega

/-! ### Two ledgers -/

theorem principal_convex {h : List Entry} (hc : Covered h) (hb : ∀ e ∈ h, -887272 ≤ e.lower ∧ e.upper ≤ 887272) (P Q : Nat) :
    value Q (principal0 h Q) (principal1 h Q) ≤ value Q (principal0 h P) (principal1 h P) := by
  have : ∀ R : Nat, value Q (principal0 h R) (principal1 h R) = wsum (fun l u => value Q (holding0 R l u) (holding1 R l u)) h := by
    intro R
    unfold value principal0 principal1
    rw [wsum_add, mul_comm, ← wsum_smul]
    congr 2
    funext a b
    ring
  rw [this, this]
  exact wsum_le hc.nonneg (fun e he _ => holding_convex P (hb e he).1 (hc.range e he) (hb e he).2)

theorem wsum_minus {R : Type} [CommRing R] [LinearOrder R] [IsStrictOrderedRing R] (f : Int → Int → R) (h h' : List Entry) :
    wsum f (h' ++ h.map (fun e => ⟨e.lower, e.upper, -e.delta⟩)) = wsum f h' - wsum f h := by
  induction h' with
  | nil =>
    rw [List.nil_append, wsum_nil, zero_sub]
    induction h with
    | nil => rw [List.map_nil, wsum_nil, neg_zero]
    | cons e h ih => rw [List.map_cons, wsum_cons, wsum_cons, ih]; push_cast; ring
  | cons e h' ih => rw [List.cons_append, wsum_cons, wsum_cons, ih]; ring

theorem principal_gap {h h' : List Entry} (hc : Covered h) (hb : ∀ e ∈ h, -887272 ≤ e.lower ∧ e.upper ≤ 887272) (hc' : Covered h')
    (hb' : ∀ e ∈ h', -887272 ≤ e.lower ∧ e.upper ≤ 887272) (ho : ∀ l u, outstanding h l u ≤ outstanding h' l u) (P Q : Nat) :
    value Q (principal0 h' Q) (principal1 h' Q) - value Q (principal0 h Q) (principal1 h Q) ≤
      value Q (principal0 h' P) (principal1 h' P) - value Q (principal0 h P) (principal1 h P) := by
  have e : ∀ (R : Nat) (k : List Entry), value Q (principal0 k R) (principal1 k R) = wsum (fun l u => value Q (holding0 R l u) (holding1 R l u)) k := by
    intro R k
    unfold value principal0 principal1
    rw [wsum_add, mul_comm, ← wsum_smul]
    congr 2
    funext a b
    ring
  rw [e, e, e, e, ← wsum_minus, ← wsum_minus]
  refine wsum_le (fun l u => ?_) (fun x hx _ => ?_)
  · have := ho l u
    unfold outstanding at this ⊢
    rw [wsum_minus]
    omega
  · rcases List.mem_append.1 hx with hx | hx
    · exact holding_convex P (hb' x hx).1 (hc'.range x hx) (hb' x hx).2
    · obtain ⟨y, hy, rfl⟩ := List.mem_map.1 hx
      exact holding_convex P (hb y hy).1 (hc.range y hy) (hb y hy).2

/-- Of a price rise, the larger ledger frees at least as much token0, and of a fall at least as much token1. -/
theorem principal_apart {h h' : List Entry} (hc : Covered h) (hb : ∀ e ∈ h, -887272 ≤ e.lower ∧ e.upper ≤ 887272) (hc' : Covered h')
    (hb' : ∀ e ∈ h', -887272 ≤ e.lower ∧ e.upper ≤ 887272) (ho : ∀ l u, outstanding h l u ≤ outstanding h' l u) {P Q : Nat} (hPQ : P ≤ Q) :
    principal0 h P - principal0 h Q ≤ principal0 h' P - principal0 h' Q ∧
    principal1 h Q - principal1 h P ≤ principal1 h' Q - principal1 h' P := by
  have hn : ∀ l u, 0 ≤ outstanding (h' ++ h.map (fun e => (⟨e.lower, e.upper, -e.delta⟩ : Entry))) l u := fun l u => by
    have := ho l u
    unfold outstanding at this ⊢
    rw [wsum_minus]
    omega
  have hm : ∀ x ∈ h' ++ h.map (fun e => (⟨e.lower, e.upper, -e.delta⟩ : Entry)),
      -887272 ≤ x.lower ∧ x.lower < x.upper ∧ x.upper ≤ 887272 := fun x hx => by
    rcases List.mem_append.1 hx with hx | hx
    · exact ⟨(hb' x hx).1, hc'.range x hx, (hb' x hx).2⟩
    · obtain ⟨y, hy, rfl⟩ := List.mem_map.1 hx
      exact ⟨(hb y hy).1, hc.range y hy, (hb y hy).2⟩
  have w0 := wsum_le hn (fun x hx _ => (holding_price (P := P) (Q := Q) (hm x hx).1 (hm x hx).2.1 (hm x hx).2.2 hPQ).1)
  have w1 := wsum_le hn (fun x hx _ => (holding_price (P := P) (Q := Q) (hm x hx).1 (hm x hx).2.1 (hm x hx).2.2 hPQ).2)
  rw [wsum_minus, wsum_minus] at w0 w1
  unfold principal0 principal1
  constructor <;> linarith

theorem pays_up {c o1 o2 n i1 i2 g A0 A0' A0'' A1 A1' A1'' B0 B0'' B1 B1'' : ℚ} (hc : 0 ≤ c) (k1 : o1 ≤ A0 - A0') (k2 : A1' - A1 ≤ i1)
    (k3 : B0 - B0'' ≤ o2 + n) (k4 : i2 ≤ B1'' - B1 + n) (k5 : i1 ≤ i2 + n + g)
    (v1 : A0'' * c + A1'' ≤ A0' * c + A1') (v2 : B0'' * c + B1'' - (A0'' * c + A1'') ≤ B0 * c + B1 - (A0 * c + A1)) :
    o1 * c ≤ (o2 + n) * c + 2 * n + g := by
  have m1 := mul_le_mul_of_nonneg_right k1 hc
  have m3 := mul_le_mul_of_nonneg_right k3 hc
  linarith

theorem pays_down {c o1 o2 n i1 i2 g A0 A0' A0'' A1 A1' A1'' B0 B0'' B1 B1'' : ℚ} (hc : 0 ≤ c) (k1 : o1 ≤ A1 - A1') (k2 : A0' - A0 ≤ i1)
    (k3 : B1 - B1'' ≤ o2 + n) (k4 : i2 ≤ B0'' - B0 + n) (k5 : i1 ≤ i2 + n + g)
    (v1 : A0'' * c + A1'' ≤ A0' * c + A1') (v2 : B0'' * c + B1'' - (A0'' * c + A1'') ≤ B0 * c + B1 - (A0 * c + A1)) :
    o1 ≤ o2 + n + (2 * n + g) * c := by
  have m2 := mul_le_mul_of_nonneg_right (show A0' - A0 ≤ B0'' - B0 + n + n + g by linarith) hc
  linarith

/-- C118: two pools have the same fee rate, price and tick, and the second has at least as much liquidity in every range.  Then the
same exact-input swap pays out at least as much in the second, up to rounding: one unit of the token bought and two units of the
token sold per iteration, and what it would cost to move the final price by one more unit.  `n` is the number of iterations of the
second swap; amounts of the token sold are converted at its final price. -/
theorem C118_pays {h h' : List Entry} {p q : Pool} (hr : Reachable h p) (hr' : Reachable h' q) (hd : Deeper h h' p q)
    {fuel fuel' : Nat} {z : Bool} {amount limit : U256} {r r' : U256 × U256 × Pool} (h0 : 0 < amount.toInt)
    (ha : amount.toInt < 2 ^ 160) (hgood : z = true → ¬ SearchBroken p.spacing p.tick)
    (hsmall : z = true → amount.toInt * p.price.toNat < 2 ^ 255)
    (hskip : z = false → ∀ t, grossAt h' t ≠ 0 → ¬ Skips q.spacing t)
    (hx : p.swap fuel z amount limit = .ok r) (hy : q.swap fuel' z amount limit = .ok r') :
    ∃ n : Nat, n < fuel' ∧ q.swap (n + 1) z amount limit = .ok r' ∧
      if z then ((-bought z r : Int) : ℚ) ≤ ((-bought z r' : Int) : ℚ) + n +
          (2 * n + inAmount z r'.2.2.price.toNat (further z r'.2.2.price.toNat) (total h').toNat) * ((r'.2.2.price.toNat : ℚ) / 2 ^ 96) ^ 2
      else ((-bought z r : Int) : ℚ) * ((r'.2.2.price.toNat : ℚ) / 2 ^ 96) ^ 2 ≤
          (((-bought z r' : Int) : ℚ) + n) * ((r'.2.2.price.toNat : ℚ) / 2 ^ 96) ^ 2 +
          2 * n + inAmount z r'.2.2.price.toNat (further z r'.2.2.price.toNat) (total h').toNat := by
  obtain ⟨_, hsold⟩ := C98_depth hr hr' hd h0 ha hgood hsmall hskip hx hy
  have hsp : q.spacing = p.spacing := by rw [reachable_spacing hr, reachable_spacing hr', hd.fee]
  obtain ⟨legs, rem, h1, h2, h3, _, _⟩ := C72_path h p hr fuel z amount limit r ha hgood hx
  obtain ⟨legs', rem', g1, g2, g3, g4, g5⟩ := C72_path h' q hr' fuel' z amount limit r' ha (by rw [hsp, ← hd.tick]; exact hgood) hy
  have hi := reachable_inv hr
  have hi' := reachable_inv hr'
  have f0 := hi.fee0
  have f1 := hi.fee1
  have hrate : p.fee.toNat < 1000000 := by omega
  rw [← hd.fee, ← hd.price] at g1
  refine ⟨legs'.length, g4, g5, ?_⟩
  have b1 := path_backed hi.cov hi.bounds h1 h0.le
  have b2 := path_fair hi'.cov hi'.bounds g1
  have b3 := path_net hi'.cov hrate g1 h0.le
  have b4 := (path_price hrate h1 (A := p.price.toNat) (by cases z <;> simp)).2
  have v1 := principal_convex hi.cov hi.bounds r.2.2.price.toNat r'.2.2.price.toNat
  have v2 := principal_gap hi.cov hi.bounds hi'.cov hi'.bounds hd.ranges p.price.toNat r'.2.2.price.toNat
  have k5 : (((legs.map (·.input)).sum : Nat) : ℚ) ≤ ((legs'.map (·.input)).sum : Nat) + (legs'.length : ℚ) +
      (inAmount z r'.2.2.price.toNat (further z r'.2.2.price.toNat) (total h').toNat : Nat) := by
    rw [h2, g2] at hsold
    have hs : (legs.map (fun l => l.input + l.fee)).sum ≤ (legs'.map (fun l => l.input + l.fee)).sum := by exact_mod_cast hsold
    have := (b4.trans (Nat.mul_le_mul_right _ hs)).trans b3
    exact_mod_cast Nat.le_of_mul_le_mul_right this (by norm_num)
  have e1 : ((-bought z r : Int) : ℚ) = ((legs.map (·.output)).sum : Nat) := by rw [h3, neg_neg]; rfl
  have e2 : ((-bought z r' : Int) : ℚ) = ((legs'.map (·.output)).sum : Nat) := by rw [g3, neg_neg]; rfl
  rw [e1, e2]
  have hc : (0 : ℚ) ≤ ((r'.2.2.price.toNat : ℚ) / 2 ^ 96) ^ 2 := by positivity
  unfold value at v1 v2
  cases z
  · rw [if_neg (by decide)] at b1 b2 ⊢
    exact pays_up hc b1.2 b1.1 (b2.2 h0.le) b2.1 k5 v1 v2
  · rw [if_pos rfl] at b1 b2 ⊢
    exact pays_down hc b1.2 b1.1 (b2.2 h0.le) b2.1 k5 v1 v2

/-- C118: in particular after any deposits, in any ranges, by the market or by a strategy. -/
theorem C118_deposits {h h' : List Entry} {p q : Pool} (hr : Reachable h p) (ht : Through PoolOp.Adds h p h' q)
    {fuel fuel' : Nat} {z : Bool} {amount limit : U256} {r r' : U256 × U256 × Pool} (h0 : 0 < amount.toInt)
    (ha : amount.toInt < 2 ^ 160) (hgood : z = true → ¬ SearchBroken p.spacing p.tick)
    (hsmall : z = true → amount.toInt * p.price.toNat < 2 ^ 255)
    (hskip : z = false → ∀ t, grossAt h' t ≠ 0 → ¬ Skips q.spacing t)
    (hx : p.swap fuel z amount limit = .ok r) (hy : q.swap fuel' z amount limit = .ok r') :
    ∃ n : Nat, n < fuel' ∧ q.swap (n + 1) z amount limit = .ok r' ∧
      if z then ((-bought z r : Int) : ℚ) ≤ ((-bought z r' : Int) : ℚ) + n +
          (2 * n + inAmount z r'.2.2.price.toNat (further z r'.2.2.price.toNat) (total h').toNat) * ((r'.2.2.price.toNat : ℚ) / 2 ^ 96) ^ 2
      else ((-bought z r : Int) : ℚ) * ((r'.2.2.price.toNat : ℚ) / 2 ^ 96) ^ 2 ≤
          (((-bought z r' : Int) : ℚ) + n) * ((r'.2.2.price.toNat : ℚ) / 2 ^ 96) ^ 2 +
          2 * n + inAmount z r'.2.2.price.toNat (further z r'.2.2.price.toNat) (total h').toNat := by
  obtain ⟨hr', hd⟩ := adds_least hr ht
  exact C118_pays hr hr' hd h0 ha hgood hsmall hskip hx hy

/-- C118: two swaps, of any amounts, that end at the same price, such as a price limit: the deeper market pays at least as much, up to
one unit per iteration. -/
theorem C118_limit {h h' : List Entry} {p q : Pool} (hr : Reachable h p) (hr' : Reachable h' q) (hd : Deeper h h' p q)
    {fuel fuel' : Nat} {z : Bool} {amount amount' limit limit' : U256} {r r' : U256 × U256 × Pool} (h0 : 0 < amount.toInt)
    (ha : amount.toInt < 2 ^ 160) (h0' : 0 < amount'.toInt) (ha' : amount'.toInt < 2 ^ 160)
    (hgood : z = true → ¬ SearchBroken p.spacing p.tick)
    (hx : p.swap fuel z amount limit = .ok r) (hy : q.swap fuel' z amount' limit' = .ok r') (he : r'.2.2.price = r.2.2.price) :
    ∃ n : Nat, n < fuel' ∧ q.swap (n + 1) z amount' limit' = .ok r' ∧ -bought z r ≤ -bought z r' + n := by
  have hsp : q.spacing = p.spacing := by rw [reachable_spacing hr, reachable_spacing hr', hd.fee]
  obtain ⟨legs, rem, h1, h2, h3, _, _⟩ := C72_path h p hr fuel z amount limit r ha hgood hx
  obtain ⟨legs', rem', g1, g2, g3, g4, g5⟩ := C72_path h' q hr' fuel' z amount' limit' r' ha' (by rw [hsp, ← hd.tick]; exact hgood) hy
  have hi := reachable_inv hr
  have hi' := reachable_inv hr'
  rw [← hd.price, he] at g1
  refine ⟨legs'.length, g4, g5, ?_⟩
  have b1 := path_backed hi.cov hi.bounds h1 h0.le
  have b2 := path_fair hi'.cov hi'.bounds g1
  have hdir := path_direction h1
  rw [h3, g3, neg_neg, neg_neg]
  have gap := fun {P Q : Nat} => principal_apart (P := P) (Q := Q) hi.cov hi.bounds hi'.cov hi'.bounds hd.ranges
  cases z
  · rw [if_neg (by decide)] at b1 b2 hdir
    have := b1.2.trans ((gap hdir).1.trans (b2.2 h0'.le))
    exact_mod_cast this
  · rw [if_pos rfl] at b1 b2 hdir
    have := b1.2.trans ((gap hdir).2.trans (b2.2 h0'.le))
    exact_mod_cast this

/-! ### Instances -/

/-- A purchase for 8000 pays 7912 before the deposit and 7927 after it. -/
example : ∃ r r', Demo.p1.swap 10 false (ofNat 8000) zero = .ok r ∧ Demo.p2.swap 10 false (ofNat 8000) zero = .ok r' ∧
    Reachable Demo.h1 Demo.p1 ∧ Through PoolOp.Adds Demo.h1 Demo.p1 Demo.h3 Demo.p2 ∧
    bought false r = -7912 ∧ bought false r' = -7927 ∧
    inAmount false r'.2.2.price.toNat (further false r'.2.2.price.toNat) (total Demo.h3).toNat = 1 :=
  ⟨_, _, eq_getOk _ (by decide +kernel), eq_getOk _ (by decide +kernel), Demo.reachable Demo.r1, demo_adds,
    by decide +kernel, by decide +kernel, by decide +kernel⟩

/-- C118: the rounding is real.  A purchase for 3016 pays one unit less after the deposit, because it takes more iterations. -/
theorem C118_rounding : ∃ r r', Demo.p1.swap 10 false (ofNat 3016) zero = .ok r ∧ Demo.p2.swap 10 false (ofNat 3016) zero = .ok r' ∧
    Reachable Demo.h1 Demo.p1 ∧ Through PoolOp.Adds Demo.h1 Demo.p1 Demo.h3 Demo.p2 ∧ -bought false r = -bought false r' + 1 :=
  ⟨_, _, eq_getOk _ (by decide +kernel), eq_getOk _ (by decide +kernel), Demo.reachable Demo.r1, demo_adds, by decide +kernel⟩

/-- Both pools bought up to the same limit. -/
example : ∃ r r', Demo.p1.swap 10 false (ofNat 800000) (ofNat (2 ^ 96 + 2 ^ 89)) = .ok r ∧
    Demo.p2.swap 10 false (ofNat 900000) (ofNat (2 ^ 96 + 2 ^ 89)) = .ok r' ∧ r'.2.2.price = r.2.2.price ∧ Deeper Demo.h1 Demo.h3 Demo.p1 Demo.p2 ∧
    Reachable Demo.h3 Demo.p2 ∧ -bought false r < -bought false r' :=
  ⟨_, _, eq_getOk _ (by decide +kernel), eq_getOk _ (by decide +kernel), by decide +kernel, (adds_least (Demo.reachable Demo.r1) demo_adds).2,
    (adds_least (Demo.reachable Demo.r1) demo_adds).1, by decide +kernel⟩

end Props
end Uni
