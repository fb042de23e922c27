import Verif.Proofs.Narrow
import Verif.Proofs.Demo
/-! # C94: a narrower range buys more liquidity and earns more fees -/
namespace Uni
namespace Props
open U256 Spec Pool TickMath LiquidityAmounts

/-- C94: who has more of both tokens gets at least as much liquidity on the same range.  (The last two hypotheses say that the
larger liquidity fits 256 bits.) -/
theorem C94_capital (p a b x0 x1 y0 y1 L M : U256) (P : Nat) (hP : P = clamp p.toNat a.toNat b.toNat) (hab : a.toNat < b.toNat)
    (hb : b.toNat < 2 ^ 160) (h0 : x0.toNat ≤ y0.toNat) (h1 : x1.toNat ≤ y1.toNat)
    (hL : getLiquidityForAmount p a b x0 x1 = .ok L) (hM : getLiquidityForAmount p a b y0 y1 = .ok M)
    (hfit0 : y0.toNat * (P * b.toNat / 2 ^ 96) / (b.toNat - P) < 2 ^ 256) (hfit1 : y1.toNat * 2 ^ 96 / (P - a.toNat) < 2 ^ 256) :
    L.toNat ≤ M.toNat := by
  subst hP
  obtain ⟨k1, k2⟩ := forAmount_le hab hb hL
  rcases forAmount_ge hab hb hM hfit0 hfit1 with ⟨m1, m2⟩ | ⟨m1, m2⟩
  · rw [m2]; exact le_trans (k1 m1) (liq0_mono h0)
  · rw [m2]; exact le_trans (k2 m1) (liq1_mono h1)

theorem tick_ratio {t : Int} {a : U256} (h : getSqrtRatioAtTick t = .ok a) : -887272 ≤ t ∧ t ≤ 887272 ∧ a.toNat = ratioN t :=
  getSqrtRatioAtTick_ok h

/-- C94: on a range inside a range the same balances buy at least as much liquidity, wherever the price is, except at prices
below `2^56` (that is `2^-40`).  (The last two hypotheses say that the larger liquidity fits 256 bits.) -/
theorem C94_narrow (p : U256) (l m v u : Int) (hlm : l ≤ m) (hmv : m < v) (hvu : v ≤ u) (a c d b : U256)
    (ha : getSqrtRatioAtTick l = .ok a) (hc : getSqrtRatioAtTick m = .ok c) (hd : getSqrtRatioAtTick v = .ok d)
    (hb : getSqrtRatioAtTick u = .ok b) (hp : 2 ^ 56 ≤ max p.toNat c.toNat) (x0 x1 L M : U256)
    (hL : getLiquidityForAmount p a b x0 x1 = .ok L) (hM : getLiquidityForAmount p c d x0 x1 = .ok M) (P : Nat)
    (hP : P = clamp p.toNat c.toNat d.toNat) (hfit0 : x0.toNat * (P * d.toNat / 2 ^ 96) / (d.toNat - P) < 2 ^ 256)
    (hfit1 : x1.toNat * 2 ^ 96 / (P - c.toNat) < 2 ^ 256) :
    L.toNat ≤ M.toNat := by
  subst hP
  obtain ⟨a1, a2, ea⟩ := tick_ratio ha
  obtain ⟨c1, c2, ec⟩ := tick_ratio hc
  obtain ⟨d1, d2, ed⟩ := tick_ratio hd
  obtain ⟨b1, b2, eb⟩ := tick_ratio hb
  have k1 := ratioN_le a1 hlm c2
  have k2 := ratioN_lt c1 hmv d2
  have k3 := ratioN_le d1 hvu b2
  have k4 := ratioN_lt160 b1 b2
  by_cases hpd : p.toNat < d.toNat
  · refine narrow_ge (by omega) (by omega) (by omega) (by omega) ?_ hp hL hM hfit0 hfit1
    rcases Int.lt_or_eq_of_le hvu with h | h
    · right
      rw [ed, eb]
      exact ratio_gap_lt d1 h b2 (by omega)
    · left
      rw [ed, eb, h]
  · -- above the range only token1 counts
    obtain ⟨_, j2⟩ := forAmount_le (show a.toNat < b.toNat by omega) (by omega) hL
    rcases forAmount_ge (by omega) (by omega) hM hfit0 hfit1 with ⟨m1, m2⟩ | ⟨m1, m2⟩
    · omega
    · rw [m2]
      refine le_trans (j2 (by omega)) (liq1_le ?_ ?_)
      · unfold clamp; omega
      · unfold clamp; omega

/-- C94: at very low prices it can be the other way round: at tick -720000 ten to the twenty of each token buy 13501 units of
liquidity from -730000 to -600000, and none from -730000 to -620000. -/
theorem C94_low_price : ∃ p a c b L : U256, getSqrtRatioAtTick (-720000) = .ok p ∧ getSqrtRatioAtTick (-730000) = .ok a ∧
    getSqrtRatioAtTick (-620000) = .ok c ∧ getSqrtRatioAtTick (-600000) = .ok b ∧
    getLiquidityForAmount p a c (ofNat (10 ^ 20)) (ofNat (10 ^ 20)) = .ok zero ∧
    getLiquidityForAmount p a b (ofNat (10 ^ 20)) (ofNat (10 ^ 20)) = .ok L ∧ L.toNat = 13501 :=
  ⟨_, _, _, _, _, eq_getOk _ (by decide +kernel), eq_getOk _ (by decide +kernel), eq_getOk _ (by decide +kernel),
    eq_getOk _ (by decide +kernel), by decide +kernel, eq_getOk _ (by decide +kernel), by decide +kernel⟩

/-- C94: two positions side by side, the price in both ranges all the time: each earns its liquidity times the growth of the fees of
the pool, rounded down. -/
theorem C94_growth (h : List Entry) (p p' : Pool) (hr : Reachable h p) (l u m v : Int) (L M g0 g1 f0 f1 e0 e1 : U256)
    (hs : SideBySide h p l u L m v M p' g0 g1) (hf : Earns p' l u L f0 f1) (he : Earns p' m v M e0 e1) :
    (f0 = share L g0 ∧ f1 = share L g1) ∧ e0 = share M g0 ∧ e1 = share M g1 := beside hr hs hf he

theorem side_lt {h : List Entry} {p p' : Pool} (hr : Reachable h p) {l u m v : Int} {L M g0 g1 : U256}
    (hs : SideBySide h p l u L m v M p' g0 g1) : L.toNat < 2 ^ 128 ∧ M.toNat < 2 ^ 128 := by
  have : 0 ≤ total h := wsum_nonneg (reachable_inv hr).cov.nonneg (fun _ _ _ => by norm_num)
  have := hs.2.2.2.1
  omega

theorem share_prop {L M g : U256} (hL : L.toNat < 2 ^ 128) (hM : M.toNat < 2 ^ 128) :
    (share L g).toNat * M.toNat ≤ ((share M g).toNat + 1) * L.toNat := by
  rw [share_nat hL, share_nat hM]
  have k1 : L.toNat * g.toNat / 2 ^ 128 * 2 ^ 128 ≤ L.toNat * g.toNat := Nat.div_mul_le_self _ _
  have k2 : M.toNat * g.toNat < (M.toNat * g.toNat / 2 ^ 128 + 1) * 2 ^ 128 := Nat.lt_mul_of_div_lt (Nat.lt_succ_self _) (by norm_num)
  generalize L.toNat * g.toNat / 2 ^ 128 = f at *
  generalize M.toNat * g.toNat / 2 ^ 128 = e at *
  apply Nat.le_of_mul_le_mul_right (c := 2 ^ 128) _ (by norm_num)
  calc f * M.toNat * 2 ^ 128 = f * 2 ^ 128 * M.toNat := by ring
    _ ≤ L.toNat * g.toNat * M.toNat := Nat.mul_le_mul_right _ k1
    _ = M.toNat * g.toNat * L.toNat := by ring
    _ ≤ (e + 1) * 2 ^ 128 * L.toNat := Nat.mul_le_mul_right _ (le_of_lt k2)
    _ = (e + 1) * L.toNat * 2 ^ 128 := by ring

/-- C94: the fees of two positions side by side are in proportion to their liquidity, up to one unit. -/
theorem C94_proportion (h : List Entry) (p p' : Pool) (hr : Reachable h p) (l u m v : Int) (L M g0 g1 f0 f1 e0 e1 : U256)
    (hs : SideBySide h p l u L m v M p' g0 g1) (hf : Earns p' l u L f0 f1) (he : Earns p' m v M e0 e1) :
    f0.toNat * M.toNat ≤ (e0.toNat + 1) * L.toNat ∧ e0.toNat * L.toNat ≤ (f0.toNat + 1) * M.toNat ∧
    f1.toNat * M.toNat ≤ (e1.toNat + 1) * L.toNat ∧ e1.toNat * L.toNat ≤ (f1.toNat + 1) * M.toNat := by
  obtain ⟨⟨k1, k2⟩, k3, k4⟩ := beside hr hs hf he
  obtain ⟨hL, hM⟩ := side_lt hr hs
  rw [k1, k2, k3, k4]
  exact ⟨share_prop hL hM, share_prop hM hL, share_prop hL hM, share_prop hM hL⟩

/-- C94: two positions bought with the same balances at the same price, one on a range inside the range of the other.  Whichever is
opened first: as long as the tick stays in the narrower range, it earns at least as much of each token as the wider one. -/
theorem C94_concentrated (h : List Entry) (p p' : Pool) (hr : Reachable h p) (l m v u : Int) (hlm : l ≤ m) (hmv : m < v) (hvu : v ≤ u)
    (a c d b : U256) (ha : getSqrtRatioAtTick l = .ok a) (hc : getSqrtRatioAtTick m = .ok c) (hd : getSqrtRatioAtTick v = .ok d)
    (hb : getSqrtRatioAtTick u = .ok b) (hp : 2 ^ 56 ≤ max p.price.toNat c.toNat) (x0 x1 L M : U256)
    (hL : getLiquidityForAmount p.price a b x0 x1 = .ok L) (hM : getLiquidityForAmount p.price c d x0 x1 = .ok M) (P : Nat)
    (hP : P = clamp p.price.toNat c.toNat d.toNat) (hfit0 : x0.toNat * (P * d.toNat / 2 ^ 96) / (d.toNat - P) < 2 ^ 256)
    (hfit1 : x1.toNat * 2 ^ 96 / (P - c.toNat) < 2 ^ 256) (g0 g1 f0 f1 e0 e1 : U256)
    (hs : SideBySide h p l u L m v M p' g0 g1 ∨ SideBySide h p m v M l u L p' g0 g1)
    (hf : Earns p' l u L f0 f1) (he : Earns p' m v M e0 e1) :
    f0.toNat ≤ e0.toNat ∧ f1.toNat ≤ e1.toNat := by
  have hLM := C94_narrow p.price l m v u hlm hmv hvu a c d b ha hc hd hb hp x0 x1 L M hL hM P hP hfit0 hfit1
  rcases hs with hs | hs
  · obtain ⟨⟨k1, k2⟩, k3, k4⟩ := beside hr hs hf he
    have hM := (side_lt hr hs).2
    rw [k1, k2, k3, k4]
    exact ⟨share_more hLM hM, share_more hLM hM⟩
  · obtain ⟨⟨k1, k2⟩, k3, k4⟩ := beside hr hs he hf
    have hM := (side_lt hr hs).1
    rw [k1, k2, k3, k4]
    exact ⟨share_more hLM hM, share_more hLM hM⟩

/-! ### An example: a million of each token, on the ranges from -180 to 180 and from -120 to 60 -/
namespace NarrowDemo

def r1 : U256 × U256 × Pool := getOk (Demo.p0.mintStrategy (-180) 180 (ofNat 111617416)) (by decide +kernel)
def r2 : U256 × U256 × Pool := getOk (r1.2.2.mintStrategy (-120) 60 (ofNat 167175499)) (by decide +kernel)
def r3 : U256 × U256 × Pool := getOk (r2.2.2.exactInputSwap 10 (ofNat 500000) "USDC" zero) (by decide +kernel)
def op : PoolOp := .exactInput (ofNat 500000) "USDC" zero

theorem e1 : Demo.p0.mintStrategy (-180) 180 (ofNat 111617416) = .ok r1 := eq_getOk _ (by decide +kernel)
theorem e2 : r1.2.2.mintStrategy (-120) 60 (ofNat 167175499) = .ok r2 := eq_getOk _ (by decide +kernel)
theorem e3 : r2.2.2.exactInputSwap 10 (ofNat 500000) "USDC" zero = .ok r3 := eq_getOk _ (by decide +kernel)
theorem exec_input {fuel : Nat} {p : Pool} {a l : U256} {t : String} {r : U256 × U256 × Pool} (h : p.exactInputSwap fuel a t l = .ok r) :
    PoolOp.exec fuel p (.exactInput a t l) = .ok r.2.2 := by
  show (p.exactInputSwap fuel a t l >>= _) = _
  rw [h]; rfl

def g0 : U256 := sub r3.2.2.growth0 Demo.p0.growth0
def g1 : U256 := sub r3.2.2.growth1 Demo.p0.growth1

/-- The wide position is opened first, then the narrow one, then somebody buys token0 for 500000. -/
theorem side : SideBySide [] Demo.p0 (-180) 180 (ofNat 111617416) (-120) 60 (ofNat 167175499) r3.2.2 g0 g1 :=
  ⟨rfl, rfl, by decide +kernel, by decide +kernel, _, _, _, _, _, _, _, _, e1, e2,
    .step 10 op (.refl ⟨by unfold TickIn; decide +kernel, by unfold TickIn; decide +kernel⟩) ⟨trivial, trivial⟩
      ⟨by decide +kernel, fun h => absurd h (by decide +kernel)⟩ (exec_input e3)
      ⟨by unfold TickIn; decide +kernel, by unfold TickIn; decide +kernel⟩, rfl, rfl⟩

def closeWide : U256 × U256 × Pool := getOk (r3.2.2.burnStrategy (-180) 180 (ofNat 111617416)) (by decide +kernel)
def paidWide : U256 × U256 × Pool := getOk (closeWide.2.2.collectStrategy (-180) 180) (by decide +kernel)
def closeNarrow : U256 × U256 × Pool := getOk (r3.2.2.burnStrategy (-120) 60 (ofNat 167175499)) (by decide +kernel)
def paidNarrow : U256 × U256 × Pool := getOk (closeNarrow.2.2.collectStrategy (-120) 60) (by decide +kernel)

theorem e4 : r3.2.2.burnStrategy (-180) 180 (ofNat 111617416) = .ok closeWide := eq_getOk _ (by decide +kernel)
theorem e5 : closeWide.2.2.collectStrategy (-180) 180 = .ok paidWide := eq_getOk _ (by decide +kernel)
theorem e6 : r3.2.2.burnStrategy (-120) 60 (ofNat 167175499) = .ok closeNarrow := eq_getOk _ (by decide +kernel)
theorem e7 : closeNarrow.2.2.collectStrategy (-120) 60 = .ok paidNarrow := eq_getOk _ (by decide +kernel)

theorem earns_of {p : Pool} {l u : Int} {L f0 f1 : U256} {r c : U256 × U256 × Pool} (h1 : p.burnStrategy l u L = .ok r)
    (h2 : r.2.2.collectStrategy l u = .ok c) (h3 : c.1 = add r.1 f0) (h4 : c.2.1 = add r.2.1 f1) : Earns p l u L f0 f1 :=
  ⟨r.1, r.2.1, r.2.2, c.1, c.2.1, c.2.2, h1, h2, h3, h4⟩

/-- The fees of the wide position. -/
theorem wide : Earns r3.2.2 (-180) 180 (ofNat 111617416) (ofNat 0) (ofNat 600) :=
  earns_of e4 e5 (by decide +kernel) (by decide +kernel)
/-- The fees of the narrow position. -/
theorem narrow : Earns r3.2.2 (-120) 60 (ofNat 167175499) (ofNat 0) (ofNat 899) :=
  earns_of e6 e7 (by decide +kernel) (by decide +kernel)

end NarrowDemo

-- the hypotheses of the theorems are met
example : ∃ a c d b : U256, getSqrtRatioAtTick (-180) = .ok a ∧ getSqrtRatioAtTick (-120) = .ok c ∧ getSqrtRatioAtTick 60 = .ok d ∧
    getSqrtRatioAtTick 180 = .ok b ∧ 2 ^ 56 ≤ max Demo.p0.price.toNat c.toNat ∧
    getLiquidityForAmount Demo.p0.price a b (ofNat 1000000) (ofNat 1000000) = .ok (ofNat 111617416) ∧
    getLiquidityForAmount Demo.p0.price c d (ofNat 1000000) (ofNat 1000000) = .ok (ofNat 167175499) ∧
    2 ^ 96 = clamp Demo.p0.price.toNat c.toNat d.toNat ∧
    (ofNat 1000000).toNat * (2 ^ 96 * d.toNat / 2 ^ 96) / (d.toNat - 2 ^ 96) < 2 ^ 256 ∧
    (ofNat 1000000).toNat * 2 ^ 96 / (2 ^ 96 - c.toNat) < 2 ^ 256 :=
  ⟨_, _, _, _, eq_getOk _ (by decide +kernel), eq_getOk _ (by decide +kernel), eq_getOk _ (by decide +kernel),
    eq_getOk _ (by decide +kernel), by decide +kernel, by decide +kernel, by decide +kernel, by decide +kernel, by decide +kernel,
    by decide +kernel⟩

example : Reachable [] Demo.p0 ∧ SideBySide [] Demo.p0 (-180) 180 (ofNat 111617416) (-120) 60 (ofNat 167175499) NarrowDemo.r3.2.2 NarrowDemo.g0 NarrowDemo.g1 ∧
    Earns NarrowDemo.r3.2.2 (-180) 180 (ofNat 111617416) (ofNat 0) (ofNat 600) ∧
    Earns NarrowDemo.r3.2.2 (-120) 60 (ofNat 167175499) (ofNat 0) (ofNat 899) :=
  ⟨Demo.reachable Demo.r0, NarrowDemo.side, NarrowDemo.wide, NarrowDemo.narrow⟩

end Props
end Uni
