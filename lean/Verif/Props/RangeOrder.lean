import Verif.Props.Positions
import Verif.Proofs.Fund
import Verif.Proofs.LiquidityAmounts
/-! # C100: providing liquidity is trading at the geometric mean of the prices -/
namespace Uni
namespace Props
open U256 Spec TickData TickMath FullMath Pool

/-- Between two prices `x` and `y` of a range from `A` to `B` the exact amounts change in the ratio `x * y`. -/
theorem exact_trade {A B x y : Nat} {L : Int} (hA : 0 < A) (hx : A ≤ x) (hxB : x ≤ B) (hy : A ≤ y) (hyB : y ≤ B) :
    (exact1 A y L - exact1 A x L) * (2 ^ 96) ^ 2 + (exact0 y B L - exact0 x B L) * (x * y) = 0 := by
  have e1 : ∀ z : Nat, A ≤ z → exact1 A z L = L * ((z : ℚ) - A) / 2 ^ 96 := by
    intro z hz
    unfold exact1
    have : (0 : ℚ) ≤ (z : ℚ) - A := by
      have : (A : ℚ) ≤ z := by exact_mod_cast hz
      linarith
    rw [abs_of_nonneg this]
  have e0 : ∀ z : Nat, z ≤ B → exact0 z B L = L * 2 ^ 96 * ((B : ℚ) - z) / (z * B) := by
    intro z hz
    unfold exact0
    have : (0 : ℚ) ≤ (B : ℚ) - z := by
      have : (z : ℚ) ≤ B := by exact_mod_cast hz
      linarith
    rw [abs_of_nonneg this]
  rw [e1 y hy, e1 x hx, e0 y hyB, e0 x hxB]
  have px : (x : ℚ) ≠ 0 := by exact_mod_cast (show x ≠ 0 by omega)
  have py : (y : ℚ) ≠ 0 := by exact_mod_cast (show y ≠ 0 by omega)
  have pB : (B : ℚ) ≠ 0 := by exact_mod_cast (show B ≠ 0 by omega)
  field_simp
  ring

/-- The range of a mint that returns. -/
theorem range_of_mint {p p' : Pool} {l u : Int} {L a0 a1 : U256} (h : p.mintStrategy l u L = .ok (a0, a1, p')) :
    -887272 ≤ l ∧ l < u ∧ u ≤ 887272 := by
  obtain ⟨_, _, pos, h3⟩ := mintStrategy_eq h
  obtain ⟨hlu, hl, hu, _⟩ := modifyStrategy_eq h3
  exact ⟨hl, hlu, hu⟩

/-- C100: liquidity is minted at one price and burned at another.  With `x` and `y` the two prices, limited to the range, the
changes of the two tokens balance at the price `x * y` (the geometric mean of the prices `x²` and `y²`): what is paid back is
worth no more at this price than what was paid, and less by fewer than two units of each token.  The two pools may differ in
everything else. -/
theorem C100_trade {h h' : List Entry} {p p' q q' : Pool} {l u : Int} {L a0 a1 b0 b1 : U256} {x y : Nat}
    (hr : Reachable h p) (hq : Reachable h' q) (hL : L.toNat < 2 ^ 128)
    (hm : p.mintStrategy l u L = .ok (a0, a1, p')) (hb : q.burnStrategy l u L = .ok (b0, b1, q'))
    (hx : x = clamp p.price.toNat (tickPrice l) (tickPrice u)) (hy : y = clamp q.price.toNat (tickPrice l) (tickPrice u)) :
    ((b1.toNat : Int) - a1.toNat) * (2 ^ 96) ^ 2 + ((b0.toNat : Int) - a0.toNat) * (x * y) ≤ 0 ∧
    -2 * ((2 ^ 96) ^ 2 + x * y : Int) < ((b1.toNat : Int) - a1.toNat) * (2 ^ 96) ^ 2 + ((b0.toNat : Int) - a0.toNat) * (x * y) := by
  obtain ⟨hl, hlu, hu⟩ := range_of_mint hm
  obtain ⟨e0, e1⟩ := C30_mint h p p' hr l u L a0 a1 hL hm
  obtain ⟨f0, f1⟩ := C30_burn h' q q' hq l u L b0 b1 hL hb
  rw [← hx] at e0 e1
  rw [← hy] at f0 f1
  have hAB : tickPrice l < tickPrice u := Strat.tickPrice_strict hl hlu hu
  have hA : 0 < tickPrice l := by
    have := (Strat.tickPrice_bounds hl (show l ≤ 887272 by omega)).1; omega
  have cx : tickPrice l ≤ x ∧ x ≤ tickPrice u := by rw [hx]; unfold clamp; omega
  have cy : tickPrice l ≤ y ∧ y ≤ tickPrice u := by rw [hy]; unfold clamp; omega
  have key := exact_trade (L := (L.toNat : Int)) hA cx.1 cx.2 cy.1 cy.2
  have g0 := Int.le_ceil (exact0 x (tickPrice u) (L.toNat : Int))
  have g0' := Int.ceil_lt_add_one (exact0 x (tickPrice u) (L.toNat : Int))
  have g1 := Int.le_ceil (exact1 (tickPrice l) x (L.toNat : Int))
  have g1' := Int.ceil_lt_add_one (exact1 (tickPrice l) x (L.toNat : Int))
  have k0 := Int.floor_le (exact0 y (tickPrice u) (L.toNat : Int))
  have k0' := Int.lt_floor_add_one (exact0 y (tickPrice u) (L.toNat : Int))
  have k1 := Int.floor_le (exact1 (tickPrice l) y (L.toNat : Int))
  have k1' := Int.lt_floor_add_one (exact1 (tickPrice l) y (L.toNat : Int))
  rw [← e0] at g0 g0'
  rw [← e1] at g1 g1'
  rw [← f0] at k0 k0'
  rw [← f1] at k1 k1'
  have hxy : (0 : ℚ) < (x : ℚ) * y := by
    have : 0 < x * y := Nat.mul_pos (by omega) (by omega)
    exact_mod_cast this
  have hQ : (0 : ℚ) < ((2 : ℚ) ^ 96) ^ 2 := by positivity
  generalize exact0 x (tickPrice u) (L.toNat : Int) = E0 at *
  generalize exact1 (tickPrice l) x (L.toNat : Int) = E1 at *
  generalize exact0 y (tickPrice u) (L.toNat : Int) = F0 at *
  generalize exact1 (tickPrice l) y (L.toNat : Int) = F1 at *
  constructor
  · have : (((b1.toNat : Int) : ℚ) - (a1.toNat : Int)) * ((2 : ℚ) ^ 96) ^ 2 + (((b0.toNat : Int) : ℚ) - (a0.toNat : Int)) * ((x : ℚ) * y) ≤ 0 := by
      have m1 := mul_le_mul_of_nonneg_right (show ((b1.toNat : Int) : ℚ) - (a1.toNat : Int) ≤ F1 - E1 by linarith) hQ.le
      have m0 := mul_le_mul_of_nonneg_right (show ((b0.toNat : Int) : ℚ) - (a0.toNat : Int) ≤ F0 - E0 by linarith) hxy.le
      linarith
    exact_mod_cast this
  · have : -2 * (((2 : ℚ) ^ 96) ^ 2 + (x : ℚ) * y) < (((b1.toNat : Int) : ℚ) - (a1.toNat : Int)) * ((2 : ℚ) ^ 96) ^ 2 + (((b0.toNat : Int) : ℚ) - (a0.toNat : Int)) * ((x : ℚ) * y) := by
      have m1 := mul_lt_mul_of_pos_right (show F1 - E1 - 2 < ((b1.toNat : Int) : ℚ) - (a1.toNat : Int) by linarith) hQ
      have m0 := mul_lt_mul_of_pos_right (show F0 - E0 - 2 < ((b0.toNat : Int) : ℚ) - (a0.toNat : Int) by linarith) hxy
      linarith
    exact_mod_cast this

/-- The price of a pool whose tick is below a range. -/
theorem clamp_below {h : List Entry} {p : Pool} {l u : Int} (hr : Reachable h p) (hu : u ≤ 887272) (hlu : l < u)
    (ht : p.tick < l) : clamp p.price.toNat (tickPrice l) (tickPrice u) = tickPrice l := by
  obtain ⟨t1, t2, _, t3, _⟩ := C24_tick_price h p hr
  refine LiquidityAmounts.clamp_lo (le_trans t3 ?_)
  rcases Int.lt_or_eq_of_le (show p.tick + 1 ≤ l by omega) with h1 | h1
  · exact (Strat.tickPrice_strict (by omega) h1 (by omega)).le
  · rw [h1]

/-- The price of a pool whose tick is above a range. -/
theorem clamp_above {h : List Entry} {p : Pool} {l u : Int} (hr : Reachable h p) (hl : -887272 ≤ l) (hu : u ≤ 887272) (hlu : l < u)
    (ht : u ≤ p.tick) : clamp p.price.toNat (tickPrice l) (tickPrice u) = tickPrice u := by
  obtain ⟨t1, t2, t3, _⟩ := C24_tick_price h p hr
  refine LiquidityAmounts.clamp_hi (le_trans ?_ t3) (Strat.tickPrice_strict hl hlu hu).le
  rcases Int.lt_or_eq_of_le ht with h1 | h1
  · exact (Strat.tickPrice_strict (by omega) h1 (by omega)).le
  · rw [h1]

theorem exact0_self (x : Nat) (L : Int) : exact0 x x L = 0 := by unfold exact0; simp

theorem exact1_self (x : Nat) (L : Int) : exact1 x x L = 0 := by unfold exact1; simp

/-- C100: a range above the price is an order to sell token0.  It costs token0 only.  Once the price has passed the range, it
pays token1 only, and the order has been filled at the geometric mean of the prices at the two ends, up to one unit of each
token. -/
theorem C100_sell {h h' : List Entry} {p p' q q' : Pool} {l u : Int} {L a0 a1 b0 b1 : U256}
    (hr : Reachable h p) (hq : Reachable h' q) (hL : L.toNat < 2 ^ 128)
    (hm : p.mintStrategy l u L = .ok (a0, a1, p')) (hb : q.burnStrategy l u L = .ok (b0, b1, q'))
    (hp : p.tick < l) (ht : u ≤ q.tick) : a1 = zero ∧ b0 = zero ∧
    b1.toNat * (2 ^ 96) ^ 2 ≤ a0.toNat * (tickPrice l * tickPrice u) ∧
    a0.toNat * (tickPrice l * tickPrice u) < (b1.toNat + 1) * (2 ^ 96) ^ 2 + tickPrice l * tickPrice u := by
  obtain ⟨hl, hlu, hu⟩ := range_of_mint hm
  obtain ⟨e0, e1⟩ := C30_mint h p p' hr l u L a0 a1 hL hm
  obtain ⟨f0, f1⟩ := C30_burn h' q q' hq l u L b0 b1 hL hb
  have cx := clamp_below hr hu hlu hp
  have cy := clamp_above hq hl hu hlu ht
  rw [cx] at e0 e1
  rw [cy] at f0 f1
  have hAB := Strat.tickPrice_strict hl hlu hu
  have hA : 0 < tickPrice l := by have := (Strat.tickPrice_bounds hl (show l ≤ 887272 by omega)).1; omega
  have key := exact_trade (L := (L.toNat : Int)) hA (le_refl _) hAB.le hAB.le (le_refl _)
  rw [exact1_self, Int.ceil_zero] at e1
  rw [exact0_self, Int.floor_zero] at f0
  rw [exact1_self, exact0_self] at key
  have g0 := Int.le_ceil (exact0 (tickPrice l) (tickPrice u) (L.toNat : Int))
  have g0' := Int.ceil_lt_add_one (exact0 (tickPrice l) (tickPrice u) (L.toNat : Int))
  have k1 := Int.floor_le (exact1 (tickPrice l) (tickPrice u) (L.toNat : Int))
  have k1' := Int.lt_floor_add_one (exact1 (tickPrice l) (tickPrice u) (L.toNat : Int))
  rw [← e0] at g0 g0'
  rw [← f1] at k1 k1'
  have hxy : (0 : ℚ) < (tickPrice l : ℚ) * tickPrice u := by
    have : 0 < tickPrice l * tickPrice u := Nat.mul_pos hA (by omega)
    exact_mod_cast this
  have hQ : (0 : ℚ) < ((2 : ℚ) ^ 96) ^ 2 := by positivity
  generalize exact0 (tickPrice l) (tickPrice u) (L.toNat : Int) = E0 at *
  generalize exact1 (tickPrice l) (tickPrice u) (L.toNat : Int) = F1 at *
  refine ⟨ext_toNat (by rw [toNat_zero]; omega), ext_toNat (by rw [toNat_zero]; omega), ?_, ?_⟩
  · have : (((b1.toNat : Int) : ℚ)) * ((2 : ℚ) ^ 96) ^ 2 ≤ ((a0.toNat : Int) : ℚ) * ((tickPrice l : ℚ) * tickPrice u) := by
      have m1 := mul_le_mul_of_nonneg_right k1 hQ.le
      have m0 := mul_le_mul_of_nonneg_right g0 hxy.le
      linarith
    exact_mod_cast this
  · have : ((a0.toNat : Int) : ℚ) * ((tickPrice l : ℚ) * tickPrice u) < (((b1.toNat : Int) : ℚ) + 1) * ((2 : ℚ) ^ 96) ^ 2 + (tickPrice l : ℚ) * tickPrice u := by
      have m1 := mul_lt_mul_of_pos_right k1' hQ
      have m0 := mul_lt_mul_of_pos_right g0' hxy
      linarith
    exact_mod_cast this

/-- C100: a range below the price is an order to buy token0 for token1, likewise. -/
theorem C100_buy {h h' : List Entry} {p p' q q' : Pool} {l u : Int} {L a0 a1 b0 b1 : U256}
    (hr : Reachable h p) (hq : Reachable h' q) (hL : L.toNat < 2 ^ 128)
    (hm : p.mintStrategy l u L = .ok (a0, a1, p')) (hb : q.burnStrategy l u L = .ok (b0, b1, q'))
    (hp : u ≤ p.tick) (ht : q.tick < l) : a0 = zero ∧ b1 = zero ∧
    b0.toNat * (tickPrice l * tickPrice u) ≤ a1.toNat * (2 ^ 96) ^ 2 ∧
    a1.toNat * (2 ^ 96) ^ 2 < (b0.toNat + 1) * (tickPrice l * tickPrice u) + (2 ^ 96) ^ 2 := by
  obtain ⟨hl, hlu, hu⟩ := range_of_mint hm
  obtain ⟨e0, e1⟩ := C30_mint h p p' hr l u L a0 a1 hL hm
  obtain ⟨f0, f1⟩ := C30_burn h' q q' hq l u L b0 b1 hL hb
  have cx := clamp_above hr hl hu hlu hp
  have cy := clamp_below hq hu hlu ht
  rw [cx] at e0 e1
  rw [cy] at f0 f1
  have hAB := Strat.tickPrice_strict hl hlu hu
  have hA : 0 < tickPrice l := by have := (Strat.tickPrice_bounds hl (show l ≤ 887272 by omega)).1; omega
  have key := exact_trade (L := (L.toNat : Int)) hA (le_refl _) hAB.le hAB.le (le_refl _)
  rw [exact0_self, Int.ceil_zero] at e0
  rw [exact1_self, Int.floor_zero] at f1
  rw [exact1_self, exact0_self] at key
  have g1 := Int.le_ceil (exact1 (tickPrice l) (tickPrice u) (L.toNat : Int))
  have g1' := Int.ceil_lt_add_one (exact1 (tickPrice l) (tickPrice u) (L.toNat : Int))
  have k0 := Int.floor_le (exact0 (tickPrice l) (tickPrice u) (L.toNat : Int))
  have k0' := Int.lt_floor_add_one (exact0 (tickPrice l) (tickPrice u) (L.toNat : Int))
  rw [← e1] at g1 g1'
  rw [← f0] at k0 k0'
  have hxy : (0 : ℚ) < (tickPrice l : ℚ) * tickPrice u := by
    have : 0 < tickPrice l * tickPrice u := Nat.mul_pos hA (by omega)
    exact_mod_cast this
  have hQ : (0 : ℚ) < ((2 : ℚ) ^ 96) ^ 2 := by positivity
  generalize exact0 (tickPrice l) (tickPrice u) (L.toNat : Int) = E0 at *
  generalize exact1 (tickPrice l) (tickPrice u) (L.toNat : Int) = F1 at *
  refine ⟨ext_toNat (by rw [toNat_zero]; omega), ext_toNat (by rw [toNat_zero]; omega), ?_, ?_⟩
  · have : (((b0.toNat : Int) : ℚ)) * ((tickPrice l : ℚ) * tickPrice u) ≤ ((a1.toNat : Int) : ℚ) * ((2 : ℚ) ^ 96) ^ 2 := by
      have m1 := mul_le_mul_of_nonneg_right g1 hQ.le
      have m0 := mul_le_mul_of_nonneg_right k0 hxy.le
      linarith
    exact_mod_cast this
  · have : ((a1.toNat : Int) : ℚ) * ((2 : ℚ) ^ 96) ^ 2 < (((b0.toNat : Int) : ℚ) + 1) * ((tickPrice l : ℚ) * tickPrice u) + ((2 : ℚ) ^ 96) ^ 2 := by
      have m1 := mul_lt_mul_of_pos_right g1' hQ
      have m0 := mul_lt_mul_of_pos_right k0' hxy
      linarith
    exact_mod_cast this

/-- C100: an order whose range the price has not entered pays back what it cost, up to one unit. -/
theorem C100_unfilled {h h' : List Entry} {p p' q q' : Pool} {l u : Int} {L a0 a1 b0 b1 : U256}
    (hr : Reachable h p) (hq : Reachable h' q) (hL : L.toNat < 2 ^ 128)
    (hm : p.mintStrategy l u L = .ok (a0, a1, p')) (hb : q.burnStrategy l u L = .ok (b0, b1, q')) :
    (p.tick < l → q.tick < l → a1 = zero ∧ b1 = zero ∧ b0.toNat ≤ a0.toNat ∧ a0.toNat ≤ b0.toNat + 1) ∧
    (u ≤ p.tick → u ≤ q.tick → a0 = zero ∧ b0 = zero ∧ b1.toNat ≤ a1.toNat ∧ a1.toNat ≤ b1.toNat + 1) := by
  obtain ⟨hl, hlu, hu⟩ := range_of_mint hm
  obtain ⟨e0, e1⟩ := C30_mint h p p' hr l u L a0 a1 hL hm
  obtain ⟨f0, f1⟩ := C30_burn h' q q' hq l u L b0 b1 hL hb
  have c := fun x : ℚ => Int.floor_le_ceil x
  have d := fun x : ℚ => Int.ceil_le_floor_add_one x
  constructor
  · intro hp ht
    rw [clamp_below hr hu hlu hp] at e0 e1
    rw [clamp_below hq hu hlu ht] at f0 f1
    rw [exact1_self, Int.ceil_zero] at e1
    rw [exact1_self, Int.floor_zero] at f1
    have c0 := c (exact0 (tickPrice l) (tickPrice u) L.toNat)
    have d0 := d (exact0 (tickPrice l) (tickPrice u) L.toNat)
    exact ⟨ext_toNat (by rw [toNat_zero]; omega), ext_toNat (by rw [toNat_zero]; omega), by omega, by omega⟩
  · intro hp ht
    rw [clamp_above hr hl hu hlu hp] at e0 e1
    rw [clamp_above hq hl hu hlu ht] at f0 f1
    rw [exact0_self, Int.ceil_zero] at e0
    rw [exact0_self, Int.floor_zero] at f0
    have c0 := c (exact1 (tickPrice l) (tickPrice u) L.toNat)
    have d0 := d (exact1 (tickPrice l) (tickPrice u) L.toNat)
    exact ⟨ext_toNat (by rw [toNat_zero]; omega), ext_toNat (by rw [toNat_zero]; omega), by omega, by omega⟩

/-! ### A concrete order -/

namespace OrderAbove

/-- An order to sell token0 on `[60, 90)` in the pool at tick 0. -/
def mint : PoolOp := .mintStrategy 60 90 (ofNat 1000000)
def h4 : List Entry := ⟨60, 90, 1000000⟩ :: Demo.h3
def m : U256 × U256 × Pool := getOk (Demo.p2.mintStrategy 60 90 (ofNat 1000000)) (by decide +kernel)
theorem minted : Demo.p2.mintStrategy 60 90 (ofNat 1000000) = .ok (m.1, m.2.1, m.2.2) := eq_getOk _ (by decide +kernel)
/-- Somebody buys token0. -/
def buy : PoolOp := .exactInput (ofNat 20000) "USDC" zero
def q : Pool := getOk (buy.exec 10 m.2.2) (by decide +kernel)
def b : U256 × U256 × Pool := getOk (q.burnStrategy 60 90 (ofNat 1000000)) (by decide +kernel)
theorem burned : q.burnStrategy 60 90 (ofNat 1000000) = .ok (b.1, b.2.1, b.2.2) := eq_getOk _ (by decide +kernel)

theorem reached : Reachable h4 m.2.2 :=
  Demo.reachable (.step 10 mint Demo.r2 (show total Demo.h3 + ((ofNat 1000000).toNat : Int) < 2 ^ 128 by decide +kernel)
    (show (Demo.p2.mintStrategy 60 90 (ofNat 1000000) >>= fun r => .ok r.2.2) = _ by rw [minted]; rfl))

theorem reached' : Reachable h4 q := by
  obtain ⟨a, b, fee, price, p0, h1, h2, h3⟩ := reached
  exact ⟨a, b, fee, price, p0, h1, h2, .step 10 buy h3 ⟨by decide +kernel, fun h => absurd h (by decide +kernel)⟩ (eq_getOk _ _)⟩

end OrderAbove

open OrderAbove in
/-- C100: the order costs 1495 of token0; at tick 162 it pays 1505 of token1. -/
example : Reachable Demo.h3 Demo.p2 ∧ Reachable h4 q ∧ (ofNat 1000000).toNat < 2 ^ 128 ∧
    Demo.p2.mintStrategy 60 90 (ofNat 1000000) = .ok (m.1, m.2.1, m.2.2) ∧
    q.burnStrategy 60 90 (ofNat 1000000) = .ok (b.1, b.2.1, b.2.2) ∧ Demo.p2.tick < 60 ∧ 90 ≤ q.tick ∧
    m.1 = ofNat 1495 ∧ b.2.1 = ofNat 1505 :=
  ⟨Demo.reachable Demo.r2, reached', by decide +kernel, minted, burned, by decide +kernel, by decide +kernel,
    by decide +kernel, by decide +kernel⟩

end Props
end Uni
