import Verif.Props.Capital
import Verif.Props.Start
import Verif.Proofs.History
/-! # C116: rebalancing a fixed range reinvests -/
namespace Uni
namespace Props
open U256 Spec Pool LiquidityAmounts

/-- C116: amounts that pay for the liquidity `L` (exact amounts rounded up) buy at least `L`, up to one unit; exactly at
least `L` where only token1 is needed.  `P` is the price clamped into the range; `L * 2^96 ≤ P * b` says that the price
is not extremely low. -/
theorem C116_buyback {p a b x0 x1 M : U256} {L P : Nat} (hP : P = clamp p.toNat a.toNat b.toNat) (ha : 0 < a.toNat)
    (hab : a.toNat < b.toNat) (h : getLiquidityForAmount p a b x0 x1 = .ok M)
    (hr : Room p.toNat a.toNat b.toNat x0.toNat x1.toNat) (h0 : ⌈exact0 P b.toNat L⌉ ≤ (x0.toNat : Int))
    (h1 : ⌈exact1 a.toNat P L⌉ ≤ (x1.toNat : Int)) (hL : L * 2 ^ 96 ≤ P * b.toNat) :
    L ≤ M.toNat + 1 ∧ (b.toNat ≤ p.toNat → L ≤ M.toNat) := by
  obtain ⟨r1, r2, r3⟩ := hr
  rw [min_eq_left hab.le, max_eq_right hab.le, ← hP] at r1 r2 r3
  have hb0 : a.toNat ≤ P ∧ P ≤ b.toNat := by unfold clamp at hP; omega
  have best := C38_best p a b x0 x1 M P hP ha hab h r1 r2 r3
  have g0 : exact0 P b.toNat L ≤ (x0.toNat : ℚ) := le_trans (Int.le_ceil _) (by exact_mod_cast h0)
  have g1 : exact1 a.toNat P L ≤ (x1.toNat : ℚ) := le_trans (Int.le_ceil _) (by exact_mod_cast h1)
  have tok1 : a.toNat < P ∧ (x1.toNat : ℚ) < exact1 a.toNat P (M.toNat + 1) → L ≤ M.toNat := by
    rintro ⟨c, k⟩
    have k' := lt_of_le_of_lt g1 k
    unfold exact1 at k'
    have hd : (0 : ℚ) < |(P : ℚ) - a.toNat| := abs_pos.2 (sub_ne_zero.2 (by exact_mod_cast (show P ≠ a.toNat by omega)))
    rw [div_lt_div_iff_of_pos_right (by norm_num), mul_lt_mul_iff_left₀ hd] at k'
    have : (L : Int) < M.toNat + 1 := by exact_mod_cast k'
    omega
  constructor
  · rcases best with ⟨c, k⟩ | k
    · have hP0 : 0 < P := by omega
      have hPb : (0 : ℚ) < (P : ℚ) * b.toNat := by exact_mod_cast Nat.mul_pos hP0 (by omega)
      have hd : (0 : ℚ) < |(b.toNat : ℚ) - P| := abs_pos.2 (sub_ne_zero.2 (by exact_mod_cast (show b.toNat ≠ P by omega)))
      have e1 : (2 : ℚ) ^ 96 / (P * b.toNat) * L ≤ 1 := by
        rw [div_mul_eq_mul_div, div_le_one hPb, mul_comm]
        exact_mod_cast hL
      have e2 : (2 : ℚ) ^ 96 / (P * b.toNat) ≤ 1 ∨ L = 0 := by
        rcases Nat.eq_zero_or_pos L with z | z
        · exact Or.inr z
        · left
          have : (1 : ℚ) ≤ L := by exact_mod_cast z
          have hnn : (0 : ℚ) ≤ 2 ^ 96 / (P * b.toNat) := by positivity
          nlinarith
      rcases e2 with e2 | e2
      · have k' := lt_of_le_of_lt (mul_le_mul_of_nonneg_right g0 (show (0 : ℚ) ≤ 1 - 2 ^ 96 / (P * b.toNat) by linarith)) k
        have u : ∀ z : Int, exact0 P b.toNat z = z * exact0 P b.toNat 1 := by
          intro z; unfold exact0; push_cast; ring
        have hpos : 0 < exact0 P b.toNat 1 := by unfold exact0; positivity
        rw [u L, u (M.toNat + 1)] at k'
        have k2 : ((L : Int) : ℚ) * (1 - 2 ^ 96 / (P * b.toNat)) < ((M.toNat + 1 : Int) : ℚ) := by
          rw [← mul_lt_mul_iff_left₀ hpos]
          linarith
        push_cast at k2
        have k3 : (L : ℚ) < (M.toNat : ℚ) + 2 := by nlinarith
        have : L < M.toNat + 2 := by exact_mod_cast k3
        omega
      · omega
    · have := tok1 k; omega
  · intro hp
    have : P = b.toNat := by unfold clamp at hP; omega
    rcases best with ⟨c, _⟩ | k
    · omega
    · exact tok1 k

theorem worth_single (P : Nat) (L : U256) (l u : Int) :
    worth0 P [⟨L, l, u⟩] = ⌊exact0 (clamp P (tickPrice l) (tickPrice u)) (tickPrice u) L.toNat⌋ ∧
    worth1 P [⟨L, l, u⟩] = ⌊exact1 (tickPrice l) (clamp P (tickPrice l) (tickPrice u)) L.toNat⌋ := by
  unfold worth0 worth1 holding0 holding1
  simp only [List.map_cons, List.map_nil, List.sum_cons, List.sum_nil, add_zero]
  generalize clamp P (tickPrice l) (tickPrice u) = A
  generalize tickPrice u = B
  generalize tickPrice l = C
  constructor
  · congr 1; unfold exact0; push_cast; ring
  · congr 1; unfold exact1; push_cast; ring

/-- C116: a strategy with a fixed range (constant interval, full range) whose only position is in that range: if it has at
least one unit of each token left over or earned in fees, `Rebalance` opens the same range with at least the liquidity it
had, up to one unit. -/
theorem C116_rebalance {m : List Entry} {s s' : Strat} {fuel : Nat} {c : U256 × U256} {L : U256} {l u : Int} (hr : Runs m s)
    (hx : s.rebalance fuel = .ok (some c, s')) (hf : Fits m s') (hk : s.kind = .v2 ∨ ∃ w, s.kind = .constantInterval w ∧ |w| ≤ 2 ^ 30)
    (hp : s.positions = [⟨L, l, u⟩]) (hR : RebalanceRanges s [(l, u)]) (hL : 2 ≤ L.toNat)
    (h0 : 1 ≤ s.amount0.toNat + fees0 s.pool s.positions) (h1 : 1 ≤ s.amount1.toNat + fees1 s.pool s.positions)
    (hb0 : s.amount0.toNat + worth0 s.pool.price.toNat s.positions + fees0 s.pool s.positions < 2 ^ 256)
    (hb1 : s.amount1.toNat + worth1 s.pool.price.toNat s.positions + fees1 s.pool s.positions < 2 ^ 256)
    (hroom : Room s.pool.price.toNat (tickPrice l) (tickPrice u) c.1.toNat c.2.toNat)
    (hlow : L.toNat * 2 ^ 96 ≤ clamp s.pool.price.toNat (tickPrice l) (tickPrice u) * tickPrice u) :
    ∃ M, s'.positions = [⟨M, l, u⟩] ∧ RebalanceRanges s' [(l, u)] ∧ L.toNat ≤ M.toNat + 1 ∧
      (tickPrice u ≤ s.pool.price.toNat → L.toNat ≤ M.toNat) := by
  have hns : ∀ v, s.kind ≠ .swapHalf v := by
    intro v hv
    rcases hk with hk | ⟨w, hk, _⟩ <;> (rw [hk] at hv; cases hv)
  have hs : Kind.Sane s.kind := by
    rcases hk with hk | ⟨w, hk, hw⟩
    · rw [hk]; trivial
    · rw [hk]; exact hw
  have only : ∀ {r rs}, RebalanceRanges s (r :: rs) → r = (l, u) ∧ rs = [] := by
    intro r rs h
    unfold RebalanceRanges at h hR
    rcases hk with hk | ⟨w, hk, _⟩
    · rw [hk] at h hR
      have h' : r :: rs = [(-887270, 887270)] := by unfold InitRanges at h; rw [hk] at h; exact h
      have hR' : [(l, u)] = [(-887270, 887270)] := by unfold InitRanges at hR; rw [hk] at hR; exact hR
      rw [← hR'] at h'
      cases h'; exact ⟨rfl, rfl⟩
    · rw [hk] at h hR
      have h' : r :: rs = _ := h
      rw [← (show [(l, u)] = _ from hR)] at h'
      cases h'; exact ⟨rfl, rfl⟩
  obtain ⟨s1, hb⟩ := C87_rebalance_needs hx
  obtain ⟨a0, a1⟩ := C40_amounts hr hb (by rw [hp]; exact List.pairwise_singleton _ _)
  obtain ⟨w0, w1⟩ := Strat.worth_nonneg s.pool.price.toNat s.positions
  rw [Int.emod_eq_of_lt (by omega) hb0] at a0
  rw [Int.emod_eq_of_lt (by omega) hb1] at a1
  obtain ⟨r, rs, a, b, M, k1, k2, k3, k4, k5⟩ := C60_rebalance hr hx hs hns
  obtain ⟨rfl, rfl⟩ := only k1
  have hwf := C42_wellformed hr (q := ⟨L, l, u⟩) (by rw [hp]; simp)
  dsimp only at hwf k2 k3 k5
  have hap := Strat.tickPrice_bounds (t := l) hwf.2.2.1 (by omega)
  have hab := Strat.tickPrice_strict hwf.2.2.1 hwf.2.1 hwf.2.2.2
  have cw := worth_single s.pool.price.toNat L l u
  rw [← hp] at cw
  obtain ⟨cw0, cw1⟩ := cw
  rw [cw0] at a0
  rw [cw1] at a1
  have up : ∀ (e : ℚ) (x f c : Nat), (c : Int) = x + ⌊e⌋ + f → 1 ≤ x + f → ⌈e⌉ ≤ (c : Int) := by
    intro e x f c h h'
    have := Int.ceil_le_floor_add_one e
    omega
  have c0 := up _ _ _ _ a0 h0
  have c1 := up _ _ _ _ a1 h1
  rw [← k2, ← k3] at c0 c1 hroom hlow hab
  obtain ⟨q1, q2⟩ := C116_buyback rfl (by rw [k2]; exact lt_of_lt_of_le (by norm_num) hap.1) hab k4 hroom c0 c1 hlow
  rw [k3] at q2
  obtain ⟨more, k6⟩ := k5 (by omega)
  obtain ⟨rs, l1, l2⟩ := C42_rebalance hr hx hf (fun v hv => absurd hv (hns v)) hs
  have hrs : rs = [(l, u)] := by
    rcases rs with _ | ⟨r, rs⟩
    · rw [k6] at l1; cases l1
    · obtain ⟨rfl, rfl⟩ := only l2; rfl
  have hmore : more = [] := by
    have := l1.length_le
    rw [k6, hrs] at this
    simp only [ranges, List.map_cons, List.length_cons, List.length_map, List.length_nil] at this
    exact List.eq_nil_of_length_eq_zero (by omega)
  refine ⟨M, by rw [k6, hmore], ?_, q1, q2⟩
  have hkind : s'.kind = s.kind := (Strat.rebalance_mind hx).1
  rcases hk with hk | ⟨w, hk, hw⟩
  · have hR' : [(l, u)] = [(-887270, 887270)] := by
      unfold RebalanceRanges InitRanges at hR
      rw [hk] at hR
      exact hR
    unfold RebalanceRanges InitRanges
    rw [hkind, hk]
    exact hR'
  · have hR' : [(l, u)] = [(s.tickLower, s.tickUpper)] := by
      unfold RebalanceRanges at hR
      rw [hk] at hR
      exact hR
    have e := (C42_constant (s' := s') hr hk hw).2.1 fuel _ hx
    unfold RebalanceRanges
    rw [hkind, hk]
    show [(l, u)] = [(s'.tickLower, s'.tickUpper)]
    rw [e]; exact hR'

/-- C116: such a strategy starts with at most one position, in the range that `Rebalance` opens again. -/
theorem C116_init {m : List Entry} {s s' : Strat} {fuel : Nat} {c : U256 × U256} (hr : Runs m s) (he : s.positions = [])
    (hx : s.init fuel = .ok (c, s')) (hf : Fits m s') (hk : s.kind = .v2 ∨ ∃ w, s.kind = .constantInterval w ∧ |w| ≤ 2 ^ 30) :
    s'.positions = [] ∨ ∃ L l u, s'.positions = [⟨L, l, u⟩] ∧ RebalanceRanges s' [(l, u)] := by
  have hns : ∀ v, s.kind ≠ .swapHalf v := by
    intro v hv
    rcases hk with hk | ⟨w, hk, _⟩ <;> (rw [hk] at hv; cases hv)
  have hs : Kind.Sane s.kind := by
    rcases hk with hk | ⟨w, hk, hw⟩
    · rw [hk]; trivial
    · rw [hk]; exact hw
  have hkind : s'.kind = s.kind := (Strat.init_mind hx).1
  obtain ⟨new, rs, h1, h2, h3⟩ := C42_init hr hx hf (fun v hv => absurd hv (hns v)) hs
  rw [he, List.nil_append] at h1
  have one : ∃ l u, rs = [(l, u)] ∧ RebalanceRanges s' [(l, u)] := by
    rcases hk with hk | ⟨w, hk, hw⟩
    · unfold InitRanges at h3
      rw [hk] at h3
      refine ⟨_, _, h3, ?_⟩
      unfold RebalanceRanges InitRanges
      rw [hkind, hk]
    · unfold InitRanges at h3
      rw [hk] at h3
      obtain ⟨r, k1, k2⟩ := h3
      have k3 := (C42_constant (s' := s') hr hk hw).1 fuel c hx
      refine ⟨r.1, r.2, k2, ?_⟩
      have e : r = (s'.tickLower, s'.tickUpper) := Strat.centred_unique (Strat.runs_owns hr).ready.pos k1 k3
      unfold RebalanceRanges
      rw [hkind, hk, e]
  obtain ⟨l, u, rfl, hR⟩ := one
  rw [h1]
  rcases new with _ | ⟨q, new⟩
  · exact Or.inl rfl
  · refine Or.inr ⟨q.amount, l, u, ?_, hR⟩
    have hlen := h2.length_le
    simp only [ranges, List.map_cons, List.length_cons, List.length_map, List.length_nil] at hlen
    obtain rfl : new = [] := List.eq_nil_of_length_eq_zero (by omega)
    have := h2.eq_of_length rfl
    simp only [ranges, List.map_cons, List.map_nil, List.cons.injEq, Prod.mk.injEq, and_true] at this
    rw [← this.1, ← this.2]

/-! ### Concrete runs -/

namespace ReinvestDemo
open StratDemo

/-- The constant interval strategy of `StratDemo` is rebalanced at once, and after two swaps that pay fees in both tokens. -/
def z1 : Option (U256 × U256) × Strat := getOk (c2.rebalance 10) (by decide +kernel)
def swapA : PoolOp := .exactInput (ofNat 400000) "USDC" zero
def swapB : PoolOp := .exactInput (ofNat 390000) "WETH" zero
def c3 : Strat := { c2 with pool := getOk (swapA.exec 10 c2.pool) (by decide +kernel) }
def c4 : Strat := { c3 with pool := getOk (swapB.exec 10 c3.pool) (by decide +kernel) }
def z4 : Option (U256 × U256) × Strat := getOk (c4.rebalance 10) (by decide +kernel)
theorem kind2 : c2.kind = .constantInterval 120 := by decide +kernel
theorem kind4 : c4.kind = .constantInterval 120 := by decide +kernel
theorem y3 : Runs m1 c3 := .trade 10 swapA t2 ⟨by decide +kernel, fun h => absurd h (by decide +kernel)⟩ (eq_getOk _ (by decide +kernel))
theorem y4 : Runs m1 c4 := .trade 10 swapB y3 ⟨by decide +kernel, fun _ => clear_good (by
  rw [show c3.pool.spacing = 60 by decide +kernel, show c3.pool.tick = 36 by decide +kernel]
  rintro ⟨k, _, h2, h3⟩
  omega)⟩ (eq_getOk _ (by decide +kernel))
theorem same : RebalanceRanges c4 [(-120, 120)] := by
  unfold RebalanceRanges
  rw [kind4]
  decide +kernel

end ReinvestDemo

open StratDemo ReinvestDemo in
/-- C116: one unit of each token is needed.  Right after `Init`, with no token0 left and no fees earned, the constant
interval strategy gets one unit of token0 less back than it paid, and its liquidity falls by 167 units. -/
theorem C116_shrinks : ∃ (m : List Entry) (s s' : Strat) (c : U256 × U256), Runs m s ∧ s.kind = .constantInterval 120 ∧
    s.positions = [⟨ofNat 167175499, -120, 120⟩] ∧ RebalanceRanges s [(-120, 120)] ∧ s.amount0.toNat + fees0 s.pool s.positions = 0 ∧
    s.rebalance 10 = .ok (some c, s') ∧ s'.positions = [⟨ofNat 167175332, -120, 120⟩] := by
  refine ⟨m1, c2, z1.2, (z1.1.getD (zero, zero)), t2, kind2, by decide +kernel, ?_, by decide +kernel, ?_, by decide +kernel⟩
  · unfold RebalanceRanges
    rw [kind2]
    decide +kernel
  · rw [show some (z1.1.getD (zero, zero)) = z1.1 by decide +kernel]
    exact eq_getOk _ (by decide +kernel)

open StratDemo ReinvestDemo in
/-- C116: after the two swaps all hypotheses hold, and the liquidity grows from 167175499 to 167327024. -/
example : Runs m1 c4 ∧ c4.rebalance 10 = .ok (some (ofNat 993788, ofNat 2008035), z4.2) ∧ Fits m1 z4.2 ∧ c4.kind = .constantInterval 120 ∧
    |(120 : Int)| ≤ 2 ^ 30 ∧ c4.positions = [⟨ofNat 167175499, -120, 120⟩] ∧ RebalanceRanges c4 [(-120, 120)] ∧
    1 ≤ c4.amount0.toNat + fees0 c4.pool c4.positions ∧ 1 ≤ c4.amount1.toNat + fees1 c4.pool c4.positions ∧
    c4.amount0.toNat + worth0 c4.pool.price.toNat c4.positions + fees0 c4.pool c4.positions < 2 ^ 256 ∧
    c4.amount1.toNat + worth1 c4.pool.price.toNat c4.positions + fees1 c4.pool c4.positions < 2 ^ 256 ∧
    Room c4.pool.price.toNat (tickPrice (-120)) (tickPrice 120) (ofNat 993788).toNat (ofNat 2008035).toNat ∧
    (ofNat 167175499).toNat * 2 ^ 96 ≤ clamp c4.pool.price.toNat (tickPrice (-120)) (tickPrice 120) * tickPrice 120 ∧
    z4.2.positions = [⟨ofNat 167327024, -120, 120⟩] := by
  refine ⟨y4, ?_, by unfold Fits; decide +kernel, kind4, by decide, by decide +kernel, same, by decide +kernel, by decide +kernel, ?_, ?_,
    ⟨by decide +kernel, by decide +kernel, by decide +kernel⟩, by decide +kernel, by decide +kernel⟩
  · rw [show (some (ofNat 993788, ofNat 2008035), z4.2) = z4 from Prod.ext (by decide +kernel) rfl]
    exact eq_getOk _ (by decide +kernel)
  · decide +kernel
  · decide +kernel

open StratDemo in
/-- C116: the strategy before `Init` meets the hypotheses of `C116_init`. -/
example : Runs m1 c1 ∧ c1.positions = [] ∧ isOk (c1.init 10) ∧ c1.kind = .constantInterval 120 ∧ Fits m1 c2 ∧
    c2.positions = [⟨ofNat 167175499, -120, 120⟩] :=
  ⟨t1, by decide +kernel, by decide +kernel, by decide +kernel, by unfold Fits; decide +kernel, by decide +kernel⟩

end Props
end Uni
