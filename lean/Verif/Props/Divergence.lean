import Verif.Spec.Divergence
import Verif.Props.Value
/-! # C120: the loss against holding the tokens -/
namespace Uni
namespace Props
open U256 Spec TickData TickMath FullMath _root_.Uni.Pool Strat

theorem holding_gap (P Q L : Nat) {l u : Int} (hl : -887272 ≤ l) (hlu : l < u) (hu : u ≤ 887272) :
    value Q (L * holding0 P l u) (L * holding1 P l u) - value Q (L * holding0 Q l u) (L * holding1 Q l u) =
      divergence (tickPrice l) (tickPrice u) L P Q := by
  obtain ⟨q0, q1⟩ := holding_eq (P := Q) hl hlu hu
  obtain ⟨p0, p1⟩ := holding_eq (P := P) hl hlu hu
  rw [q0, q1, p0, p1, Props.tickPrice_eq hl (by omega), Props.tickPrice_eq (by omega) hu]
  have r1 := ratioN_ge hl (by omega)
  have r3 := ratioN_lt (s := l) (t := u) hl hlu hu
  unfold divergence
  generalize ratioN l = a at *
  generalize ratioN u = b at *
  have hc : a ≤ clamp P a b ∧ a ≤ clamp Q a b := by unfold clamp; omega
  generalize clamp P a b = c at *
  generalize clamp Q a b = d at *
  have hb : (b : ℚ) ≠ 0 := by exact_mod_cast (show b ≠ 0 by omega)
  have hc' : (c : ℚ) ≠ 0 := by exact_mod_cast (show c ≠ 0 by omega)
  have hd' : (d : ℚ) ≠ 0 := by exact_mod_cast (show d ≠ 0 by omega)
  unfold value
  field_simp
  ring

/-- Amounts rounded up against amounts rounded down. -/
theorem rounded_gap {Q : Nat} {x0 x1 y0 y1 D : ℚ} (h : value Q x0 x1 - value Q y0 y1 = D) :
    D ≤ value Q (⌈x0⌉ : Int) (⌈x1⌉ : Int) - value Q (⌊y0⌋ : Int) (⌊y1⌋ : Int) ∧
      value Q (⌈x0⌉ : Int) (⌈x1⌉ : Int) - value Q (⌊y0⌋ : Int) (⌊y1⌋ : Int) < D + 2 * unitPair Q := by
  have a0 := Int.le_ceil x0
  have a1 := Int.le_ceil x1
  have b0 := (Int.ceil_lt_add_one x0).le
  have b1 := Int.ceil_lt_add_one x1
  have c0 := Int.floor_le y0
  have c1 := Int.floor_le y1
  have d0 := (Int.lt_floor_add_one y0).le
  have d1 := Int.lt_floor_add_one y1
  have r : (0 : ℚ) ≤ ((Q : ℚ) / 2 ^ 96) ^ 2 := by positivity
  unfold unitPair
  unfold value at *
  constructor
  · nlinarith [mul_le_mul_of_nonneg_right a0 r, mul_le_mul_of_nonneg_right c0 r]
  · nlinarith [mul_le_mul_of_nonneg_right b0 r, mul_le_mul_of_nonneg_right d0 r]

/-- C120: one position.  What burning it pays is worth less than what it cost, at the price `Q` of the burning, by the
divergence between the two prices, up to less than two units of each token. -/
theorem C120_position (h h' : List Entry) (p p' q q' : Pool) (hr : Reachable h p) (hq : Reachable h' q)
    (l u : Int) (L a0 a1 b0 b1 : U256) (hL : L.toNat < 2 ^ 128)
    (hm : p.mintStrategy l u L = .ok (a0, a1, p')) (hb : q.burnStrategy l u L = .ok (b0, b1, q')) :
    divergence (tickPrice l) (tickPrice u) L.toNat p.price.toNat q.price.toNat ≤ valueOf q.price (a0, a1) - valueOf q.price (b0, b1) ∧
    valueOf q.price (a0, a1) - valueOf q.price (b0, b1) <
      divergence (tickPrice l) (tickPrice u) L.toNat p.price.toNat q.price.toNat + 2 * unitPair q.price.toNat := by
  obtain ⟨e0, e1⟩ := C30_mint h p p' hr l u L a0 a1 hL hm
  obtain ⟨f0, f1⟩ := C30_burn h' q q' hq l u L b0 b1 hL hb
  obtain ⟨_, _, pos, h3⟩ := mintStrategy_eq hm
  obtain ⟨hlu, hl, hu, _⟩ := modifyStrategy_eq h3
  have k0 : ∀ P : Nat, exact0 (clamp P (tickPrice l) (tickPrice u)) (tickPrice u) L.toNat = L.toNat * holding0 P l u := by
    intro P; unfold holding0; rw [exact0_smul]; push_cast; ring
  have k1 : ∀ P : Nat, exact1 (tickPrice l) (clamp P (tickPrice l) (tickPrice u)) L.toNat = L.toNat * holding1 P l u := by
    intro P; unfold holding1; rw [exact1_smul]; push_cast; ring
  rw [k0] at e0 f0
  rw [k1] at e1 f1
  have key := rounded_gap (holding_gap p.price.toNat q.price.toNat L.toNat hl hlu hu)
  rw [← e0, ← e1, ← f0, ← f1] at key
  unfold valueOf
  exact_mod_cast key

/-- C120: at a price in the range, for a position opened in its range, the loss is the liquidity times `(P - Q)^2 / P`, in units
of `2^96`. -/
theorem C120_inside {A B L P Q : Nat} (hA : 0 < A) (hP : A ≤ P ∧ P ≤ B) (hQ : A ≤ Q ∧ Q ≤ B) :
    divergence A B L P Q = L * ((P : ℚ) - Q) ^ 2 / (P * 2 ^ 96) := by
  have e1 : clamp P A B = P := by unfold clamp; omega
  have e2 : clamp Q A B = Q := by unfold clamp; omega
  unfold divergence
  rw [e1, e2]
  have p0 : (P : ℚ) ≠ 0 := by exact_mod_cast (show P ≠ 0 by omega)
  have q0 : (Q : ℚ) ≠ 0 := by exact_mod_cast (show Q ≠ 0 by omega)
  field_simp

/-- C120: the loss is never negative; it is zero where the price is the one at which the position was opened, and as long as both
prices are on the same side of the range; otherwise it is positive. -/
theorem C120_sign {A B L P Q : Nat} (hA : 0 < A) (hAB : A < B) :
    0 ≤ divergence A B L P Q ∧ (0 < L → (divergence A B L P Q = 0 ↔ P = Q ∨ (P ≤ A ∧ Q ≤ A) ∨ (B ≤ P ∧ B ≤ Q))) := by
  have hc : A ≤ clamp P A B ∧ clamp P A B ≤ B := by unfold clamp; omega
  have hd' : A ≤ clamp Q A B ∧ clamp Q A B ≤ B := by unfold clamp; omega
  have hd : (clamp Q A B = Q) ∨ (clamp Q A B = A ∧ Q < A) ∨ (clamp Q A B = B ∧ B < Q) := by unfold clamp; omega
  have heq : clamp P A B = clamp Q A B ↔ P = Q ∨ (P ≤ A ∧ Q ≤ A) ∨ (B ≤ P ∧ B ≤ Q) := by unfold clamp; omega
  rw [← heq]
  unfold divergence
  generalize clamp P A B = c at *
  generalize clamp Q A B = d at *
  have apos : (0 : ℚ) < A := by exact_mod_cast hA
  have ca : (A : ℚ) ≤ c := by exact_mod_cast hc.1
  have cb : (c : ℚ) ≤ B := by exact_mod_cast hc.2
  have da : (A : ℚ) ≤ d := by exact_mod_cast hd'.1
  have cpos : (0 : ℚ) < c := by linarith
  have dpos : (0 : ℚ) < d := by linarith
  have Q0 : (0 : ℚ) ≤ Q := Nat.cast_nonneg _
  have main : 0 ≤ ((c : ℚ) - d) * (c * d - (Q : ℚ) ^ 2) ∧ (((c : ℚ) - d) * (c * d - (Q : ℚ) ^ 2) = 0 → (c : ℚ) = d) := by
    rcases hd with rfl | ⟨rfl, h⟩ | ⟨rfl, h⟩
    · have : ((c : ℚ) - d) * (c * d - (d : ℚ) ^ 2) = d * (c - d) ^ 2 := by ring
      rw [this]
      refine ⟨by positivity, fun e => ?_⟩
      have := (mul_eq_zero.1 e).resolve_left dpos.ne'
      exact sub_eq_zero.1 (pow_eq_zero_iff (by norm_num) |>.1 this)
    · have h' : (Q : ℚ) < d := by exact_mod_cast h
      have k : 0 < (c : ℚ) * d - (Q : ℚ) ^ 2 := by nlinarith
      exact ⟨mul_nonneg (by linarith) k.le, fun e => sub_eq_zero.1 ((mul_eq_zero.1 e).resolve_right k.ne')⟩
    · have h' : (d : ℚ) < Q := by exact_mod_cast h
      have k : (c : ℚ) * d - (Q : ℚ) ^ 2 < 0 := by nlinarith
      exact ⟨mul_nonneg_of_nonpos_of_nonpos (by linarith) k.le, fun e => sub_eq_zero.1 ((mul_eq_zero.1 e).resolve_right k.ne)⟩
  have den : (0 : ℚ) < c * d * 2 ^ 96 := by positivity
  refine ⟨div_nonneg (mul_nonneg (Nat.cast_nonneg _) main.1) den.le, fun hL => ?_⟩
  have Lpos : (0 : ℚ) < L := by exact_mod_cast hL
  rw [div_eq_zero_iff, or_iff_left den.ne', mul_eq_zero, or_iff_right Lpos.ne']
  constructor
  · intro e
    exact_mod_cast main.2 e
  · rintro rfl
    ring

theorem positions_gap (P Q : Nat) {ps : List StratPos} (hw : ∀ q ∈ ps, q.lower < q.upper ∧ -887272 ≤ q.lower ∧ q.upper ≤ 887272) :
    divergences ps P Q ≤ value Q (cost0 P ps) (cost1 P ps) - value Q (worth0 Q ps) (worth1 Q ps) ∧
    value Q (cost0 P ps) (cost1 P ps) - value Q (worth0 Q ps) (worth1 Q ps) ≤ divergences ps P Q + 2 * ps.length * unitPair Q := by
  induction ps with
  | nil => unfold worth0 worth1 cost0 cost1 divergences; simp
  | cons q ps ih =>
    obtain ⟨i1, i2⟩ := ih (fun q hq => hw q (List.mem_cons_of_mem _ hq))
    obtain ⟨h1, h2, h3⟩ := hw q (List.mem_cons_self ..)
    obtain ⟨k1, k2⟩ := rounded_gap (holding_gap P Q q.amount.toNat h2 h1 h3)
    unfold worth0 worth1 cost0 cost1 divergences at *
    rw [List.map_cons, List.sum_cons, List.map_cons, List.sum_cons, List.map_cons, List.sum_cons, List.map_cons, List.sum_cons,
      List.map_cons, List.sum_cons, List.length_cons,
      Int.cast_add, Int.cast_add, Int.cast_add, Int.cast_add, Pool.value_add, Pool.value_add]
    push_cast
    constructor <;> linarith

/-- C120: a strategy that does not swap holds `c`, opens its positions with it and keeps them while others trade.  What
`GetAmounts` then reports is worth less than `c` by the divergences of its positions, up to two units of each token per position. -/
theorem C120_hold {m m' : List Entry} {s s' t : Strat} {fuel : Nat} {c g : U256 × U256} (hr : Runs m s) (hx : Invests fuel s c s')
    (hf : Fits m s') (hns : ∀ w, s.kind ≠ .swapHalf w) (hl : Later m s' m' t) (hg : t.getAmounts = .ok g)
    (hb : c.1.toNat < 2 ^ 255 ∧ c.2.toNat < 2 ^ 255) :
    divergences s'.positions s'.pool.price.toNat t.pool.price.toNat ≤ valueOf t.pool.price c - valueOf t.pool.price g ∧
    valueOf t.pool.price c - valueOf t.pool.price g ≤
      divergences s'.positions s'.pool.price.toNat t.pool.price.toNat + 2 * s'.positions.length * unitPair t.pool.price.toNat := by
  have hw : MaySwap s c m := fun w h => absurd h (hns w)
  have key : Runs m s' ∧ (c.1.toNat : Int) = s'.amount0.toNat + cost0 s'.pool.price.toNat s'.positions ∧
      (c.2.toNat : Int) = s'.amount1.toNat + cost1 s'.pool.price.toNat s'.positions := by
    rcases hx with ⟨he, hx⟩ | hx
    · have hw' : MaySwap s c (book m s) := by unfold book; rw [he]; exact hw
      obtain ⟨_, new, x0, x1, p1, h1, h2, h3, h4, h5, h6, h7, h8, h9⟩ := C39_init hr hx hf hw'
      rw [he, List.nil_append] at h1
      rw [h1]
      obtain ⟨rfl, rfl, _⟩ := h9 hns
      exact ⟨.init fuel hr hx hf hw', by omega, by omega⟩
    · obtain ⟨x0, x1, p0, p1, h2, h3, h4, _, h5, h6, h7, h8, h8', h9⟩ := C39_rebalance hr hx hf hw
      obtain ⟨rfl, rfl, _⟩ := h9 hns
      exact ⟨.rebalance fuel hr hx hf (fun x e => by cases e; exact hw), by omega, by omega⟩
  obtain ⟨hr', h2, h3⟩ := key
  obtain ⟨ht, e1, e2, e3⟩ := later_runs hr' hl
  obtain ⟨g', k1, k2, k3⟩ := C41_amounts ht
  rw [hg] at k1
  cases k1
  rw [e1, e2] at k2
  rw [e1, e3] at k3
  have w := worth_nonneg t.pool.price.toNat s'.positions
  have z := cost_worth s'.pool.price.toNat s'.positions
  have z' := worth_nonneg s'.pool.price.toNat s'.positions
  have htot : total (entries s'.positions) < 2 ^ 128 := by
    obtain ⟨h, hre, hsame⟩ := (runs_owns hr').pool
    have := (reachable_inv hre).cov.total_lt
    rw [hsame.total, total_append] at this
    have t2 : 0 ≤ total m := wsum_nonneg (runs_owns hr').nonneg (fun _ _ _ => by norm_num)
    omega
  obtain ⟨b0, b1⟩ := worth_lt (P := t.pool.price.toNat) (fun q hq => (C42_wellformed hr' hq).2) htot
  have c0 : (g.1.toNat : Int) = s'.amount0.toNat + worth0 t.pool.price.toNat s'.positions := by omega
  have c1 : (g.2.toNat : Int) = s'.amount1.toNat + worth1 t.pool.price.toNat s'.positions := by omega
  have cst : ∀ {a b : Nat} {x : Int}, (a : Int) = b + x → (a : ℚ) = b + (x : ℚ) := by
    intro a b x h
    exact_mod_cast congrArg (Int.cast (R := ℚ)) h
  unfold valueOf
  rw [cst c0, cst c1, cst h2, cst h3, value_add, value_add]
  obtain ⟨j1, j2⟩ := positions_gap s'.pool.price.toNat t.pool.price.toNat (fun q hq => (C42_wellformed hr' hq).2)
  constructor <;> linarith

/-- C120: the break-even point.  If liquidating the strategy gives at least the value of the tokens it started with, the fees are
worth at least the divergences; and if they are worth that and two units of each token per position, it does. -/
theorem C120_fees {m m' : List Entry} {s s' t t' : Strat} {fuel : Nat} {c g b : U256 × U256} (hr : Runs m s) (hx : Invests fuel s c s')
    (hf : Fits m s') (hns : ∀ w, s.kind ≠ .swapHalf w) (hl : Later m s' m' t) (hg : t.getAmounts = .ok g)
    (hb : c.1.toNat < 2 ^ 255 ∧ c.2.toNat < 2 ^ 255) (hx' : t.burnAll = .ok (b, t'))
    (hd : t.positions.Pairwise (fun q q' => posKey q.lower q.upper ≠ posKey q'.lower q'.upper))
    (ho : g.1.toNat + fees0 t.pool t.positions < 2 ^ 256 ∧ g.2.toNat + fees1 t.pool t.positions < 2 ^ 256) :
    (valueOf t.pool.price c ≤ valueOf t.pool.price b → divergences s'.positions s'.pool.price.toNat t.pool.price.toNat ≤
      value t.pool.price.toNat (fees0 t.pool t.positions) (fees1 t.pool t.positions)) ∧
    (divergences s'.positions s'.pool.price.toNat t.pool.price.toNat + 2 * s'.positions.length * unitPair t.pool.price.toNat ≤
      value t.pool.price.toNat (fees0 t.pool t.positions) (fees1 t.pool t.positions) → valueOf t.pool.price c ≤ valueOf t.pool.price b) := by
  have hr' : Runs m s' := by
    rcases hx with ⟨he, hx⟩ | hx
    · exact .init fuel hr hx hf (fun w h => absurd h (hns w))
    · exact .rebalance fuel hr hx hf (fun x e w h => absurd h (hns w))
  obtain ⟨h1, h2⟩ := C120_hold hr hx hf hns hl hg hb
  obtain ⟨e0, e1⟩ := C41_burnAll (later_runs hr' hl).1 hx' hg hd
  rw [Nat.mod_eq_of_lt ho.1] at e0
  rw [Nat.mod_eq_of_lt ho.2] at e1
  have eb : valueOf t.pool.price b = valueOf t.pool.price g + value t.pool.price.toNat (fees0 t.pool t.positions) (fees1 t.pool t.positions) := by
    unfold valueOf
    rw [e0, e1, Nat.cast_add, Nat.cast_add, value_add]
  rw [eb]
  constructor <;> intro h <;> linarith

/-! ### The hypotheses are met -/

open StratDemo ValueDemo in
/-- The fill-up run: the price rises by nine ticks; the divergence is between 35 and 36 units of token1, less than the fees of 230,
so the strategy has gained. -/
example : Runs m1 f1 ∧ Invests 10 f1 i2.1 f2 ∧ Fits m1 f2 ∧ (∀ w, f1.kind ≠ .swapHalf w) ∧ Later m1 f2 m1 f3 ∧
    i2.1 = (ofNat 1000000, ofNat 2000000) ∧ f3.getAmounts = .ok (ofNat 923288, ofNat 2076745) ∧
    isOk f3.burnAll = true ∧ f3.positions.Pairwise (fun q q' => posKey q.lower q.upper ≠ posKey q'.lower q'.upper) ∧
    fees0 f3.pool f3.positions = 0 ∧ fees1 f3.pool f3.positions = 230 ∧
    35 < divergences f2.positions f2.pool.price.toNat f3.pool.price.toNat ∧
    divergences f2.positions f2.pool.price.toNat f3.pool.price.toNat + 2 * f2.positions.length * unitPair f3.pool.price.toNat ≤
      value f3.pool.price.toNat (fees0 f3.pool f3.positions) (fees1 f3.pool f3.positions) := by
  refine ⟨r1, Or.inl ⟨by decide +kernel, e2⟩, fits2, fills (by decide +kernel), later, by decide +kernel, by decide +kernel,
    by decide +kernel, distinct.1, by decide +kernel, by decide +kernel, by decide +kernel, by decide +kernel⟩

open StratDemo in
/-- A position minted before the swap and burned after it. -/
example : isOk (f1.pool.mintStrategy (-120) 120 (ofNat 1000)) = true ∧ isOk (f3.pool.burnStrategy (-120) 120 (ofNat 1000)) = true ∧
    (∃ h, Reachable h f1.pool) ∧ (∃ h, Reachable h f3.pool) ∧ tickPrice (-120) ≤ f1.pool.price.toNat ∧ f1.pool.price.toNat ≤ tickPrice 120 ∧
    tickPrice (-120) ≤ f3.pool.price.toNat ∧ f3.pool.price.toNat ≤ tickPrice 120 :=
  ⟨by decide +kernel, by decide +kernel, let ⟨h, k, _⟩ := (runs_owns r1).pool; ⟨h, k⟩, let ⟨h, k, _⟩ := (runs_owns r3).pool; ⟨h, k⟩,
    by decide +kernel, by decide +kernel, by decide +kernel, by decide +kernel⟩

end Props
end Uni
