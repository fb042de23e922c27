import Verif.Spec.Mark
import Verif.Props.Value
import Verif.Props.Executor
/-! # C117: between rebalances the reported value follows the price -/
namespace Uni
namespace Props
open U256 Spec TickData TickMath FullMath _root_.Uni.Pool Strat

theorem holding_price {P Q : Nat} {l u : Int} (hl : -887272 ≤ l) (hlu : l < u) (hu : u ≤ 887272) (h : P ≤ Q) :
    holding0 Q l u ≤ holding0 P l u ∧ holding1 P l u ≤ holding1 Q l u := by
  obtain ⟨q0, q1⟩ := holding_eq (P := Q) hl hlu hu
  obtain ⟨p0, p1⟩ := holding_eq (P := P) hl hlu hu
  rw [q0, q1, p0, p1]
  have r1 := ratioN_ge hl (by omega)
  have r3 := ratioN_lt (s := l) (t := u) hl hlu hu
  generalize ratioN l = a at *
  generalize ratioN u = b at *
  have hc : a ≤ clamp P a b ∧ clamp P a b ≤ clamp Q a b := by unfold clamp; omega
  generalize clamp P a b = c at *
  generalize clamp Q a b = d at *
  have cpos : (0 : ℚ) < c := by exact_mod_cast (show 0 < c by omega)
  have cd : (c : ℚ) ≤ d := by exact_mod_cast hc.2
  constructor
  · have := one_div_le_one_div_of_le cpos cd
    have k : (0 : ℚ) ≤ 2 ^ 96 := by positivity
    exact mul_le_mul_of_nonneg_left (by linarith) k
  · exact div_le_div_of_nonneg_right (by linarith) (by positivity)

theorem worth_price {P Q : Nat} {ps : List StratPos} (hw : ∀ q ∈ ps, q.lower < q.upper ∧ -887272 ≤ q.lower ∧ q.upper ≤ 887272) (h : P ≤ Q) :
    worth0 Q ps ≤ worth0 P ps ∧ worth1 P ps ≤ worth1 Q ps := by
  induction ps with
  | nil => exact ⟨le_refl _, le_refl _⟩
  | cons q ps ih =>
    obtain ⟨i0, i1⟩ := ih (fun q hq => hw q (List.mem_cons_of_mem _ hq))
    obtain ⟨h1, h2, h3⟩ := hw q (List.mem_cons_self ..)
    obtain ⟨k0, k1⟩ := holding_price (P := P) (Q := Q) h2 h1 h3 h
    have n0 : (0 : ℚ) ≤ (q.amount.toNat : ℚ) := Nat.cast_nonneg _
    rw [worth0_cons, worth1_cons, worth0_cons, worth1_cons]
    exact ⟨add_le_add (Int.floor_le_floor (mul_le_mul_of_nonneg_left k0 n0)) i0,
      add_le_add (Int.floor_le_floor (mul_le_mul_of_nonneg_left k1 n0)) i1⟩

theorem amounts_eq {m : List Entry} {s : Strat} {d : U256 × U256} (hr : Runs m s)
    (hb : s.amount0.toNat < 2 ^ 255 ∧ s.amount1.toNat < 2 ^ 255) (hd : s.getAmounts = .ok d) :
    (d.1.toNat : Int) = s.amount0.toNat + worth0 s.pool.price.toNat s.positions ∧
    (d.2.toNat : Int) = s.amount1.toNat + worth1 s.pool.price.toNat s.positions := by
  obtain ⟨d', l1, l2, l3⟩ := C41_amounts hr
  rw [hd] at l1
  cases l1
  have w' := worth_nonneg s.pool.price.toNat s.positions
  have htot : total (entries s.positions) < 2 ^ 128 := by
    obtain ⟨h, hre, hsame⟩ := (runs_owns hr).pool
    have := (reachable_inv hre).cov.total_lt
    rw [hsame.total, total_append] at this
    have t2 : 0 ≤ total m := wsum_nonneg (runs_owns hr).nonneg (fun _ _ _ => by norm_num)
    omega
  obtain ⟨b0, b1⟩ := worth_lt (P := s.pool.price.toNat) (fun q hq => (C42_wellformed hr hq).2) htot
  omega

/-- C117: while the strategy keeps its positions and others trade, the amounts `GetAmounts` reports move with the price alone: at a
higher price it reports no more of token0 and no less of token1, at a lower price the reverse. -/
theorem C117_amounts {m m' : List Entry} {s t : Strat} {d g : U256 × U256} (hr : Runs m s) (hl : Later m s m' t)
    (hb : s.amount0.toNat < 2 ^ 255 ∧ s.amount1.toNat < 2 ^ 255) (hd : s.getAmounts = .ok d) (hg : t.getAmounts = .ok g) :
    (s.pool.price.toNat ≤ t.pool.price.toNat → g.1.toNat ≤ d.1.toNat ∧ d.2.toNat ≤ g.2.toNat) ∧
    (t.pool.price.toNat ≤ s.pool.price.toNat → d.1.toNat ≤ g.1.toNat ∧ g.2.toNat ≤ d.2.toNat) := by
  obtain ⟨ht, e1, e2, e3⟩ := later_runs hr hl
  obtain ⟨d0, d1⟩ := amounts_eq hr hb hd
  obtain ⟨g0, g1⟩ := amounts_eq ht (by rw [e2, e3]; exact hb) hg
  rw [e1, e2] at g0
  rw [e1, e3] at g1
  have hw : ∀ q ∈ s.positions, q.lower < q.upper ∧ -887272 ≤ q.lower ∧ q.upper ≤ 887272 := fun q hq => (C42_wellformed hr hq).2
  constructor <;> intro h <;> have := worth_price hw h <;> omega

/-- C117: back at the same price the same amounts are reported, whatever was traded and earned in between. -/
theorem C117_same {m m' : List Entry} {s t : Strat} {d g : U256 × U256} (hr : Runs m s) (hl : Later m s m' t)
    (hb : s.amount0.toNat < 2 ^ 255 ∧ s.amount1.toNat < 2 ^ 255) (hd : s.getAmounts = .ok d) (hg : t.getAmounts = .ok g)
    (hp : t.pool.price = s.pool.price) : g = d := by
  obtain ⟨h1, h2⟩ := C117_amounts hr hl hb hd hg
  obtain ⟨a, b⟩ := h1 (by rw [hp])
  obtain ⟨a', b'⟩ := h2 (by rw [hp])
  exact Prod.ext (ext_toNat (by omega)) (ext_toNat (by omega))

theorem convex_amounts {m m' : List Entry} {s t : Strat} {d g : U256 × U256} (hr : Runs m s) (ht : Runs m' t)
    (e1 : t.positions = s.positions) (e2 : t.amount0 = s.amount0) (e3 : t.amount1 = s.amount1)
    (hb : s.amount0.toNat < 2 ^ 255 ∧ s.amount1.toNat < 2 ^ 255) (hd : s.getAmounts = .ok d) (hg : t.getAmounts = .ok g) :
    valueOf t.pool.price g ≤ value t.pool.price.toNat (d.1.toNat + s.positions.length) (d.2.toNat + s.positions.length) := by
  obtain ⟨d0, d1⟩ := amounts_eq hr hb hd
  obtain ⟨g0, g1⟩ := amounts_eq ht (by rw [e2, e3]; exact hb) hg
  rw [e1, e2] at g0
  rw [e1, e3] at g1
  obtain ⟨q0, q1, q2, q3⟩ := cost_worth s.pool.price.toNat s.positions
  have := positions_convex s.pool.price.toNat t.pool.price.toNat (fun q hq => (C42_wellformed hr hq).2)
  have i0 : (s.amount0.toNat : Int) + cost0 s.pool.price.toNat s.positions ≤ d.1.toNat + s.positions.length := by omega
  have i1 : (s.amount1.toNat : Int) + cost1 s.pool.price.toNat s.positions ≤ d.2.toNat + s.positions.length := by omega
  have f0 : (s.amount0.toNat : ℚ) + (cost0 s.pool.price.toNat s.positions : Int) ≤ d.1.toNat + s.positions.length := by exact_mod_cast i0
  have f1 : (s.amount1.toNat : ℚ) + (cost1 s.pool.price.toNat s.positions : Int) ≤ d.2.toNat + s.positions.length := by exact_mod_cast i1
  have k0 : (g.1.toNat : ℚ) = s.amount0.toNat + (worth0 t.pool.price.toNat s.positions : Int) := by exact_mod_cast congrArg (Int.cast (R := ℚ)) g0
  have k1 : (g.2.toNat : ℚ) = s.amount1.toNat + (worth1 t.pool.price.toNat s.positions : Int) := by exact_mod_cast congrArg (Int.cast (R := ℚ)) g1
  unfold valueOf
  refine le_trans ?_ (value_mono f0 f1)
  rw [k0, k1, value_add, value_add]
  linarith

theorem value_price {P Q : Nat} (h : P ≤ Q) {x0 x1 : ℚ} (h0 : 0 ≤ x0) : value P x0 x1 ≤ value Q x0 x1 := by
  unfold value
  have k : (P : ℚ) ≤ Q := by exact_mod_cast h
  have : ((P : ℚ) / 2 ^ 96) ^ 2 ≤ ((Q : ℚ) / 2 ^ 96) ^ 2 :=
    pow_le_pow_left₀ (by positivity) (div_le_div_of_nonneg_right k (by positivity)) 2
  have := mul_le_mul_of_nonneg_left this h0
  linarith

theorem valueIn0_eq {P : Nat} (h : 0 < P) (x0 x1 : ℚ) : valueIn0 P x0 x1 * ((P : ℚ) / 2 ^ 96) ^ 2 = value P x0 x1 := by
  unfold valueIn0 value
  have : ((P : ℚ) / 2 ^ 96) ^ 2 ≠ 0 := by
    have : (0 : ℚ) < P := by exact_mod_cast h
    positivity
  rw [add_mul, div_mul_cancel₀ _ this]

theorem valueIn0_le {P : Nat} (h : 0 < P) {a b c d : ℚ} (hv : value P a b ≤ value P c d) : valueIn0 P a b ≤ valueIn0 P c d := by
  rw [← valueIn0_eq h, ← valueIn0_eq h] at hv
  have : (0 : ℚ) < ((P : ℚ) / 2 ^ 96) ^ 2 := by
    have : (0 : ℚ) < P := by exact_mod_cast h
    positivity
  exact le_of_mul_le_mul_right hv this

theorem valueIn0_price {P Q : Nat} (hP : 0 < P) (h : P ≤ Q) {x0 x1 : ℚ} (h1 : 0 ≤ x1) : valueIn0 Q x0 x1 ≤ valueIn0 P x0 x1 := by
  unfold valueIn0
  have p0 : (0 : ℚ) < P := by exact_mod_cast hP
  have k : (P : ℚ) ≤ Q := by exact_mod_cast h
  have e : ((P : ℚ) / 2 ^ 96) ^ 2 ≤ ((Q : ℚ) / 2 ^ 96) ^ 2 :=
    pow_le_pow_left₀ (by positivity) (div_le_div_of_nonneg_right k (by positivity)) 2
  have : x1 / ((Q : ℚ) / 2 ^ 96) ^ 2 ≤ x1 / ((P : ℚ) / 2 ^ 96) ^ 2 := div_le_div_of_nonneg_left h1 (by positivity) e
  linarith

theorem rises {m m' : List Entry} {s t : Strat} {d g : U256 × U256} (hr : Runs m s) (ht : Runs m' t)
    (e1 : t.positions = s.positions) (e2 : t.amount0 = s.amount0) (e3 : t.amount1 = s.amount1)
    (hb : s.amount0.toNat < 2 ^ 255 ∧ s.amount1.toNat < 2 ^ 255) (hd : s.getAmounts = .ok d) (hg : t.getAmounts = .ok g)
    (hp0 : 0 < s.pool.price.toNat) (hp : s.pool.price.toNat ≤ t.pool.price.toNat) :
    valueOf s.pool.price d ≤ value t.pool.price.toNat (g.1.toNat + s.positions.length) (g.2.toNat + s.positions.length) ∧
    valueIn0 t.pool.price.toNat g.1.toNat g.2.toNat ≤
      valueIn0 s.pool.price.toNat (d.1.toNat + s.positions.length) (d.2.toNat + s.positions.length) := by
  have c1 := convex_amounts hr ht e1 e2 e3 hb hd hg
  have c2 := convex_amounts ht hr e1.symm e2.symm e3.symm (by rw [e2, e3]; exact hb) hg hd
  rw [e1] at c2
  exact ⟨c2.trans (value_price hp (by positivity)), (valueIn0_le (by omega) c1).trans (valueIn0_price hp0 hp (by positivity))⟩

theorem price_pos {m : List Entry} {s : Strat} (hr : Runs m s) : 0 < s.pool.price.toNat := by
  obtain ⟨h, hre, _⟩ := (runs_owns hr).pool
  have hi := reachable_inv hre
  have h1 := hi.plo
  have h2 := ratioN_ge hi.tlo (by have := hi.thi; omega)
  omega

/-- C117: while the strategy keeps its positions and others trade, its reported holdings measured in token1 are worth no less at a
higher price, and measured in token0 no more; at a lower price the reverse.  (Up to one unit of each token per position.) -/
theorem C117_value {m m' : List Entry} {s t : Strat} {d g : U256 × U256} (hr : Runs m s) (hl : Later m s m' t)
    (hb : s.amount0.toNat < 2 ^ 255 ∧ s.amount1.toNat < 2 ^ 255) (hd : s.getAmounts = .ok d) (hg : t.getAmounts = .ok g) :
    (s.pool.price.toNat ≤ t.pool.price.toNat →
      valueOf s.pool.price d ≤ value t.pool.price.toNat (g.1.toNat + s.positions.length) (g.2.toNat + s.positions.length) ∧
      valueIn0 t.pool.price.toNat g.1.toNat g.2.toNat ≤
        valueIn0 s.pool.price.toNat (d.1.toNat + s.positions.length) (d.2.toNat + s.positions.length)) ∧
    (t.pool.price.toNat ≤ s.pool.price.toNat →
      valueOf t.pool.price g ≤ value s.pool.price.toNat (d.1.toNat + s.positions.length) (d.2.toNat + s.positions.length) ∧
      valueIn0 s.pool.price.toNat d.1.toNat d.2.toNat ≤
        valueIn0 t.pool.price.toNat (g.1.toNat + s.positions.length) (g.2.toNat + s.positions.length)) := by
  obtain ⟨ht, e1, e2, e3⟩ := later_runs hr hl
  refine ⟨fun h => rises hr ht e1 e2 e3 hb hd hg (price_pos hr) h, fun h => ?_⟩
  have := rises ht hr e1.symm e2.symm e3.symm (by rw [e2, e3]; exact hb) hg hd (price_pos ht) h
  rw [e1] at this
  exact this

theorem recorded_le {c e : U256 × U256} {P Q v w : U256} {n : Nat} (hv : Execution.usd c P = .ok v) (hw : Execution.usd e Q = .ok w)
    (hP : 0 < P.toNat) (hP' : P.toNat < 2 ^ 128) (hQ : 0 < Q.toNat) (hQ' : Q.toNat < 2 ^ 128)
    (bv : valueIn0 P.toNat c.1.toNat c.2.toNat < 2 ^ 256) (bw : valueIn0 Q.toNat e.1.toNat e.2.toNat < 2 ^ 256)
    (h : valueIn0 Q.toNat e.1.toNat e.2.toNat ≤ valueIn0 P.toNat (c.1.toNat + n) (c.2.toNat + n)) :
    (w.toNat : ℚ) ≤ v.toNat + 1 + valueIn0 P.toNat n n := by
  have k1 := C63_recorded hv hP hP' bv
  have k2 := C63_recorded hw hQ hQ' bw
  have f1 := Int.lt_floor_add_one (valueIn0 P.toNat c.1.toNat c.2.toNat)
  have f2 := Int.floor_le (valueIn0 Q.toNat e.1.toNat e.2.toNat)
  have g1 : ((v.toNat : Int) : ℚ) = (⌊valueIn0 P.toNat c.1.toNat c.2.toNat⌋ : Int) := congrArg (Int.cast (R := ℚ)) k1
  have g2 : ((w.toNat : Int) : ℚ) = (⌊valueIn0 Q.toNat e.1.toNat e.2.toNat⌋ : Int) := congrArg (Int.cast (R := ℚ)) k2
  rw [← g1] at f1
  rw [← g2] at f2
  have a : valueIn0 P.toNat (c.1.toNat + n) (c.2.toNat + n) = valueIn0 P.toNat c.1.toNat c.2.toNat + valueIn0 P.toNat n n := by
    unfold valueIn0; ring
  rw [a] at h
  push_cast at f1 f2
  linarith

/-- C117: the values a run records (`usd`, in token0) between two rebalances: `v` is recorded at `s`, `w` later at `t`.  At a higher
price no more is recorded and at a lower price no less, up to the rounding of one unit and of one unit of each token per
position. -/
theorem C117_recorded {m m' : List Entry} {s t : Strat} {d g : U256 × U256} {v w : U256} (hr : Runs m s) (hl : Later m s m' t)
    (hb : s.amount0.toNat < 2 ^ 255 ∧ s.amount1.toNat < 2 ^ 255) (hd : s.getAmounts = .ok d) (hg : t.getAmounts = .ok g)
    (hv : Execution.usd d s.pool.price = .ok v) (hw : Execution.usd g t.pool.price = .ok w)
    (hs : s.pool.price.toNat < 2 ^ 128) (ht : t.pool.price.toNat < 2 ^ 128)
    (bv : valueIn0 s.pool.price.toNat d.1.toNat d.2.toNat < 2 ^ 256) (bw : valueIn0 t.pool.price.toNat g.1.toNat g.2.toNat < 2 ^ 256) :
    (s.pool.price.toNat ≤ t.pool.price.toNat →
      (w.toNat : ℚ) ≤ v.toNat + 1 + valueIn0 s.pool.price.toNat s.positions.length s.positions.length) ∧
    (t.pool.price.toNat ≤ s.pool.price.toNat →
      (v.toNat : ℚ) ≤ w.toNat + 1 + valueIn0 t.pool.price.toNat s.positions.length s.positions.length) := by
  obtain ⟨h1, h2⟩ := C117_value hr hl hb hd hg
  have ps := price_pos hr
  have pt := price_pos (later_runs hr hl).1
  exact ⟨fun h => recorded_le hv hw ps hs pt ht bv bw (h1 h).2, fun h => recorded_le hw hv pt ht ps hs bw bv (h2 h).2⟩

theorem cap_position {Q : Nat} {l u : Int} (hl : -887272 ≤ l) (hlu : l < u) (hu : u ≤ 887272) :
    value Q (holding0 Q l u) (holding1 Q l u) ≤ value Q 0 (exact1 (tickPrice l) (tickPrice u) 1) ∧
    value Q (holding0 Q l u) (holding1 Q l u) ≤ value Q (exact0 (tickPrice l) (tickPrice u) 1) 0 := by
  have hlt : tickPrice l < tickPrice u := Strat.tickPrice_strict hl hlu hu
  have k1 := holding_convex (tickPrice u) (Q := Q) hl hlu hu
  have k2 := holding_convex (tickPrice l) (Q := Q) hl hlu hu
  constructor
  · refine k1.trans (le_of_eq ?_)
    unfold holding0 holding1
    rw [LiquidityAmounts.clamp_hi (le_refl _) hlt.le]
    have : exact0 (tickPrice u) (tickPrice u) 1 = 0 := by unfold exact0; simp
    rw [this]
  · refine k2.trans (le_of_eq ?_)
    unfold holding0 holding1
    rw [LiquidityAmounts.clamp_lo (le_refl _)]
    have : exact1 (tickPrice l) (tickPrice l) 1 = 0 := by unfold exact1; simp
    rw [this]

theorem cap_positions {Q : Nat} {ps : List StratPos} (hw : ∀ q ∈ ps, q.lower < q.upper ∧ -887272 ≤ q.lower ∧ q.upper ≤ 887272) :
    value Q (worth0 Q ps) (worth1 Q ps) ≤ value Q 0 (allIn1 ps) ∧ value Q (worth0 Q ps) (worth1 Q ps) ≤ value Q (allIn0 ps) 0 := by
  induction ps with
  | nil => unfold worth0 worth1 allIn0 allIn1; simp
  | cons q ps ih =>
    obtain ⟨i0, i1⟩ := ih (fun q hq => hw q (List.mem_cons_of_mem _ hq))
    obtain ⟨h1, h2, h3⟩ := hw q (List.mem_cons_self ..)
    obtain ⟨k0, k1⟩ := cap_position (Q := Q) h2 h1 h3
    have n0 : (0 : ℚ) ≤ (q.amount.toNat : ℚ) := Nat.cast_nonneg _
    have e1 : allIn1 (q :: ps) = q.amount.toNat * exact1 (tickPrice q.lower) (tickPrice q.upper) 1 + allIn1 ps := by
      unfold allIn1; rw [List.map_cons, List.sum_cons, exact1_smul]; push_cast; ring
    have e0 : allIn0 (q :: ps) = q.amount.toNat * exact0 (tickPrice q.lower) (tickPrice q.upper) 1 + allIn0 ps := by
      unfold allIn0; rw [List.map_cons, List.sum_cons, exact0_smul]; push_cast; ring
    have f0 := Int.floor_le (q.amount.toNat * holding0 Q q.lower q.upper)
    have f1 := Int.floor_le (q.amount.toNat * holding1 Q q.lower q.upper)
    have fl := (value_mono (P := Q) f0 f1).trans (le_of_eq (value_smul Q q.amount.toNat _ _))
    have m0 := mul_le_mul_of_nonneg_left k0 n0
    have m1 := mul_le_mul_of_nonneg_left k1 n0
    rw [← value_smul Q _ 0, mul_zero] at m0
    rw [← value_smul Q _ _ 0, mul_zero] at m1
    rw [worth0_cons, worth1_cons]
    push_cast
    rw [value_add]
    constructor
    · rw [e1]
      have := value_add Q 0 (q.amount.toNat * exact1 (tickPrice q.lower) (tickPrice q.upper) 1) 0 (allIn1 ps)
      rw [add_zero] at this
      rw [this]
      linarith
    · rw [e0]
      have := value_add Q (q.amount.toNat * exact0 (tickPrice q.lower) (tickPrice q.upper) 1) 0 (allIn0 ps) 0
      rw [add_zero] at this
      rw [this]
      linarith

/-- C117: the upside is capped.  Whatever the price, the reported holdings are worth at most the spare balances and the positions
converted entirely to token1, and at most the spare balances and the positions converted entirely to token0. -/
theorem C117_cap {m : List Entry} {s : Strat} {d : U256 × U256} (hr : Runs m s) (hd : s.getAmounts = .ok d) :
    valueOf s.pool.price d ≤ value s.pool.price.toNat s.amount0.toNat (s.amount1.toNat + allIn1 s.positions) ∧
    valueOf s.pool.price d ≤ value s.pool.price.toNat (s.amount0.toNat + allIn0 s.positions) s.amount1.toNat := by
  obtain ⟨d', l1, l2, l3⟩ := C41_amounts hr
  rw [hd] at l1
  cases l1
  obtain ⟨w0, w1⟩ := worth_nonneg s.pool.price.toNat s.positions
  have c0 : (d.1.toNat : Int) ≤ s.amount0.toNat + worth0 s.pool.price.toNat s.positions := by omega
  have c1 : (d.2.toNat : Int) ≤ s.amount1.toNat + worth1 s.pool.price.toNat s.positions := by omega
  have d0 : (d.1.toNat : ℚ) ≤ s.amount0.toNat + (worth0 s.pool.price.toNat s.positions : Int) := by exact_mod_cast c0
  have d1 : (d.2.toNat : ℚ) ≤ s.amount1.toNat + (worth1 s.pool.price.toNat s.positions : Int) := by exact_mod_cast c1
  obtain ⟨k0, k1⟩ := cap_positions (Q := s.pool.price.toNat) (fun q hq => (C42_wellformed hr hq).2)
  have h := value_mono (P := s.pool.price.toNat) d0 d1
  rw [value_add] at h
  unfold valueOf
  constructor
  · have := value_add s.pool.price.toNat s.amount0.toNat s.amount1.toNat 0 (allIn1 s.positions)
    rw [add_zero] at this
    rw [this]
    linarith
  · have := value_add s.pool.price.toNat s.amount0.toNat s.amount1.toNat (allIn0 s.positions) 0
    rw [add_zero] at this
    rw [this]
    linarith

/-! ### Instances -/

open StratDemo ValueDemo in
/-- The fill-up run: a purchase by somebody else raises the price; the strategy reports less of token0, more of token1, and a smaller
value in token0, although it has earned a fee of 230. -/
example : Runs m1 f2 ∧ Later m1 f2 m1 f3 ∧ f2.amount0.toNat < 2 ^ 255 ∧ f2.amount1.toNat < 2 ^ 255 ∧
    f2.pool.price.toNat < f3.pool.price.toNat ∧ f3.pool.price.toNat < 2 ^ 128 ∧
    f2.getAmounts = .ok (ofNat 999999, ofNat 1999998) ∧ f3.getAmounts = .ok (ofNat 923288, ofNat 2076745) ∧
    Execution.usd (ofNat 999999, ofNat 1999998) f2.pool.price = .ok (ofNat 2999997) ∧
    Execution.usd (ofNat 923288, ofNat 2076745) f3.pool.price = .ok (ofNat 2998127) ∧ f2.positions.length = 2 :=
  ⟨r2, later, by decide +kernel, by decide +kernel, by decide +kernel, by decide +kernel, by decide +kernel, by decide +kernel,
    by decide +kernel, by decide +kernel, by decide +kernel⟩

open StratDemo ValueDemo in
/-- Then somebody sells until the price is back: `GetAmounts` reports what it reported at first, and the fees are 230 of token1 and
some of token0. -/
example : ∃ t, Later m1 f2 m1 t ∧ t.pool.price = f2.pool.price ∧ t.getAmounts = .ok (ofNat 999999, ofNat 1999998) ∧
    fees1 t.pool t.positions = 230 ∧ 0 < fees0 t.pool t.positions := by
  have hgood : ¬ SearchBroken f3.pool.spacing f3.pool.tick := by
    rw [show f3.pool.spacing = 60 by decide +kernel, show f3.pool.tick = 9 by decide +kernel]
    rintro ⟨k, _, h2, h3⟩
    omega
  refine ⟨_, .trade 10 (.exactInput (ofNat 500000) f3.pool.token0 f2.pool.price) later ⟨by decide +kernel, fun _ => clear_good hgood⟩
    (eq_getOk _ (by decide +kernel)), by decide +kernel, by decide +kernel, by decide +kernel, by decide +kernel⟩

end Props
end Uni
