import Verif.Spec.Periods
import Verif.Props.Divergence
import Verif.Props.Mark
/-! # C121: where the gains of a strategy come from -/
namespace Uni
namespace Props
open U256 Spec TickData TickMath FullMath _root_.Uni.Pool Strat Execution

theorem explained_append (ds : List Period) (d : Period) : explained (ds ++ [d]) = explained ds + (d.drift + d.income - d.loss) := by
  unfold explained
  rw [List.map_append, List.sum_append, List.map_singleton, List.sum_singleton]

theorem slack_append (ds : List Period) (d : Period) : slack (ds ++ [d]) = slack ds + d.rounding := by
  unfold slack
  rw [List.map_append, List.sum_append, List.map_singleton, List.sum_singleton]

theorem invests_runs {m : List Entry} {s s' : Strat} {fuel : Nat} {c : U256 × U256} (hr : Runs m s) (hx : Invests fuel s c s')
    (hf : Fits m s') (hns : ∀ w, s.kind ≠ .swapHalf w) : Runs m s' := by
  rcases hx with ⟨he, hx⟩ | hx
  · exact .init fuel hr hx hf (fun w h => absurd h (hns w))
  · exact .rebalance fuel hr hx hf (fun x e w h => absurd h (hns w))

theorem periods_state {c0 : U256 × U256} {P0 : U256} {ds : List Period} {m : List Entry} {s : Strat} {c : U256 × U256}
    (h : Periods c0 P0 ds m s c) : (∃ fuel s0, Runs m s0 ∧ (∀ w, s0.kind ≠ .swapHalf w) ∧ Invests fuel s0 c s ∧ Fits m s) ∧
      c.1.toNat < 2 ^ 255 ∧ c.2.toNat < 2 ^ 255 := by
  induction h with
  | first fuel hr hns hx hf hb hp => exact ⟨⟨fuel, _, hr, hns, hx, hf⟩, hb⟩
  | next fuel h hl hns hx hf hb hg ho hd ih =>
    obtain ⟨⟨f, s0, k1, k2, k3, k4⟩, _⟩ := ih
    exact ⟨⟨fuel, _, (later_runs (invests_runs k1 k3 k4 k2) hl).1, hns, Or.inr hx, hf⟩, hb⟩

/-- C121: from the first investment to the last one, the value of what the strategy holds changes by the market movement of its
capital, plus the fees, minus the divergence losses of its positions, summed over the periods; and nothing else, except that it
may lose up to two units of each token per position and period. -/
theorem C121_gain {c0 : U256 × U256} {P0 : U256} {ds : List Period} {m : List Entry} {s : Strat} {c : U256 × U256}
    (h : Periods c0 P0 ds m s c) :
    explained ds - slack ds ≤ valueOf s.pool.price c - valueOf P0 c0 ∧ valueOf s.pool.price c - valueOf P0 c0 ≤ explained ds := by
  induction h with
  | first fuel hr hns hx hf hb hp =>
    rw [hp]
    unfold explained slack
    simp
  | @next ds m m' s t s' c c' g fuel h hl hns hx hf hb hg ho hd ih =>
    obtain ⟨⟨f, s0, k1, k2, k3, k4⟩, kb⟩ := periods_state h
    have hr := invests_runs k1 k3 k4 k2
    obtain ⟨ht, _⟩ := later_runs hr hl
    obtain ⟨j1, j2⟩ := C120_hold k1 k3 k4 k2 hl hg kb
    obtain ⟨s1, hburn⟩ := C87_rebalance_needs hx
    obtain ⟨e0, e1⟩ := C41_burnAll ht hburn hg hd
    rw [Nat.mod_eq_of_lt ho.1] at e0
    rw [Nat.mod_eq_of_lt ho.2] at e1
    obtain ⟨_, _, _, _, _, _, _, _, _, _, _, _, _, h9⟩ := C39_rebalance ht hx hf (fun w h => absurd h (hns w))
    obtain ⟨_, _, hp, _⟩ := h9 hns
    have eb : valueOf t.pool.price c' = valueOf t.pool.price g + value t.pool.price.toNat (fees0 t.pool t.positions) (fees1 t.pool t.positions) := by
      unfold valueOf
      rw [e0, e1, Nat.cast_add, Nat.cast_add, value_add]
    rw [hp, eb, explained_append, slack_append]
    unfold Period.drift Period.income Period.loss Period.rounding
    dsimp only
    constructor <;> linarith [ih.1, ih.2]

/-- C121: the same for what `GetAmounts` reports at any later time before the next rebalance: the market movement of the current
capital and the divergence of the current positions come in addition; the fees not yet collected do not count. -/
theorem C121_now {c0 : U256 × U256} {P0 : U256} {ds : List Period} {m m' : List Entry} {s t : Strat} {c g : U256 × U256}
    (h : Periods c0 P0 ds m s c) (hl : Later m s m' t) (hg : t.getAmounts = .ok g) :
    let d : Period := ⟨c, s.pool.price, t.pool.price, s.positions, 0, 0⟩
    explained ds - slack ds + (d.drift - d.loss - d.rounding) ≤ valueOf t.pool.price g - valueOf P0 c0 ∧
    valueOf t.pool.price g - valueOf P0 c0 ≤ explained ds + (d.drift - d.loss) := by
  obtain ⟨⟨f, s0, k1, k2, k3, k4⟩, kb⟩ := periods_state h
  obtain ⟨j1, j2⟩ := C120_hold k1 k3 k4 k2 hl hg kb
  obtain ⟨g1, g2⟩ := C121_gain h
  intro d
  unfold d Period.drift Period.loss Period.rounding
  dsimp only
  constructor <;> linarith

theorem explained0_append (ds : List Period) (d : Period) :
    explained0 (ds ++ [d]) = explained0 ds + (d.drift0 + d.income / rate d.stop - d.loss / rate d.stop) := by
  unfold explained0
  rw [List.map_append, List.sum_append, List.map_singleton, List.sum_singleton]

theorem slack0_append (ds : List Period) (d : Period) : slack0 (ds ++ [d]) = slack0 ds + d.rounding / rate d.stop := by
  unfold slack0
  rw [List.map_append, List.sum_append, List.map_singleton, List.sum_singleton]

theorem valueOf0_eq {P : U256} (h : 0 < P.toNat) (c : U256 × U256) : 0 < rate P ∧ valueOf0 P c = valueOf P c / rate P := by
  have hr : 0 < rate P := by
    unfold rate
    have : (0 : ℚ) < P.toNat := by exact_mod_cast h
    positivity
  refine ⟨hr, ?_⟩
  rw [eq_div_iff hr.ne']
  exact valueIn0_eq h _ _

/-- Dividing bounds by the price. -/
theorem gap_rate {a b D R r : ℚ} (hr : 0 < r) (h1 : D ≤ a - b) (h2 : a - b ≤ D + R) : D / r ≤ a / r - b / r ∧ a / r - b / r ≤ D / r + R / r := by
  rw [← sub_div, ← add_div]
  exact ⟨(div_le_div_iff_of_pos_right hr).2 h1, (div_le_div_iff_of_pos_right hr).2 h2⟩

/-- C121: `C121_gain` with all values in token0. -/
theorem C121_token0 {c0 : U256 × U256} {P0 : U256} {ds : List Period} {m : List Entry} {s : Strat} {c : U256 × U256}
    (h : Periods c0 P0 ds m s c) :
    explained0 ds - slack0 ds ≤ valueOf0 s.pool.price c - valueOf0 P0 c0 ∧ valueOf0 s.pool.price c - valueOf0 P0 c0 ≤ explained0 ds := by
  induction h with
  | first fuel hr hns hx hf hb hp =>
    rw [hp]
    unfold explained0 slack0
    simp
  | @next ds m m' s t s' c c' g fuel h hl hns hx hf hb hg ho hd ih =>
    obtain ⟨⟨f, s0, k1, k2, k3, k4⟩, kb⟩ := periods_state h
    have hr := invests_runs k1 k3 k4 k2
    obtain ⟨ht, _⟩ := later_runs hr hl
    obtain ⟨j1, j2⟩ := C120_hold k1 k3 k4 k2 hl hg kb
    obtain ⟨s1, hburn⟩ := C87_rebalance_needs hx
    obtain ⟨e0, e1⟩ := C41_burnAll ht hburn hg hd
    rw [Nat.mod_eq_of_lt ho.1] at e0
    rw [Nat.mod_eq_of_lt ho.2] at e1
    obtain ⟨_, _, _, _, _, _, _, _, _, _, _, _, _, h9⟩ := C39_rebalance ht hx hf (fun w h => absurd h (hns w))
    obtain ⟨_, _, hp, _⟩ := h9 hns
    have eb : valueOf t.pool.price c' = valueOf t.pool.price g + value t.pool.price.toNat (fees0 t.pool t.positions) (fees1 t.pool t.positions) := by
      unfold valueOf
      rw [e0, e1, Nat.cast_add, Nat.cast_add, value_add]
    have hpos := price_pos ht
    obtain ⟨hrate, ec⟩ := valueOf0_eq hpos c
    have ec' := (valueOf0_eq hpos c').2
    rw [eb, add_div] at ec'
    obtain ⟨i1, i2⟩ := gap_rate hrate j1 j2
    rw [hp, ec', explained0_append, slack0_append]
    unfold Period.drift0 Period.income Period.loss Period.rounding
    dsimp only
    rw [ec]
    constructor <;> linarith [ih.1, ih.2]

/-- A recorded value is at most the value in token0, and less than one unit smaller. -/
theorem recorded_floor {c : U256 × U256} {P v : U256} (h : v.toNat = usdValue c P) (h0 : 0 < P.toNat) (hP : P.toNat < 2 ^ 128)
    (hv : valueOf0 P c < 2 ^ 256) : (v.toNat : ℚ) ≤ valueOf0 P c ∧ valueOf0 P c < v.toNat + 1 := by
  have e := C63_value h0 hP hv
  rw [← h] at e
  have f1 := Int.floor_le (valueOf0 P c)
  have f2 := Int.lt_floor_add_one (valueOf0 P c)
  rw [show ⌊valueOf0 P c⌋ = (v.toNat : Int) from e.symm] at f1 f2
  exact_mod_cast And.intro f1 f2

/-- C121: the values a run records: `v` for the capital of the first investment, `w` for what `GetAmounts` reports at any time
after any number of rebalances. -/
theorem C121_recorded {c0 : U256 × U256} {P0 : U256} {ds : List Period} {m m' : List Entry} {s t : Strat} {c g : U256 × U256}
    {v w : U256} (h : Periods c0 P0 ds m s c) (hl : Later m s m' t) (hg : t.getAmounts = .ok g)
    (hv : v.toNat = usdValue c0 P0) (hw : w.toNat = usdValue g t.pool.price) (h0 : 0 < P0.toNat)
    (hs : P0.toNat < 2 ^ 128) (ht : t.pool.price.toNat < 2 ^ 128) (bv : valueOf0 P0 c0 < 2 ^ 256) (bw : valueOf0 t.pool.price g < 2 ^ 256) :
    let d : Period := ⟨c, s.pool.price, t.pool.price, s.positions, 0, 0⟩
    explained0 ds - slack0 ds + (d.drift0 - d.loss / rate d.stop - d.rounding / rate d.stop) - 1 < (w.toNat : ℚ) - v.toNat ∧
    (w.toNat : ℚ) - v.toNat < explained0 ds + (d.drift0 - d.loss / rate d.stop) + 1 := by
  obtain ⟨⟨f, s0, k1, k2, k3, k4⟩, kb⟩ := periods_state h
  have hr := invests_runs k1 k3 k4 k2
  obtain ⟨j1, j2⟩ := C120_hold k1 k3 k4 k2 hl hg kb
  obtain ⟨g1, g2⟩ := C121_token0 h
  have hpos := price_pos (later_runs hr hl).1
  obtain ⟨hrate, ec⟩ := valueOf0_eq hpos c
  have eg := (valueOf0_eq hpos g).2
  obtain ⟨i1, i2⟩ := gap_rate hrate j1 j2
  obtain ⟨v1, v2⟩ := recorded_floor hv h0 hs bv
  obtain ⟨w1, w2⟩ := recorded_floor hw hpos ht bw
  intro d
  unfold d Period.drift0 Period.loss Period.rounding
  dsimp only
  rw [ec]
  rw [eg] at w1 w2
  constructor <;> linarith

/-- C121: the last value of a run, for what the liquidation pays out: the current period counts like all others, with its fees. -/
theorem C121_close {c0 : U256 × U256} {P0 : U256} {ds : List Period} {m m' : List Entry} {s t t' : Strat} {c g b : U256 × U256}
    {v w : U256} (h : Periods c0 P0 ds m s c) (hl : Later m s m' t) (hg : t.getAmounts = .ok g) (hx : t.burnAll = .ok (b, t'))
    (hd : t.positions.Pairwise (fun q q' => posKey q.lower q.upper ≠ posKey q'.lower q'.upper))
    (ho : g.1.toNat + fees0 t.pool t.positions < 2 ^ 256 ∧ g.2.toNat + fees1 t.pool t.positions < 2 ^ 256)
    (hv : v.toNat = usdValue c0 P0) (hw : w.toNat = usdValue b t'.pool.price) (h0 : 0 < P0.toNat)
    (hs : P0.toNat < 2 ^ 128) (ht : t.pool.price.toNat < 2 ^ 128) (bv : valueOf0 P0 c0 < 2 ^ 256) (bw : valueOf0 t.pool.price b < 2 ^ 256) :
    let d : Period := ⟨c, s.pool.price, t.pool.price, s.positions, fees0 t.pool t.positions, fees1 t.pool t.positions⟩
    explained0 (ds ++ [d]) - slack0 (ds ++ [d]) - 1 < (w.toNat : ℚ) - v.toNat ∧ (w.toNat : ℚ) - v.toNat < explained0 (ds ++ [d]) + 1 := by
  obtain ⟨⟨f, s0, k1, k2, k3, k4⟩, kb⟩ := periods_state h
  have hr := (later_runs (invests_runs k1 k3 k4 k2) hl).1
  obtain ⟨j1, j2⟩ := C120_hold k1 k3 k4 k2 hl hg kb
  obtain ⟨g1, g2⟩ := C121_token0 h
  obtain ⟨e0, e1⟩ := C41_burnAll hr hx hg hd
  rw [Nat.mod_eq_of_lt ho.1] at e0
  rw [Nat.mod_eq_of_lt ho.2] at e1
  have eb : valueOf t.pool.price b = valueOf t.pool.price g + value t.pool.price.toNat (fees0 t.pool t.positions) (fees1 t.pool t.positions) := by
    unfold valueOf
    rw [e0, e1, Nat.cast_add, Nat.cast_add, value_add]
  have hpos := price_pos hr
  obtain ⟨hrate, ec⟩ := valueOf0_eq hpos c
  have eb' := (valueOf0_eq hpos b).2
  rw [eb, add_div] at eb'
  obtain ⟨i1, i2⟩ := gap_rate hrate j1 j2
  obtain ⟨v1, v2⟩ := recorded_floor hv h0 hs bv
  rw [(C40_pool hr hx).2.2.1] at hw
  obtain ⟨w1, w2⟩ := recorded_floor hw hpos ht bw
  intro d
  rw [explained0_append, slack0_append]
  unfold d Period.drift0 Period.income Period.loss Period.rounding
  dsimp only
  rw [ec]
  rw [eb'] at w1 w2
  constructor <;> linarith

/-- C121: no part of a loss is negative: a period never adds more than market movement and fees. -/
theorem C121_loss {c0 : U256 × U256} {P0 : U256} {ds : List Period} {m : List Entry} {s : Strat} {c : U256 × U256}
    (h : Periods c0 P0 ds m s c) : ∀ d ∈ ds, 0 ≤ d.loss := by
  induction h with
  | first => intro d hd; cases hd
  | @next ds m m' s t s' c c' g fuel h hl hns hx hf hb hg ho hd ih =>
    intro d hmem
    rcases List.mem_append.1 hmem with hmem | hmem
    · exact ih d hmem
    · rw [List.mem_singleton] at hmem
      subst hmem
      obtain ⟨⟨f, s0, k1, k2, k3, k4⟩, kb⟩ := periods_state h
      have hr := invests_runs k1 k3 k4 k2
      unfold Period.loss divergences
      dsimp only
      apply List.sum_nonneg
      intro x hx
      obtain ⟨q, hq, rfl⟩ := List.mem_map.1 hx
      obtain ⟨_, h1, h2, h3⟩ := C42_wellformed hr hq
      have hA := (Strat.tickPrice_bounds h2 (show q.lower ≤ 887272 by omega)).1
      exact (C120_sign (by omega) (Strat.tickPrice_strict h2 h1 h3)).1

/-- C121: over a period in which the price returns to where it was, only the fees count. -/
theorem C121_round {d : Period} (hp : d.stop = d.start) : d.drift = 0 ∧ d.loss = 0 := by
  unfold Period.drift Period.loss divergences divergence
  rw [hp]
  refine ⟨sub_self _, ?_⟩
  apply List.sum_eq_zero
  intro x hx
  obtain ⟨q, _, rfl⟩ := List.mem_map.1 hx
  rw [sub_self, zero_mul, mul_zero, zero_div]

theorem trace_periods {fuel : Nat} {es : List Event} {t t' : Strat} {vs : List U256} (ht : Trace fuel es t vs t') :
    ∀ {c0 c : U256 × U256} {P0 : U256} {ds : List Period} {m1 m : List Entry} {s : Strat}, Periods c0 P0 ds m1 s c → Later m1 s m t →
      AllWithin fuel m t es → Ordinary fuel t es → .init ∉ es →
      ∃ ds' m1' s' c', Periods c0 P0 ds' m1' s' c' ∧ Later m1' s' (othersLedger m es) t' := by
  induction ht with
  | nil => intro c0 c P0 ds m1 m s h1 h2 _ _ _; exact ⟨ds, m1, s, c, h1, h2⟩
  | @cons e es t t1 t' vs ws h ht ih =>
    intro c0 c P0 ds m1 m s h1 h2 hw ho hi
    have w1 := hw [] e es t [] rfl .nil
    have o1 := ho [] e es t [] rfl .nil
    have w2 : AllWithin fuel (othersLedger m [e]) t1 es := by
      intro pre ev post s2 us he hp
      have := hw (e :: pre) ev post s2 (vs ++ us) (by rw [he]; rfl) (.cons h hp)
      rw [show e :: pre = [e] ++ pre from rfl, othersLedger_append] at this
      exact this
    have o2 : Ordinary fuel t1 es := fun pre ev post s2 us he hp => ho (e :: pre) ev post s2 (vs ++ us) (by rw [he]; rfl) (.cons h hp)
    have i2 : .init ∉ es := fun k => hi (List.mem_cons_of_mem _ k)
    rw [show e :: es = [e] ++ es from rfl, othersLedger_append]
    cases e with
    | init => exact absurd (List.mem_cons_self ..) hi
    | price => exact ih h1 (.snapshot h2 h.1) w2 o2 i2
    | value => obtain ⟨_, _, _, rfl, _⟩ := h; exact ih h1 h2 w2 o2 i2
    | apply a =>
      obtain ⟨p', k, rfl, _⟩ := h
      unfold Applies at k
      split at k
      · rename_i op hop
        rw [ledger_some hop] at w2 ⊢
        exact ih h1 (.trade fuel op h2 (w1 op hop) k) w2 o2 i2
      · rename_i hop
        rw [ledger_none hop] at w2 ⊢
        subst k
        exact ih h1 h2 w2 o2 i2
    | rebalance =>
      obtain ⟨c1, k, _⟩ := h
      obtain ⟨hns, hd, hb, hg⟩ := o1 rfl
      cases c1 with
      | none =>
        rcases Strat.rebalance_eq k with ⟨_, _, rfl⟩ | ⟨_, c0, s1, _, _, he⟩
        · exact ih h1 h2 w2 o2 i2
        · cases he
      | some c1 =>
        obtain ⟨f1, _⟩ := w1 _ _ k
        obtain ⟨⟨f, s0, k1, k2, k3, k4⟩, kb⟩ := periods_state h1
        obtain ⟨g, eg, _⟩ := C41_amounts (later_runs (invests_runs k1 k3 k4 k2) h2).1
        exact ih (.next fuel h1 h2 hns k f1 (hb _ _ k) eg (hg _ eg) hd) .now w2 o2 i2

/-- C121: a run.  The strategy without positions calls `Init`, and the value `v` is recorded; the events `es` follow, and then the
value `w` is recorded.  There are periods such that the difference of the recorded values is explained by them. -/
theorem C121_run {fuel : Nat} {m : List Entry} {s t : Strat} {es : List Event} {v w : U256} {ws : List U256} (hr : Runs m s) (he : s.positions = [])
    (hns : ∀ w, s.kind ≠ .swapHalf w) (ht : Trace fuel (.init :: es) s (v :: ws) t) (hv : Event.value.Does fuel t [w] t)
    (hw : AllWithin fuel m s (.init :: es)) (ho : Ordinary fuel s (.init :: es)) (hi : .init ∉ es)
    (hb : s.amount0.toNat < 2 ^ 255 ∧ s.amount1.toNat < 2 ^ 255) (hs : s.pool.price.toNat < 2 ^ 128) (hq : t.pool.price.toNat < 2 ^ 128)
    (bv : valueOf0 s.pool.price (s.amount0, s.amount1) < 2 ^ 256) (bw : ∀ g, t.getAmounts = .ok g → valueOf0 t.pool.price g < 2 ^ 256) :
    ∃ ds m1 s1 c, Periods (s.amount0, s.amount1) s.pool.price ds m1 s1 c ∧ Later m1 s1 (othersLedger m es) t ∧
      let d : Period := ⟨c, s1.pool.price, t.pool.price, s1.positions, 0, 0⟩
      explained0 ds - slack0 ds + (d.drift0 - d.loss / rate d.stop - d.rounding / rate d.stop) - 1 < (w.toNat : ℚ) - v.toNat ∧
      (w.toNat : ℚ) - v.toNat < explained0 ds + (d.drift0 - d.loss / rate d.stop) + 1 := by
  generalize hvs : v :: ws = vs at ht
  generalize hes : Event.init :: es = es' at ht
  cases ht with
  | nil => cases hes
  | @cons e es1 _ s' _ us ws' h ht =>
    cases hes
    obtain ⟨c, v', hx, rfl, ev⟩ := h
    cases hvs
    obtain ⟨f1, f2⟩ := hw [] .init es s [] rfl .nil c s' hx
    obtain ⟨e1, new, x0, x1, p1, _, _, _, _, _, _, _, _, h9⟩ := C39_init hr hx f1 f2
    obtain ⟨_, _, hp, _⟩ := h9 hns
    subst e1
    have hd : Event.init.Does fuel s [v] s' := ⟨_, v, hx, rfl, ev⟩
    have k1 : Periods (s.amount0, s.amount1) s.pool.price [] m s' (s.amount0, s.amount1) := .first fuel hr hns (Or.inl ⟨he, hx⟩) f1 hb hp
    obtain ⟨ds, m1, s1, c, h1, h2⟩ := trace_periods ht k1 .now
      (fun pre ev post s2 us he hp => hw (.init :: pre) ev post s2 ([v] ++ us) (by rw [he]; rfl) (.cons hd hp))
      (fun pre ev post s2 us he hp => ho (.init :: pre) ev post s2 ([v] ++ us) (by rw [he]; rfl) (.cons hd hp)) hi
    obtain ⟨g, w', hg, _, e2, ew⟩ := hv
    cases e2
    rw [hp] at ev
    exact ⟨ds, m1, s1, c, h1, h2, C121_recorded h1 h2 hg ev ew (price_pos hr) hs hq bv (bw g hg)⟩

/-! ### The hypotheses are met -/

open StratDemo ValueDemo in
/-- The fill-up run from `Init` to its first `Rebalance`: market movement between 900 and 1000, fees of 230, a loss of about 35. -/
example : ∃ d, Periods (ofNat 1000000, ofNat 2000000) f2.pool.price [d] m1 f4 (ofNat 923288, ofNat 2076975) ∧
    d.income = 230 ∧ 35 < d.loss ∧ d.loss < 36 ∧ 900 < d.drift ∧ d.drift < 1000 := by
  have k : Periods (ofNat 1000000, ofNat 2000000) f2.pool.price [] m1 f2 (ofNat 1000000, ofNat 2000000) :=
    .first 10 r1 (fills (by decide +kernel)) (Or.inl ⟨by decide +kernel, by
      rw [e2, show i2.1 = (ofNat 1000000, ofNat 2000000) by decide +kernel]⟩) fits2 (by decide +kernel) rfl
  refine ⟨_, .next 10 k later (fills (by decide +kernel)) e4' fits4 (by decide +kernel)
    (show f3.getAmounts = .ok (ofNat 923288, ofNat 2076745) by decide +kernel) (by decide +kernel) distinct.1,
    by decide +kernel, by decide +kernel, by decide +kernel, by decide +kernel, by decide +kernel⟩

namespace PeriodsDemo
open StratDemo ValueDemo ExecDemo

theorem ordinary_cons {fuel : Nat} {s : Strat} {e : Event} {es : List Event}
    (h : e = .rebalance → (∀ w, s.kind ≠ .swapHalf w) ∧
      s.positions.Pairwise (fun q q' => posKey q.lower q.upper ≠ posKey q'.lower q'.upper) ∧
      (∀ c s', s.rebalance fuel = .ok (some c, s') → c.1.toNat < 2 ^ 255 ∧ c.2.toNat < 2 ^ 255) ∧
      (∀ g, s.getAmounts = .ok g → g.1.toNat + fees0 s.pool s.positions < 2 ^ 256 ∧ g.2.toNat + fees1 s.pool s.positions < 2 ^ 256))
    (ht : ∀ vs s1, e.Does fuel s vs s1 → Ordinary fuel s1 es) : Ordinary fuel s (e :: es) := by
  intro pre ev post s1 ws he hp hr
  cases hp with
  | nil => cases he; exact h hr
  | @cons x pre s t1 t2 vs us h1 h2 =>
    rw [List.cons_append] at he
    obtain rfl := (List.cons.inj he).1
    exact ht vs t1 h1 pre ev post _ us (List.cons.inj he).2 h2 hr

/-- The run of `ExecDemo` from `Init` on. -/
def es : List Event := [.apply (tx "Swap" 200 100000), .value, .rebalance, .apply (tx "Collect" 300 0)]

theorem swapTx : opOf (tx "Swap" 200 100000) f2.pool = some swapOp := by
  show (if 0 < zero.toInt then some (PoolOp.exactInput zero f2.pool.token0 zero)
    else if 0 < (ofNat 100000).toInt then some (PoolOp.exactInput (ofNat 100000) f2.pool.token1 zero) else none) = _
  rw [if_neg (by decide +kernel), if_pos (by decide +kernel), show f2.pool.token1 = "USDC" by decide +kernel]
  rfl

theorem doPrice : Event.Does 10 f0 [] f0 .price := ⟨price0, rfl⟩
theorem doMint : Event.Does 10 f0 [] f1 (.apply (tx "Mint" 100 0)) :=
  ⟨f1.pool, show mintOp.exec 10 f0.pool = .ok f1.pool from eq_getOk _ (by decide +kernel), rfl, rfl⟩

theorem allWithin : AllWithin 10 m1 f1 (.init :: es) := by
  intro pre ev post s1 ws he hp
  have hev : events = ([.price, .apply (tx "Mint" 100 0)] ++ pre) ++ ev :: post := by rw [List.append_assoc, ← he]; rfl
  have := within ([.price, .apply (tx "Mint" 100 0)] ++ pre) ev post s1 ([] ++ ([] ++ ws)) hev (Trace.cons doPrice (Trace.cons doMint hp))
  rw [othersLedger_append, show othersLedger [] [Event.price, .apply (tx "Mint" 100 0)] = m1 by decide +kernel] at this
  exact this

theorem applySwap : Event.Does 10 f2 [] f3 (.apply (tx "Swap" 200 100000)) := by
  refine ⟨f3.pool, ?_, rfl, rfl⟩
  unfold Applies
  rw [swapTx]
  exact eq_getOk _ (by decide +kernel)

theorem ordinary : Ordinary 10 f1 (.init :: es) := by
  refine ordinary_cons (fun h => by cases h) ?_
  rintro vs s1 ⟨c, v, h, _⟩
  rw [e2] at h
  obtain ⟨_, rfl⟩ := Prod.mk.inj (Except.ok.inj h)
  refine ordinary_cons (fun h => by cases h) ?_
  rintro vs s1 ⟨p', h, rfl, _⟩
  unfold Applies at h
  rw [swapTx] at h
  have h' : swapOp.exec 10 f2.pool = .ok p' := h
  rw [eq_getOk (swapOp.exec 10 f2.pool) (by decide +kernel)] at h'
  have hf3 : { f2 with pool := p' } = f3 := by rw [← Except.ok.inj h']; rfl
  rw [hf3]
  refine ordinary_cons (fun h => by cases h) ?_
  rintro vs s1 ⟨c, v, _, rfl, _⟩
  refine ordinary_cons (fun _ => ⟨fills (by decide +kernel), distinct.1, ?_, ?_⟩) ?_
  · intro c s' h
    rw [e4'] at h
    obtain ⟨e, _⟩ := Prod.mk.inj (Except.ok.inj h)
    cases e
    decide +kernel
  · intro g h
    rw [show f3.getAmounts = .ok (ofNat 923288, ofNat 2076745) by decide +kernel] at h
    cases h
    decide +kernel
  rintro vs s1 _
  refine ordinary_cons (fun h => by cases h) ?_
  rintro vs s1 _ pre ev post s2 ws he
  cases pre <;> cases he

theorem traced : Trace 10 (.init :: es) f1 [ofNat 3000000, ofNat 2998127] f4 := by
  refine .cons (vs := [ofNat 3000000]) ⟨i2.1, _, e2, rfl, by decide +kernel⟩ ?_
  refine .cons (vs := []) applySwap ?_
  refine .cons (vs := [ofNat 2998127]) ⟨(ofNat 923288, ofNat 2076745), _, by decide +kernel, rfl, rfl, by decide +kernel⟩ ?_
  refine .cons (vs := []) ⟨_, e4, rfl⟩ ?_
  refine .cons (vs := []) ⟨f4.pool, ?_, rfl, rfl⟩ .nil
  rfl

end PeriodsDemo

open StratDemo ValueDemo PeriodsDemo in
/-- The recorded values: 3000000 at `Init` and 2998354 after the first rebalance, at a higher price of token0. -/
example : Runs m1 f1 ∧ f1.positions = [] ∧ (∀ w, f1.kind ≠ .swapHalf w) ∧ Trace 10 (.init :: es) f1 (ofNat 3000000 :: [ofNat 2998127]) f4 ∧
    Event.value.Does 10 f4 [ofNat 2998354] f4 ∧ AllWithin 10 m1 f1 (.init :: es) ∧ Ordinary 10 f1 (.init :: es) ∧ .init ∉ es ∧
    f1.pool.price.toNat < 2 ^ 128 ∧ f4.pool.price.toNat < 2 ^ 128 ∧ valueOf0 f1.pool.price (f1.amount0, f1.amount1) < 2 ^ 256 ∧
    (∀ g, f4.getAmounts = .ok g → valueOf0 f4.pool.price g < 2 ^ 256) := by
  have hg : f4.getAmounts = .ok (ofNat 923287, ofNat 2076973) := by decide +kernel
  refine ⟨r1, by decide +kernel, fills (by decide +kernel), traced, ⟨_, _, hg, rfl, rfl, by decide +kernel⟩, allWithin, ordinary, ?_,
    by decide +kernel, by decide +kernel, by decide +kernel, ?_⟩
  · intro h
    unfold es at h
    simp at h
  · intro g h
    rw [hg] at h
    cases h
    decide +kernel

open StratDemo ValueDemo in
/-- The liquidation after the rebalance. -/
example : f4.burnAll = .ok (i5.1, f5) ∧ f4.positions.Pairwise (fun q q' => posKey q.lower q.upper ≠ posKey q'.lower q'.upper) ∧
    (ofNat 923287).toNat + fees0 f4.pool f4.positions < 2 ^ 256 ∧ (ofNat 2076973).toNat + fees1 f4.pool f4.positions < 2 ^ 256 ∧
    valueOf0 f4.pool.price i5.1 < 2 ^ 256 :=
  ⟨e5, distinct.2, by decide +kernel, by decide +kernel, by decide +kernel⟩

end Props
end Uni
