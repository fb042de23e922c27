import Verif.Proofs.Stats64
import Verif.Props.Main
import Mathlib.Analysis.SpecialFunctions.Log.Deriv
/-! # C82, C83: the statistics in float64, and the results file -/
namespace Uni.Props
open Main TickRound Spec

/-! ## C82 -/

theorem logReturns_unique {vs : List Nat} {rs rs' : List ℝ} (h : LogReturns vs rs) (h' : LogReturns vs rs') : rs = rs' := by
  apply List.ext_getElem?
  intro i
  by_cases hi : i + 1 < vs.length
  · rw [h.2 i _ _ (List.getElem?_eq_getElem (by omega)) (List.getElem?_eq_getElem hi),
      h'.2 i _ _ (List.getElem?_eq_getElem (by omega)) (List.getElem?_eq_getElem hi)]
  · rw [List.getElem?_eq_none (by rw [h.1]; omega), List.getElem?_eq_none (by rw [h'.1]; omega)]

/-- The value at risk, computed in float64, is within `2^-44` of the 5% quantile of the log returns. -/
theorem C82_var (lg : ℚ → ℚ) (hlg : LogUlp lg) (vs : List U256) (hpos : ∀ v ∈ vs, 0 < v.toNat) :
    ∃ (q : ℚ) (v : ℝ), var95of64 lg vs = .ok (.fin q) ∧ VarOf (vs.map U256.toNat) v ∧ |(q : ℝ) - v| ≤ 1 / 2 ^ 44 := by
  by_cases h : vs.length ≤ 2
  · refine ⟨0, 0, ?_, ⟨fun _ => rfl, ?_⟩, by norm_num⟩
    · unfold var95of64; rw [if_pos h]
    · intro h3; rw [List.length_map] at h3; omega
  · obtain ⟨q, v, h1, h2, h3⟩ := var64_spec hlg hpos (by omega)
    refine ⟨q, v, h1, ⟨?_, fun _ => ⟨_, getReturns_spec vs hpos, h2⟩⟩, h3⟩
    intro h3; rw [List.length_map] at h3; omega

/-- The downward deviation, computed in float64, is within `2^-43` plus `n * 2^-51` of its own size of the exact one. -/
theorem C82_down (lg : ℚ → ℚ) (hlg : LogUlp lg) (vs : List U256) (hpos : ∀ v ∈ vs, 0 < v.toNat) (hm : vs.length ≤ 2 ^ 31) :
    ∃ (q : ℚ) (d : ℝ), downDeviation64 lg vs = .fin q ∧ 0 ≤ q ∧ DownOf (vs.map U256.toNat) d ∧
      |(q : ℝ) - d| ≤ 1 / 2 ^ 43 + vs.length / 2 ^ 51 * d := by
  by_cases h : vs.length ≤ 2
  · refine ⟨0, 0, ?_, le_refl _, ⟨fun _ => rfl, ?_⟩, by norm_num⟩
    · unfold downDeviation64; rw [if_pos h]
    · intro h3; rw [List.length_map] at h3; omega
  · obtain ⟨q, h1, h2, h3⟩ := down64_spec hlg hpos (by omega) hm
    refine ⟨q, _, h1, h2, ⟨?_, fun _ => ⟨_, getReturns_spec vs hpos, rfl⟩⟩, h3⟩
    intro h3; rw [List.length_map] at h3; omega

/-- The standard deviation, computed in float64, is within the tolerance of the exact one; it can be NaN, but only if the
exact one is itself within the tolerance of zero.  It is never infinite. -/
theorem C82_std (lg : ℚ → ℚ) (hlg : LogUlp lg) (vs : List U256) (hpos : ∀ v ∈ vs, 0 < v.toNat) (hm : vs.length ≤ 2 ^ 31)
    (rs : List ℝ) (hrs : LogReturns (vs.map U256.toNat) rs) :
    ∃ s : ℝ, StdOf (vs.map U256.toNat) s ∧
      ((std64 lg vs = .nan ∧ 3 ≤ vs.length ∧ s ≤ tolerance rs) ∨
        ∃ q : ℚ, std64 lg vs = .fin q ∧ 0 ≤ q ∧ |(q : ℝ) - s| ≤ tolerance rs) := by
  by_cases h : vs.length ≤ 2
  · refine ⟨0, ⟨fun _ => rfl, ?_⟩, Or.inr ⟨0, ?_, le_refl _, ?_⟩⟩
    · intro h3; rw [List.length_map] at h3; omega
    · unfold std64; rw [if_pos h]
    · have : 0 ≤ typical rs := Real.sqrt_nonneg _
      simp only [Rat.cast_zero, sub_self, abs_zero]
      unfold tolerance
      positivity
  · have e := logReturns_unique hrs (getReturns_spec vs hpos)
    refine ⟨_, ⟨?_, fun _ => ⟨_, getReturns_spec vs hpos, rfl⟩⟩, ?_⟩
    · intro h3; rw [List.length_map] at h3; omega
    · rw [e]
      rcases std64_spec hlg hpos (by omega) hm with ⟨a, b⟩ | h
      · exact Or.inl ⟨a, by omega, b⟩
      · exact Or.inr h

/-! ### The standard deviation of returns that are all alike -/

/-- The float64 next to the logarithm of two; `math.Log(2)` is that number. -/
def ln2 : ℚ := 6243314768165359 / 9007199254740992

theorem ln2_ulp : |((ln2 : ℚ) : ℝ) - Real.log 2| ≤ Real.log 2 / 2 ^ 52 := by
  have h := Real.abs_log_sub_add_sum_range_le (show |(1 / 2 : ℝ)| < 1 by rw [abs_of_pos] <;> norm_num) 60
  rw [show (1 : ℝ) - 1 / 2 = 1 / 2 by norm_num, show Real.log (1 / 2) = -Real.log 2 by rw [one_div, Real.log_inv]] at h
  have h2 := Real.log_two_gt_d9
  unfold ln2
  rw [abs_of_pos (by norm_num : (0 : ℝ) < 1 / 2)] at h
  norm_num [Finset.sum_range_succ] at h
  obtain ⟨a, b⟩ := abs_le.1 h
  rw [abs_le]
  push_cast
  constructor
  · norm_num; linarith
  · norm_num; linarith

/-- There are functions as accurate as `math.Log` must be. -/
theorem ulp_exists : ∃ lg : ℚ → ℚ, LogUlp lg ∧ lg 2 = ln2 := by
  have h : ∀ x : ℚ, ∃ y : ℚ, 0 < x → |(y : ℝ) - Real.log x| ≤ |Real.log x| / 2 ^ 52 ∧ (x = 2 → y = ln2) := by
    intro x
    by_cases h2 : x = 2
    · refine ⟨ln2, fun _ => ⟨?_, fun _ => rfl⟩⟩
      rw [h2]
      push_cast
      rw [abs_of_pos (Real.log_pos (by norm_num : (1 : ℝ) < 2))]
      exact ln2_ulp
    · by_cases h1 : Real.log (x : ℝ) = 0
      · exact ⟨0, fun _ => ⟨by rw [h1]; simp, fun h => absurd h h2⟩⟩
      · obtain ⟨y, y1, y2⟩ := exists_rat_btwn (show Real.log (x : ℝ) < Real.log x + |Real.log x| / 2 ^ 52 by
          have := abs_pos.2 h1
          have : 0 < |Real.log (x : ℝ)| / 2 ^ 52 := by positivity
          linarith)
        refine ⟨y, fun _ => ⟨?_, fun h => absurd h h2⟩⟩
        rw [abs_of_pos (by linarith)]
        linarith
  choose lg hlg using h
  exact ⟨lg, fun x hx => (hlg x hx).1, (hlg 2 (by norm_num)).2 rfl⟩

/-- A value that doubles at every snapshot: 1, 2, 4, ..., 2^21. -/
def doubling : List U256 := (List.range 22).map fun i => U256.ofWord (BitVec.ofNat 64 (2 ^ i))

/-- The quotients of neighbours. -/
def ratios : List U256 → List F64
  | [] => []
  | [_] => []
  | a :: b :: rest => F64.div (F64.ofNat b.toNat) (F64.ofNat a.toNat) :: ratios (b :: rest)

theorem returns_ratios (lg : ℚ → ℚ) (vs : List U256) : getReturns64 lg vs = (ratios vs).map (F64.log lg) := by
  induction vs with
  | nil => rfl
  | cons a rest ih =>
    cases rest with
    | nil => rfl
    | cons b rest => show _ :: _ = _ :: _; rw [ih]

theorem doubling_returns (lg : ℚ → ℚ) (h : lg 2 = ln2) : getReturns64 lg doubling = (List.replicate 21 ln2).map F64.fin := by
  rw [returns_ratios, show ratios doubling = List.replicate 21 (.fin 2) by decide +kernel, List.map_replicate, List.map_replicate]
  congr 1
  show (if (2 : ℚ) < 0 then F64.nan else if (2 : ℚ) = 0 then .inf true else .fin (lg 2)) = _
  rw [if_neg (by norm_num), if_neg (by norm_num), h]

/-- NaN does occur: for a value that doubles at every snapshot the exact standard deviation of the returns is zero, and
the reported one is not a number. -/
theorem C82_nan (lg : ℚ → ℚ) (h : lg 2 = ln2) : StdOf (doubling.map U256.toNat) 0 ∧ std64 lg doubling = .nan := by
  constructor
  · have hpos : ∀ v ∈ doubling, 0 < v.toNat := by decide +kernel
    have h := C64_std doubling hpos
    refine ⟨fun _ => rfl, fun h3 => ?_⟩
    obtain ⟨rs, h1, _⟩ := h.2 h3
    refine ⟨rs, h1, ?_⟩
    have hl : rs.length = 21 := by rw [h1.1]; decide +kernel
    have hr : rs = List.replicate 21 (Real.log 2) := by
      rw [List.eq_replicate_iff]
      refine ⟨hl, fun r hr => ?_⟩
      obtain ⟨i, hi⟩ := List.getElem?_of_mem hr
      have hi2 : i < 21 := by
        have := (List.getElem?_eq_some_iff.1 hi).1
        omega
      have v : ∀ j, j < 22 → (doubling.map U256.toNat)[j]? = some (2 ^ j) := by decide +kernel
      rw [h1.2 i _ _ (v i (by omega)) (v (i + 1) (by omega))] at hi
      rw [← Option.some.inj hi]
      push_cast
      rw [Real.log_pow, Real.log_pow]
      push_cast
      ring
    have hm : mean rs = Real.log 2 := by
      unfold mean
      rw [hr, List.sum_replicate, List.length_replicate]
      simp
    have hv : (rs.map fun r => (r - mean rs) ^ 2) = List.replicate 21 0 := by
      rw [hm, hr, List.map_replicate]
      simp
    unfold variance
    rw [hv, List.sum_replicate]
    simp
  · rw [std64_eq (doubling_returns lg h) (by decide +kernel) (by decide +kernel) (by decide +kernel)]
    have : var64 (List.replicate 21 ln2) < 0 := by decide +kernel
    unfold F64.sqrt
    dsimp only
    rw [if_pos this]

/-- Both are met at once by a logarithm that is accurate to one unit in the last place. -/
example : ∃ lg : ℚ → ℚ, LogUlp lg ∧ std64 lg doubling = .nan := by
  obtain ⟨lg, h1, h2⟩ := ulp_exists
  exact ⟨lg, h1, (C82_nan lg h2).2⟩

/-! ## C83: the results file -/

theorem var95of64_total (lg : ℚ → ℚ) (vs : List U256) : ∃ x, var95of64 lg vs = .ok x := by
  unfold var95of64
  by_cases h : vs.length ≤ 2
  · rw [if_pos h]; exact ⟨_, rfl⟩
  · rw [if_neg h]
    dsimp only
    have hl : (getReturns64 lg vs).length = vs.length - 1 := by
      clear h
      induction vs with
      | nil => rfl
      | cons a rest ih =>
        cases rest with
        | nil => rfl
        | cons b rest =>
          show (getReturns64 lg (b :: rest)).length + 1 = _
          rw [ih]; simp
    have hk : (0 : Int) ≤ Int.tdiv ((getReturns64 lg vs).length : Int) 20 := Int.tdiv_nonneg (by omega) (by norm_num)
    have hk2 : (Int.tdiv ((getReturns64 lg vs).length : Int) 20).toNat < (getReturns64 lg vs).length := by
      rw [Int.tdiv_eq_ediv_of_nonneg (by omega)]
      omega
    unfold idx
    rw [if_pos hk, List.getElem?_eq_getElem (by rw [List.length_insertionSort]; exact hk2)]
    exact ⟨_, rfl⟩

theorem report64_eq (lg : ℚ → ℚ) (snapshots : List U256) (hne : snapshots ≠ []) (mul dur upd : Int) :
    ∃ first last d v1 v2 v3, snapshots.head? = some first ∧ snapshots.getLast? = some last ∧ maximumDrawdown snapshots = .ok d ∧
      var95of64 lg snapshots = .ok v1 ∧ var95of64 lg (sample snapshots).daily = .ok v2 ∧ var95of64 lg (sample snapshots).weekly = .ok v3 ∧
      report64 lg snapshots mul dur upd = .ok
      { endAmount := Dec.bigString (U256.toBig last), multiplierX10 := mul, historyWindow := dur, updateInterval := upd,
        ret := roi last first, stdHourly := std64 lg snapshots, stdDaily := std64 lg (sample snapshots).daily,
        stdWeekly := std64 lg (sample snapshots).weekly, ddHourly := downDeviation64 lg snapshots,
        ddDaily := downDeviation64 lg (sample snapshots).daily, ddWeekly := downDeviation64 lg (sample snapshots).weekly,
        maxDrawdown := d, varHourly := v1, varDaily := v2, varWeekly := v3 } := by
  have hlen := List.length_pos_iff.2 hne
  have hf : snapshots[0]? = some snapshots[0] := List.getElem?_eq_getElem hlen
  have hl : snapshots[snapshots.length - 1]? = some snapshots[snapshots.length - 1] := List.getElem?_eq_getElem (by omega)
  obtain ⟨h1, h2, h3⟩ := sample_spec snapshots
  have hdd : ∃ d, maximumDrawdown snapshots = .ok d := by
    cases snapshots with
    | nil => exact absurd rfl hne
    | cons x xs =>
      by_cases hx : xs = []
      · subst hx; exact ⟨_, rfl⟩
      · exact ⟨_, maximumDrawdown_eq hx⟩
  obtain ⟨d, hd⟩ := hdd
  obtain ⟨v1, e1⟩ := var95of64_total lg snapshots
  obtain ⟨v2, e2⟩ := var95of64_total lg (sample snapshots).daily
  obtain ⟨v3, e3⟩ := var95of64_total lg (sample snapshots).weekly
  refine ⟨snapshots[0], snapshots[snapshots.length - 1], d, v1, v2, v3, ?_, ?_, hd, e1, e2, e3, ?_⟩
  · rw [List.head?_eq_getElem?]; exact hf
  · rw [List.getLast?_eq_getElem?]; exact hl
  · unfold report64
    dsimp only
    rw [h1, hd, e1, e2, e3]
    show createResult _ _ _ _ _ _ _ _ _ _ _ _ _ _ = _
    unfold createResult idx
    rw [if_pos (by omega), if_pos (by omega)]
    have e : ((snapshots.length : Int) - 1).toNat = snapshots.length - 1 := by omega
    rw [e, hl, show Int.toNat 0 = 0 from rfl, hf]
    rfl

/-- `x` is a number within `c` of `y`. -/
def Near (c : ℝ) (x : F64) (y : ℝ) : Prop := ∃ q : ℚ, x = .fin q ∧ |(q : ℝ) - y| ≤ c

/-- `x` is a number within the tolerance of the standard deviation `y`, or NaN if the tolerance is larger than `y`. -/
def StdNear (vs : List Nat) (x : F64) (y : ℝ) : Prop :=
  ∀ rs, LogReturns vs rs → Near (tolerance rs) x y ∨ (x = .nan ∧ y ≤ tolerance rs)

theorem stdOf_unique {vs : List Nat} {x y : ℝ} (h : StdOf vs x) (h' : StdOf vs y) : x = y := by
  by_cases hl : vs.length ≤ 2
  · rw [h.1 hl, h'.1 hl]
  · obtain ⟨rs, a, b⟩ := h.2 (by omega)
    obtain ⟨rs', a', b'⟩ := h'.2 (by omega)
    rw [b, b', logReturns_unique a a']

theorem downOf_unique {vs : List Nat} {x y : ℝ} (h : DownOf vs x) (h' : DownOf vs y) : x = y := by
  by_cases hl : vs.length ≤ 2
  · rw [h.1 hl, h'.1 hl]
  · obtain ⟨rs, a, b⟩ := h.2 (by omega)
    obtain ⟨rs', a', b'⟩ := h'.2 (by omega)
    rw [b, b', logReturns_unique a a']

theorem varOf_unique {vs : List Nat} {x y : ℝ} (h : VarOf vs x) (h' : VarOf vs y) : x = y := by
  by_cases hl : vs.length ≤ 2
  · rw [h.1 hl, h'.1 hl]
  · obtain ⟨rs, a, b⟩ := h.2 (by omega)
    obtain ⟨rs', a', b'⟩ := h'.2 (by omega)
    rw [← logReturns_unique a a'] at b'
    have same : List.Forall₂ (fun x y : ℝ => |x - y| ≤ 0) rs rs := by
      clear b b' a
      induction rs with
      | nil => exact .nil
      | cons r rs ih => exact .cons (by simp) ih
    have := rank_close same b b'
    have := abs_nonpos_iff.1 this
    linarith

theorem std_near {lg : ℚ → ℚ} (hlg : LogUlp lg) {vs : List U256} (hpos : ∀ v ∈ vs, 0 < v.toNat) (hm : vs.length ≤ 2 ^ 31) :
    StdNear (vs.map U256.toNat) (std64 lg vs) (std vs) := by
  intro rs hrs
  obtain ⟨s, h1, h2⟩ := C82_std lg hlg vs hpos hm rs hrs
  rw [stdOf_unique (C64_std vs hpos) h1]
  rcases h2 with ⟨a, _, b⟩ | ⟨q, a, _, b⟩
  · exact Or.inr ⟨a, b⟩
  · exact Or.inl ⟨q, a, b⟩

theorem down_near {lg : ℚ → ℚ} (hlg : LogUlp lg) {vs : List U256} (hpos : ∀ v ∈ vs, 0 < v.toNat) (hm : vs.length ≤ 2 ^ 31) :
    Near (1 / 2 ^ 43 + vs.length / 2 ^ 51 * downDeviation vs) (downDeviation64 lg vs) (downDeviation vs) := by
  obtain ⟨q, d, h1, _, h2, h3⟩ := C82_down lg hlg vs hpos hm
  rw [downOf_unique (C65_down vs hpos) h2]
  exact ⟨q, h1, h3⟩

theorem var_near {lg : ℚ → ℚ} (hlg : LogUlp lg) {vs : List U256} (hpos : ∀ v ∈ vs, 0 < v.toNat) {x : F64} {y : ℝ}
    (hx : var95of64 lg vs = .ok x) (hy : var95 vs = .ok y) : Near (1 / 2 ^ 44) x y := by
  obtain ⟨q, v, h1, h2, h3⟩ := C82_var lg hlg vs hpos
  obtain ⟨w, w1, w2⟩ := C66_var vs hpos
  rw [hx] at h1
  rw [hy] at w1
  rw [Except.ok.inj h1, Except.ok.inj w1, varOf_unique w2 h2]
  exact ⟨q, rfl, h3⟩

/-- The report of a run in float64 differs from the report with exact statistics (`C68_report`) only by the rounding of
the statistics. -/
theorem C82_report (lg : ℚ → ℚ) (hlg : LogUlp lg) (fuel : Nat) (e r : Execution) (h : e.run fuel = .ok r)
    (hpos : ∀ v ∈ r.snapshots, 0 < v.toNat) (hm : r.snapshots.length ≤ 2 ^ 31) (mul dur upd : Int) :
    ∃ x y daily weekly, runAndReport64 lg fuel e mul dur upd = .ok x ∧ runAndReport fuel e mul dur upd = .ok y ∧
      EveryNth 24 (r.snapshots.map U256.toNat) daily ∧ EveryNth 168 (r.snapshots.map U256.toNat) weekly ∧
      x.multiplierX10 = y.multiplierX10 ∧ x.historyWindow = y.historyWindow ∧ x.updateInterval = y.updateInterval ∧
      x.endAmount = y.endAmount ∧ x.ret = y.ret ∧ x.maxDrawdown = y.maxDrawdown ∧
      StdNear (r.snapshots.map U256.toNat) x.stdHourly y.stdHourly ∧ StdNear daily x.stdDaily y.stdDaily ∧
      StdNear weekly x.stdWeekly y.stdWeekly ∧
      Near (1 / 2 ^ 43 + r.snapshots.length / 2 ^ 51 * y.ddHourly) x.ddHourly y.ddHourly ∧
      Near (1 / 2 ^ 43 + daily.length / 2 ^ 51 * y.ddDaily) x.ddDaily y.ddDaily ∧
      Near (1 / 2 ^ 43 + weekly.length / 2 ^ 51 * y.ddWeekly) x.ddWeekly y.ddWeekly ∧
      Near (1 / 2 ^ 44) x.varHourly y.varHourly ∧ Near (1 / 2 ^ 44) x.varDaily y.varDaily ∧
      Near (1 / 2 ^ 44) x.varWeekly y.varWeekly := by
  have hne := run_snapshots h
  obtain ⟨first, last, d, v1, v2, v3, f1, f2, f3, e1, e2, e3, hrep⟩ := report64_eq lg r.snapshots hne mul dur upd
  obtain ⟨h1, h2, h3⟩ := sample_spec r.snapshots
  have hpd : ∀ v ∈ (sample r.snapshots).daily, 0 < v.toNat := fun v hv => hpos v (everyNth_mem h2 v hv)
  have hpw : ∀ v ∈ (sample r.snapshots).weekly, 0 < v.toNat := fun v hv => hpos v (everyNth_mem h3 v hv)
  have ld : (sample r.snapshots).daily.length ≤ 2 ^ 31 := by rw [h2.2]; omega
  have lw : (sample r.snapshots).weekly.length ≤ 2 ^ 31 := by rw [h3.2]; omega
  obtain ⟨w1, g1⟩ := var95_total r.snapshots
  obtain ⟨w2, g2⟩ := var95_total (sample r.snapshots).daily
  obtain ⟨w3, g3⟩ := var95_total (sample r.snapshots).weekly
  have hrep2 : report r.snapshots mul dur upd = .ok
      { endAmount := Dec.bigString (U256.toBig last), multiplierX10 := mul, historyWindow := dur, updateInterval := upd,
        ret := roi last first, stdHourly := std r.snapshots, stdDaily := std (sample r.snapshots).daily,
        stdWeekly := std (sample r.snapshots).weekly, ddHourly := downDeviation r.snapshots,
        ddDaily := downDeviation (sample r.snapshots).daily, ddWeekly := downDeviation (sample r.snapshots).weekly,
        maxDrawdown := d, varHourly := w1, varDaily := w2, varWeekly := w3 } := by
    have hlen := List.length_pos_iff.2 hne
    unfold report
    dsimp only
    rw [h1, f3, g1, g2, g3]
    show createResult _ _ _ _ _ _ _ _ _ _ _ _ _ _ = _
    unfold createResult idx
    rw [if_pos (by omega), if_pos (by omega)]
    have e : ((r.snapshots.length : Int) - 1).toNat = r.snapshots.length - 1 := by omega
    rw [List.head?_eq_getElem?] at f1
    rw [List.getLast?_eq_getElem?] at f2
    rw [e, f2, show Int.toNat 0 = 0 from rfl, f1]
    rfl
  refine ⟨_, _, _, _, by unfold runAndReport64; rw [h]; exact hrep, by unfold runAndReport; rw [h]; exact hrep2,
    everyNth_map _ h2, everyNth_map _ h3, rfl, rfl, rfl, rfl, rfl, rfl, std_near hlg hpos hm, std_near hlg hpd ld, std_near hlg hpw lw,
    down_near hlg hpos hm, ?_, ?_, var_near hlg hpos e1 g1, var_near hlg hpd e2 g2, var_near hlg hpw e3 g3⟩
  · rw [List.length_map]; exact down_near hlg hpd ld
  · rw [List.length_map]; exact down_near hlg hpw lw

/-- The returns of the series are spread more widely than the rounding can hide, or the series is too short to have a
standard deviation. -/
def Spread (vs : List Nat) : Prop :=
  vs.length ≤ 2 ∨ ∀ rs, LogReturns vs rs → tolerance rs < Real.sqrt (variance rs)

theorem std64_finite {lg : ℚ → ℚ} (hlg : LogUlp lg) {vs : List U256} (hpos : ∀ v ∈ vs, 0 < v.toNat) (hm : vs.length ≤ 2 ^ 31)
    (hs : Spread (vs.map U256.toNat)) : (std64 lg vs).Finite = true := by
  have hrs := getReturns_spec vs hpos
  obtain ⟨s, h1, h2⟩ := C82_std lg hlg vs hpos hm _ hrs
  rcases h2 with ⟨a, h3, b⟩ | ⟨q, a, _⟩
  · exfalso
    rcases hs with hs | hs
    · rw [List.length_map] at hs; omega
    · obtain ⟨rs, r1, r2⟩ := h1.2 (by rw [List.length_map]; exact h3)
      have := hs _ hrs
      rw [logReturns_unique r1 hrs] at r2
      linarith
  · rw [a]; rfl

theorem dd_finite {vs : List U256} (hne : vs ≠ []) (hpos : ∀ v ∈ vs, 0 < v.toNat) {d : F64} (h : maximumDrawdown vs = .ok d) : d.Finite = true := by
  cases vs with
  | nil => exact absurd rfl hne
  | cons x xs =>
    by_cases hx : xs = []
    · subst hx
      rw [C54_short _ (by simp)] at h
      rw [← Except.ok.inj h]; rfl
    · obtain ⟨q, h1, _⟩ := C54_drawdown x xs hx (hpos _ (List.mem_cons_self ..))
      rw [h] at h1
      rw [Except.ok.inj h1]; rfl

/-- If all snapshots of a run are positive and the returns of the three series are spread widely enough, all numbers of
its report are finite. -/
theorem C83_finite (lg : ℚ → ℚ) (hlg : LogUlp lg) (fuel : Nat) (e r : Execution) (h : e.run fuel = .ok r)
    (hpos : ∀ v ∈ r.snapshots, 0 < v.toNat) (hm : r.snapshots.length ≤ 2 ^ 31)
    (daily weekly : List Nat) (hd : EveryNth 24 (r.snapshots.map U256.toNat) daily) (hw : EveryNth 168 (r.snapshots.map U256.toNat) weekly)
    (s1 : Spread (r.snapshots.map U256.toNat)) (s2 : Spread daily) (s3 : Spread weekly) (mul dur upd : Int) :
    ∃ rep, runAndReport64 lg fuel e mul dur upd = .ok rep ∧ ∀ x ∈ rep.numbers, ∃ q : ℚ, x = .fin q := by
  have hne := run_snapshots h
  obtain ⟨first, last, d, v1, v2, v3, f1, f2, f3, e1, e2, e3, hrep⟩ := report64_eq lg r.snapshots hne mul dur upd
  obtain ⟨_, h2, h3⟩ := sample_spec r.snapshots
  have hpd : ∀ v ∈ (sample r.snapshots).daily, 0 < v.toNat := fun v hv => hpos v (everyNth_mem h2 v hv)
  have hpw : ∀ v ∈ (sample r.snapshots).weekly, 0 < v.toNat := fun v hv => hpos v (everyNth_mem h3 v hv)
  have uniq : ∀ {k : Nat} {xs ys zs : List Nat}, EveryNth k xs ys → EveryNth k xs zs → ys = zs := by
    intro k xs ys zs a b
    apply List.ext_getElem?
    intro i
    rw [a.1, b.1]
  rw [uniq hd (everyNth_map _ h2)] at s2
  rw [uniq hw (everyNth_map _ h3)] at s3
  have ld : (sample r.snapshots).daily.length ≤ 2 ^ 31 := by rw [h2.2]; omega
  have lw : (sample r.snapshots).weekly.length ≤ 2 ^ 31 := by rw [h3.2]; omega
  have pick : ∀ {vs : List U256} {x : F64}, (∀ v ∈ vs, 0 < v.toNat) → var95of64 lg vs = .ok x → x.Finite = true := by
    intro vs x hp hx
    obtain ⟨q, v, hq, _⟩ := C82_var lg hlg vs hp
    rw [hx] at hq
    rw [Except.ok.inj hq]; rfl
  have down : ∀ {vs : List U256}, (∀ v ∈ vs, 0 < v.toNat) → vs.length ≤ 2 ^ 31 → (downDeviation64 lg vs).Finite = true := by
    intro vs hp hl
    obtain ⟨q, d, hq, _⟩ := C82_down lg hlg vs hp hl
    rw [hq]; rfl
  have hroi : (roi last first).Finite = true := by
    obtain ⟨q, hq, _⟩ := (C67_return first last).1 (hpos _ (List.mem_of_head? f1))
    rw [hq]; rfl
  refine ⟨_, by unfold runAndReport64; rw [h]; exact hrep, ?_⟩
  intro x hx
  have fin : x.Finite = true := by
    simp only [RunResultOf.numbers, List.mem_cons, List.not_mem_nil, or_false] at hx
    rcases hx with rfl | rfl | rfl | rfl | rfl | rfl | rfl | rfl | rfl | rfl | rfl
    · exact hroi
    · exact dd_finite hne hpos f3
    · exact std64_finite hlg hpos hm s1
    · exact std64_finite hlg hpd ld s2
    · exact std64_finite hlg hpw lw s3
    · exact down hpos hm
    · exact down hpd ld
    · exact down hpw lw
    · exact pick hpos e1
    · exact pick hpd e2
    · exact pick hpw e3
  cases x with
  | fin q => exact ⟨q, rfl⟩
  | nan => cases fin
  | inf s => cases fin

theorem numbers_all (rep : RunResultOf F64) : rep.numbers.all F64.Finite = true ↔ ∀ x ∈ rep.numbers, ∃ q : ℚ, x = .fin q := by
  rw [List.all_eq_true]
  refine forall_congr' fun x => imp_congr_right fun _ => ?_
  cases x with
  | fin q => exact ⟨fun _ => ⟨q, rfl⟩, fun _ => rfl⟩
  | nan => exact ⟨fun h => absurd h (by decide), fun ⟨_, h⟩ => nomatch h⟩
  | inf s => exact ⟨fun h => absurd h Bool.false_ne_true, fun ⟨_, h⟩ => nomatch h⟩

/-- All or nothing: the file holds every result, in order, with the start amount and the two times, if all numbers of
all results are finite; otherwise it is empty. -/
theorem C83_all_or_nothing (results : List (RunResultOf F64)) (startTime endTime : Int) :
    ((∀ rep ∈ results, ∀ x ∈ rep.numbers, ∃ q : ℚ, x = .fin q) →
      ∃ file, saveFile results startTime endTime = some file ∧ file.results = results ∧ file.startAmount = "2000000" ∧
        file.startTime = startTime ∧ file.endTime = endTime) ∧
    ((∃ rep ∈ results, ∃ x ∈ rep.numbers, x = .nan ∨ ∃ s, x = .inf s) → saveFile results startTime endTime = none) := by
  unfold saveFile
  constructor
  · intro h
    rw [if_pos (List.all_eq_true.2 fun rep hr => (numbers_all rep).2 (h rep hr))]
    exact ⟨_, rfl, rfl, rfl, rfl, rfl⟩
  · rintro ⟨rep, hr, x, hx, hbad⟩
    rw [if_neg]
    intro hall
    obtain ⟨q, hq⟩ := (numbers_all rep).1 (List.all_eq_true.1 hall rep hr) x hx
    rcases hbad with h | ⟨s, h⟩ <;> (rw [hq] at h; cases h)

/-! ### A value of zero loses all results -/

theorem fold_inf (rs : List F64) :
    rs.foldl (fun sum r => if F64.lt r (.fin 0) then F64.add sum (F64.mul r r) else sum) (.inf false) = .inf false := by
  induction rs with
  | nil => rfl
  | cons r rs ih =>
    rw [List.foldl_cons]
    have : (if F64.lt r (.fin 0) then F64.add (.inf false) (F64.mul r r) else .inf false) = .inf false := by
      cases r with
      | nan => rfl
      | inf s => cases s <;> rfl
      | fin q => by_cases h : F64.lt (.fin q) (.fin 0) = true
                 · rw [if_pos h]; rfl
                 · rw [if_neg h]
    rw [this]
    exact ih

theorem fold_zero (lg : ℚ → ℚ) : ∀ (vs : List U256) (s : ℚ) (a : U256), 0 < a.toNat → (∃ v ∈ vs, v.toNat = 0) →
    (getReturns64 lg (a :: vs)).foldl (fun sum r => if F64.lt r (.fin 0) then F64.add sum (F64.mul r r) else sum) (.fin s) = .inf false := by
  intro vs
  induction vs with
  | nil => rintro s a _ ⟨v, hv, _⟩; cases hv
  | cons b rest ih =>
    rintro s a ha ⟨v, hv, hz⟩
    show List.foldl _ _ (F64.log lg (F64.div (F64.ofNat b.toNat) (F64.ofNat a.toNat)) :: getReturns64 lg (b :: rest)) = _
    rw [List.foldl_cons]
    have haQ : (0 : ℚ) < a.toNat := by exact_mod_cast ha
    have ediv : F64.div (F64.ofNat b.toNat) (F64.ofNat a.toNat) = .fin (rnd (rnd (b.toNat : ℚ) / rnd (a.toNat : ℚ))) := Main.div64 (rnd_pos haQ).ne'
    rw [ediv]
    by_cases hb : b.toNat = 0
    · rw [hb, Nat.cast_zero, rnd_zero, zero_div, rnd_zero]
      have : (if F64.lt (F64.log lg (.fin 0)) (.fin 0) then F64.add (.fin s) (F64.mul (F64.log lg (.fin 0)) (F64.log lg (.fin 0))) else .fin s) = .inf false := by
        have e : F64.log lg (.fin 0) = .inf true := by unfold F64.log; dsimp only; rw [if_neg (lt_irrefl _), if_pos rfl]
        rw [e]; rfl
      rw [this]
      exact fold_inf _
    · have hbQ : (0 : ℚ) < b.toNat := by exact_mod_cast Nat.pos_of_ne_zero hb
      have hp := rnd_pos (div_pos (rnd_pos hbQ) (rnd_pos haQ))
      have e : F64.log lg (.fin (rnd (rnd (b.toNat : ℚ) / rnd (a.toNat : ℚ)))) = .fin (lg (rnd (rnd (b.toNat : ℚ) / rnd (a.toNat : ℚ)))) := by
        unfold F64.log; dsimp only; rw [if_neg (not_lt.2 hp.le), if_neg hp.ne']
      rw [e]
      have hv' : ∃ v ∈ rest, v.toNat = 0 := by
        rcases List.mem_cons.1 hv with rfl | h
        · exact absurd hz hb
        · exact ⟨v, h, hz⟩
      set x := lg (rnd (rnd (b.toNat : ℚ) / rnd (a.toNat : ℚ)))
      by_cases hx : F64.lt (.fin x) (.fin 0) = true
      · rw [if_pos hx]
        exact ih _ b (Nat.pos_of_ne_zero hb) hv'
      · rw [if_neg hx]
        exact ih _ b (Nat.pos_of_ne_zero hb) hv'

/-- If one run has three or more snapshots and the value is zero in one of them, the file is empty: the results of all
runs are lost, and no error is reported. -/
theorem C83_zero (lg : ℚ → ℚ) (fuel : Nat) (e r : Execution) (h : e.run fuel = .ok r) (hl : 3 ≤ r.snapshots.length)
    (hz : ∃ v ∈ r.snapshots, v.toNat = 0) (mul dur upd : Int) (rep : RunResultOf F64)
    (hrep : runAndReport64 lg fuel e mul dur upd = .ok rep) (results : List (RunResultOf F64)) (hi : rep ∈ results) (startTime endTime : Int) :
    saveFile results startTime endTime = none := by
  have hne := run_snapshots h
  obtain ⟨first, last, d, v1, v2, v3, f1, f2, f3, e1, e2, e3, hok⟩ := report64_eq lg r.snapshots hne mul dur upd
  unfold runAndReport64 at hrep
  rw [h] at hrep
  have hrep : report64 lg r.snapshots mul dur upd = .ok rep := hrep
  rw [hok] at hrep
  apply (C83_all_or_nothing results startTime endTime).2
  refine ⟨_, hi, ?_⟩
  rw [← Except.ok.inj hrep]
  by_cases h0 : first.toNat = 0
  · refine ⟨roi last first, by simp [RunResultOf.numbers], ?_⟩
    rw [(C67_return first last).2 h0]
    split_ifs
    · exact Or.inl rfl
    · exact Or.inr ⟨_, rfl⟩
  · refine ⟨downDeviation64 lg r.snapshots, by simp [RunResultOf.numbers], Or.inr ⟨false, ?_⟩⟩
    unfold downDeviation64
    rw [if_neg (by omega)]
    dsimp only
    cases hs : r.snapshots with
    | nil => exact absurd hs hne
    | cons a rest =>
      rw [hs] at f1 hz hl
      obtain rfl := Option.some.inj f1
      have hz' : ∃ v ∈ rest, v.toNat = 0 := by
        obtain ⟨v, hv, hv0⟩ := hz
        rcases List.mem_cons.1 hv with rfl | hv
        · exact absurd hv0 h0
        · exact ⟨v, hv, hv0⟩
      rw [fold_zero lg rest 0 a (Nat.pos_of_ne_zero h0) hz']
      unfold F64.ofInt
      show F64.sqrt (.inf (xor false (decide (rnd _ < 0)))) = _
      rw [decide_eq_false (not_lt.2 (rnd_nonneg (by positivity)))]
      rfl

/-- Holding nothing: the value is zero in all three snapshots. -/
def poor : Execution := { ExecDemo.e0 with strategy := getOk (Strat.new .noProvision (U256.ofNat 0) (U256.ofNat 0) Demo.p0) (by decide +kernel) }
def poor1 : Execution := getOk (poor.run 10) (by decide +kernel)

example : poor.run 10 = .ok poor1 ∧ poor1.snapshots.length = 3 ∧ (∃ v ∈ poor1.snapshots, v.toNat = 0) :=
  ⟨eq_getOk _ _, by decide +kernel, by decide +kernel⟩

theorem pair_spread {a b : ℝ} (ha1 : -(1 / 1000) ≤ a) (ha2 : a ≤ -(1 / 2000)) (hb1 : 0 ≤ b) (hb2 : b ≤ 1 / 1000) :
    tolerance [a, b] < Real.sqrt (variance [a, b]) := by
  have hv : variance [a, b] = (a - b) ^ 2 / 2 := by
    unfold variance mean
    simp only [List.map_cons, List.map_nil, List.sum_cons, List.sum_nil, List.length_cons, List.length_nil]
    push_cast
    ring
  have h1 : typical [a, b] ≤ 1 / 500 := by
    unfold typical
    simp only [List.map_cons, List.map_nil, List.sum_cons, List.sum_nil, List.length_cons, List.length_nil]
    apply Real.sqrt_le_iff.2
    refine ⟨by norm_num, ?_⟩
    push_cast
    nlinarith
  have h2 : Real.sqrt ([a, b] : List ℝ).length ≤ 2 := by
    apply Real.sqrt_le_iff.2
    constructor <;> norm_num
  have h3 : 1 / 4000 ≤ Real.sqrt (variance [a, b]) := by
    apply Real.le_sqrt_of_sq_le
    rw [hv]
    nlinarith
  have t0 : 0 ≤ typical [a, b] := Real.sqrt_nonneg _
  unfold tolerance
  have : Real.sqrt ([a, b] : List ℝ).length / 2 ^ 23 * typical [a, b] ≤ 2 / 2 ^ 23 * (1 / 500) := by
    apply mul_le_mul _ h1 t0 (by positivity)
    exact div_le_div_of_nonneg_right h2 (by positivity)
  refine lt_of_lt_of_le ?_ h3
  refine lt_of_le_of_lt (add_le_add_right this _) ?_
  norm_num

/-- The run of `C68_report` is within the hypotheses of `C83_finite`. -/
example (lg : ℚ → ℚ) (hlg : LogUlp lg) : ∃ rep, runAndReport64 lg 10 ExecDemo.e0 1 2 3 = .ok rep ∧ ∀ x ∈ rep.numbers, ∃ q : ℚ, x = .fin q := by
  have e : ExecDemo.e1.snapshots.map U256.toNat = [3000000, 2998127, 2998354] := by decide +kernel
  refine C83_finite lg hlg 10 ExecDemo.e0 ExecDemo.e1 ExecDemo.run1 (by decide +kernel) (by decide +kernel) [3000000] [3000000] ?_ ?_ ?_
    (Or.inl (by decide)) (Or.inl (by decide)) 1 2 3
  · rw [e]
    refine ⟨fun j => ?_, rfl⟩
    cases j with
    | zero => rfl
    | succ j => rw [List.getElem?_eq_none (by simp), List.getElem?_eq_none (by simp; omega)]
  · rw [e]
    refine ⟨fun j => ?_, rfl⟩
    cases j with
    | zero => rfl
    | succ j => rw [List.getElem?_eq_none (by simp), List.getElem?_eq_none (by simp; omega)]
  · right
    intro rs h
    rw [e] at h
    have hl : rs.length = 2 := h.1
    obtain ⟨a, b, rfl⟩ := List.length_eq_two.1 hl
    have h1 : a = Real.log (2998127 : ℕ) - Real.log (3000000 : ℕ) := Option.some.inj (h.2 0 _ _ rfl rfl)
    have h2 : b = Real.log (2998354 : ℕ) - Real.log (2998127 : ℕ) := Option.some.inj (h.2 1 _ _ rfl rfl)
    push_cast at h1 h2
    rw [← Real.log_div (by norm_num) (by norm_num)] at h1 h2
    have l1 := Real.log_le_sub_one_of_pos (show (0 : ℝ) < 2998127 / 3000000 by norm_num)
    have l2 := Real.one_sub_inv_le_log_of_pos (show (0 : ℝ) < 2998127 / 3000000 by norm_num)
    have l3 := Real.log_le_sub_one_of_pos (show (0 : ℝ) < 2998354 / 2998127 by norm_num)
    have l4 := Real.one_sub_inv_le_log_of_pos (show (0 : ℝ) < 2998354 / 2998127 by norm_num)
    rw [← h1] at l1 l2
    rw [← h2] at l3 l4
    norm_num at l1 l2 l3 l4
    exact pair_spread (by linarith) (by linarith) (by linarith) (by linarith)

end Uni.Props
