import Verif.Proofs.Main
import Verif.Props.Executor
import Verif.Props.Conversion
import Verif.Proofs.Decimal
/-! # C52-C55, C64-C68: `main.go` -/
namespace Uni.Props
open Main TickRound Spec

/-! ## C53 -/

/-- `IntPow(n, m)` is the `m`-th power reduced to a 64-bit signed number, for every `m ≥ 0` except the largest `int`
(after at most `m` iterations). -/
theorem C53_pow (n m : Int) (hn1 : -2 ^ 63 ≤ n) (hn2 : n < 2 ^ 63) (hm0 : 0 ≤ m) (hm : m < 2 ^ 63 - 1) (fuel : Nat)
    (hf : m ≤ fuel) :
    ∃ r, intPow fuel n m = .ok r ∧ r ≡ n ^ m.toNat [ZMOD 2 ^ 64] ∧ -2 ^ 63 ≤ r ∧ r < 2 ^ 63 ∧
      (-2 ^ 63 ≤ n ^ m.toNat → n ^ m.toNat < 2 ^ 63 → r = n ^ m.toNat) := by
  refine ⟨_, intPow_ok hn1 hn2 hm0 hm hf, ?_, ?_, ?_, ?_⟩
  · have := Int.bmod_emod (x := n ^ m.toNat) (m := 2 ^ 64)
    exact_mod_cast this
  · have := Int.le_bmod (x := n ^ m.toNat) (m := 2 ^ 64) (by norm_num)
    have e : -(((2 ^ 64 : Nat) : Int) / 2) = -2 ^ 63 := by norm_num
    omega
  · have := Int.bmod_lt (x := n ^ m.toNat) (m := 2 ^ 64) (by norm_num)
    have e : (((2 ^ 64 : Nat) : Int) + 1) / 2 = 2 ^ 63 := by norm_num
    omega
  · intro h1 h2
    apply Int.bmod_eq_of_le
    · exact le_trans (by norm_num) h1
    · exact lt_of_lt_of_le h2 (by norm_num)

example : intPow 16 2 16 = .ok 65536 := by decide +kernel
example : intPow 70 2 64 = .ok 0 := by decide +kernel
example : intPow 3 (-7) 3 = .ok (-343) := by decide +kernel

/-- A negative exponent returns `n` itself. -/
theorem C53_negative (n m : Int) (hm : m < 0) (fuel : Nat) (hf : 0 < fuel) : intPow fuel n m = .ok n := intPow_neg hm hf

/-- With the largest `int` as exponent the loop counter wraps and the loop never ends. -/
theorem C53_diverges (n : Int) (fuel : Nat) : intPow fuel n (2 ^ 63 - 1) = .error .fuel := by
  unfold intPow
  rw [if_neg (by norm_num)]
  exact powLoop_stuck n fuel 2 n (by norm_num)

/-! ## C55 -/

/-- The hourly series is the list of snapshots, the daily and weekly ones take every 24th and 168th of it, starting
with the first. -/
theorem C55_series (snapshots : List U256) :
    (sample snapshots).hourly = snapshots ∧ EveryNth 24 snapshots (sample snapshots).daily ∧
      EveryNth 168 snapshots (sample snapshots).weekly := sample_spec snapshots

example : (sample ((List.range 170).map fun i => U256.ofWord (BitVec.ofNat 64 i))).daily.length = 8 ∧
    (sample ((List.range 170).map fun i => U256.ofWord (BitVec.ofNat 64 i))).weekly =
      [U256.ofWord 0, U256.ofWord 168] := by decide +kernel

/-! ## C54 -/

/-- The maximum drawdown of two or more values with a positive first one, computed in float64, is a number between -1
and 0 which is the worst relative loss from an earlier to a later value up to an error of 2^-49; it is 0 exactly if no
value is followed by one with a smaller float64 value. -/
theorem C54_drawdown (v : U256) (vs : List U256) (h : vs ≠ []) (hv : 0 < v.toNat) :
    ∃ q, maximumDrawdown (v :: vs) = .ok (.fin q) ∧ -1 ≤ q ∧ q ≤ 0 ∧
      WorstLoss ((v :: vs).map U256.toNat) q (1 / 2 ^ 49) ∧
      (q = 0 ↔ ∀ (i j a b : Nat), i ≤ j → ((v :: vs).map U256.toNat)[i]? = some a →
        ((v :: vs).map U256.toNat)[j]? = some b → rnd (a : ℚ) ≤ rnd (b : ℚ)) := drawdown_spec h hv

/-- For values up to 2^53 a drawdown of 0 means exactly that the series never falls. -/
theorem C54_exact (v : U256) (vs : List U256) (h : vs ≠ []) (hv : 0 < v.toNat)
    (hsmall : ∀ x ∈ v :: vs, x.toNat ≤ 2 ^ 53) :
    maximumDrawdown (v :: vs) = .ok (.fin 0) ↔
      ∀ (i j : Nat) (a b : U256), i ≤ j → (v :: vs)[i]? = some a → (v :: vs)[j]? = some b → a.toNat ≤ b.toNat := by
  obtain ⟨q, h1, _, _, _, h5⟩ := drawdown_spec h hv
  constructor
  · intro h0 i j a b hij ha hb
    rw [h0] at h1
    have hq : q = 0 := by
      have := Except.ok.inj h1
      cases this
      rfl
    have := h5.1 hq i j a.toNat b.toNat hij (by rw [List.getElem?_map, ha]; rfl) (by rw [List.getElem?_map, hb]; rfl)
    rw [rnd_natCast (hsmall a (List.mem_of_getElem? ha)), rnd_natCast (hsmall b (List.mem_of_getElem? hb))] at this
    exact_mod_cast this
  · intro hall
    rw [h1]
    have : q = 0 := by
      apply h5.2
      intro i j a b hij ha hb
      rw [List.getElem?_map] at ha hb
      cases ha' : (v :: vs)[i]? with
      | none => rw [ha'] at ha; cases ha
      | some x =>
        cases hb' : (v :: vs)[j]? with
        | none => rw [hb'] at hb; cases hb
        | some y =>
          rw [ha'] at ha
          rw [hb'] at hb
          obtain rfl : x.toNat = a := Option.some.inj ha
          obtain rfl : y.toNat = b := Option.some.inj hb
          exact rnd_mono (by exact_mod_cast hall i j x y hij ha' hb')
    rw [this]

/-- Fewer than two values: 0. -/
theorem C54_short (vs : List U256) (h : vs.length ≤ 1) : maximumDrawdown vs = .ok (.fin 0) := by
  unfold maximumDrawdown
  rw [if_pos h]

/-- A first value of zero makes the drawdown NaN, whatever follows. -/
theorem C54_nan (v : U256) (vs : List U256) (h : vs ≠ []) (hv : v.toNat = 0) : maximumDrawdown (v :: vs) = .ok .nan :=
  drawdown_nan h hv

example : 0 < (U256.ofWord 2000000).toNat := by decide
/-- 3, 4, 1, 2: the drawdown is (1 - 4) / 4, which float64 represents exactly. -/
example : ∃ q, maximumDrawdown [U256.ofWord 3, U256.ofWord 4, U256.ofWord 1, U256.ofWord 2] = .ok (.fin q) ∧
    |q - (-3 / 4)| ≤ 1 / 2 ^ 48 := by
  obtain ⟨q, h1, h2, h3, ⟨h4, i, j, a, b, hij, ha, hb, hap, herr⟩, _⟩ :=
    C54_drawdown (U256.ofWord 3) [U256.ofWord 4, U256.ofWord 1, U256.ofWord 2] (by simp) (by decide)
  refine ⟨q, h1, ?_⟩
  have e : [U256.ofWord 3, U256.ofWord 4, U256.ofWord 1, U256.ofWord 2].map U256.toNat = [3, 4, 1, 2] := by
    decide +kernel
  rw [e] at h4 ha hb
  have up := h4 1 2 4 1 (by omega) rfl rfl (by omega)
  have low : (-3 / 4 : ℚ) ≤ change a b := by
    have hi : i < 4 := (List.getElem?_eq_some_iff.1 ha).1
    have hj : j < 4 := (List.getElem?_eq_some_iff.1 hb).1
    have ha' : a ≤ 4 := by
      have := List.mem_of_getElem? ha
      simp at this
      omega
    have hb' : 1 ≤ b := by
      have := List.mem_of_getElem? hb
      simp at this
      omega
    unfold change
    have haq : (0 : ℚ) < a := by exact_mod_cast hap
    rw [le_div_iff₀ haq]
    have h1 : (a : ℚ) ≤ 4 := by exact_mod_cast ha'
    have h2 : (1 : ℚ) ≤ b := by exact_mod_cast hb'
    linarith
  rw [abs_le] at herr ⊢
  have ee : change 4 1 = -3 / 4 := by unfold change; norm_num
  rw [ee] at up
  constructor
  · have : (1 : ℚ) / 2 ^ 49 ≤ 1 / 2 ^ 48 := by norm_num
    linarith [herr.1]
  · have : (1 : ℚ) / 2 ^ 49 ≤ 1 / 2 ^ 48 := by norm_num
    linarith

/-! ## C64-C66: statistics of log returns (over the real numbers) -/

/-- `calculateStd` is the sample standard deviation of the log returns; the radicand is never negative. -/
theorem C64_std (vs : List U256) (hpos : ∀ v ∈ vs, 0 < v.toNat) : StdOf (vs.map U256.toNat) (std vs) := by
  refine ⟨?_, ?_⟩
  · intro h
    rw [List.length_map] at h
    unfold std
    rw [if_pos h]
  · intro h
    rw [List.length_map] at h
    exact ⟨_, getReturns_spec vs hpos, std_spec vs h⟩

/-- The variance under the root is not negative, so the root is taken of a meaningful number. -/
theorem C64_nonneg (vs : List U256) (h : 3 ≤ vs.length) (rs : List ℝ) (hrs : LogReturns (vs.map U256.toNat) rs) :
    0 ≤ variance rs := by
  apply variance_nonneg
  have := hrs.1
  rw [List.length_map] at this
  omega

/-- `calculateDownDeviation` is the root of the mean of the squared negative log returns. -/
theorem C65_down (vs : List U256) (hpos : ∀ v ∈ vs, 0 < v.toNat) : DownOf (vs.map U256.toNat) (downDeviation vs) := by
  refine ⟨?_, ?_⟩
  · intro h
    rw [List.length_map] at h
    unfold downDeviation
    rw [if_pos h]
  · intro h
    rw [List.length_map] at h
    exact ⟨_, getReturns_spec vs hpos, down_spec vs h⟩

/-- It is zero exactly if no value is smaller than its predecessor. -/
theorem C65_zero (vs : List U256) (hpos : ∀ v ∈ vs, 0 < v.toNat) (h : 3 ≤ vs.length) :
    downDeviation vs = 0 ↔ ∀ (i : Nat) (a b : U256), vs[i]? = some a → vs[i + 1]? = some b → a.toNat ≤ b.toNat := by
  have hl : 1 ≤ (getReturns vs).length := by rw [getReturns_length]; omega
  have hnn : 0 ≤ lossSquare (getReturns vs) := by
    unfold lossSquare
    exact div_nonneg (sum_nonneg_sq _ _) (by positivity)
  rw [down_spec vs h, Real.sqrt_eq_zero hnn, lossSquare_zero _ hl]
  have hspec := getReturns_spec vs hpos
  constructor
  · intro hall i a b ha hb
    have hr := getReturns_get vs i a b ha hb
    have h0 := hall _ (List.mem_of_getElem? hr)
    have hap := hpos a (List.mem_of_getElem? ha)
    have hbp := hpos b (List.mem_of_getElem? hb)
    have haR : (0 : ℝ) < a.toNat := by exact_mod_cast hap
    have hbR : (0 : ℝ) < b.toNat := by exact_mod_cast hbp
    have h1 : (1 : ℝ) ≤ (b.toNat : ℝ) / a.toNat := (Real.log_nonneg_iff (div_pos hbR haR)).1 h0
    rw [le_div_iff₀ haR, one_mul] at h1
    exact_mod_cast h1
  · intro hall r hr
    obtain ⟨i, hi⟩ := List.getElem?_of_mem hr
    have hlt := (List.getElem?_eq_some_iff.1 hi).1
    rw [getReturns_length] at hlt
    have ha : vs[i]? = some vs[i] := List.getElem?_eq_getElem (by omega)
    have hb : vs[i + 1]? = some vs[i + 1] := List.getElem?_eq_getElem (by omega)
    rw [getReturns_get vs i _ _ ha hb] at hi
    obtain rfl := Option.some.inj hi
    have haR : (0 : ℝ) < (vs[i]).toNat := by exact_mod_cast hpos _ (List.mem_of_getElem? ha)
    apply Real.log_nonneg
    rw [le_div_iff₀ haR, one_mul]
    exact_mod_cast hall i _ _ ha hb

/-- `calculateVar` never panics and returns the 5% quantile of the log returns. -/
theorem C66_var (vs : List U256) (hpos : ∀ v ∈ vs, 0 < v.toNat) :
    ∃ x, var95 vs = .ok x ∧ VarOf (vs.map U256.toNat) x := by
  unfold var95
  by_cases h : vs.length ≤ 2
  · rw [if_pos h]
    refine ⟨0, rfl, fun _ => rfl, ?_⟩
    intro h3
    rw [List.length_map] at h3
    omega
  · rw [if_neg h]
    obtain ⟨x, h1, h2⟩ := entry95_spec (getReturns vs) (by rw [getReturns_length]; omega)
    refine ⟨x, h1, ?_, fun _ => ⟨_, getReturns_spec vs hpos, h2⟩⟩
    intro h3
    rw [List.length_map] at h3
    omega

example : ∀ v ∈ [U256.ofWord 3000000, U256.ofWord 2998127, U256.ofWord 2998354], 0 < v.toNat := by decide +kernel

/-! ## C67: the reported return -/

/-- The reported return is the relative change from the first to the last snapshot, up to float64 rounding, with the
right sign and at least -1; if the first snapshot is zero it is NaN or +Inf. -/
theorem C67_return (first last : U256) :
    (0 < first.toNat → ∃ q, roi last first = .fin q ∧
      |q - change first.toNat last.toNat| ≤ 1 / 2 ^ 50 * (1 + (last.toNat : ℚ) / first.toNat) ∧ -1 ≤ q ∧
      (first.toNat ≤ last.toNat → 0 ≤ q) ∧ (last.toNat ≤ first.toNat → q ≤ 0)) ∧
    (first.toNat = 0 → roi last first = if last.toNat = 0 then .nan else .inf false) :=
  ⟨roi_spec last first, roi_zero last first⟩

/-! ## C68: the report of a run -/

/-- The statistics of a report and the series they must be computed from. -/
structure ReportOk (hourly daily weekly : List Nat) (rep : RunResult) : Prop where
  stdHourly : StdOf hourly rep.stdHourly
  stdDaily : StdOf daily rep.stdDaily
  stdWeekly : StdOf weekly rep.stdWeekly
  ddHourly : DownOf hourly rep.ddHourly
  ddDaily : DownOf daily rep.ddDaily
  ddWeekly : DownOf weekly rep.ddWeekly
  varHourly : VarOf hourly rep.varHourly
  varDaily : VarOf daily rep.varDaily
  varWeekly : VarOf weekly rep.varWeekly

theorem everyNth_mem {α : Type} {k : Nat} {xs ys : List α} (h : EveryNth k xs ys) : ∀ y ∈ ys, y ∈ xs := by
  intro y hy
  obtain ⟨j, hj⟩ := List.getElem?_of_mem hy
  rw [h.1 j] at hj
  exact List.mem_of_getElem? hj

theorem everyNth_map {α β : Type} {k : Nat} {xs ys : List α} (f : α → β) (h : EveryNth k xs ys) :
    EveryNth k (xs.map f) (ys.map f) := by
  refine ⟨?_, ?_⟩
  · intro j
    rw [List.getElem?_map, List.getElem?_map, h.1 j]
  · rw [List.length_map, List.length_map]; exact h.2

theorem var95_total (vs : List U256) : ∃ x, var95 vs = .ok x := by
  unfold var95
  by_cases h : vs.length ≤ 2
  · rw [if_pos h]; exact ⟨0, rfl⟩
  · rw [if_neg h]
    obtain ⟨x, h1, _⟩ := entry95_spec (getReturns vs) (by rw [getReturns_length]; omega)
    exact ⟨x, h1⟩

theorem report_spec (snapshots : List U256) (first last : U256)
    (hf : snapshots[0]? = some first) (hl : snapshots[snapshots.length - 1]? = some last) (mul dur upd : Int) :
    ∃ rep, report snapshots mul dur upd = .ok rep ∧ rep.multiplierX10 = mul ∧ rep.historyWindow = dur ∧
      rep.updateInterval = upd ∧ DecCanonical rep.endAmount last.toNat ∧ rep.ret = roi last first ∧
      maximumDrawdown snapshots = .ok rep.maxDrawdown ∧
      ∃ daily weekly, EveryNth 24 (snapshots.map U256.toNat) daily ∧ EveryNth 168 (snapshots.map U256.toNat) weekly ∧
        ((∀ v ∈ snapshots, 0 < v.toNat) → ReportOk (snapshots.map U256.toNat) daily weekly rep) := by
  obtain ⟨h1, h2, h3⟩ := sample_spec snapshots
  have hlen : 0 < snapshots.length := (List.getElem?_eq_some_iff.1 hf).1
  have hdd : ∃ d, maximumDrawdown snapshots = .ok d := by
    cases snapshots with
    | nil => simp at hf
    | cons x xs =>
      by_cases hx : xs = []
      · subst hx; exact ⟨_, rfl⟩
      · exact ⟨_, maximumDrawdown_eq hx⟩
  obtain ⟨d, hd⟩ := hdd
  obtain ⟨v1, e1⟩ := var95_total snapshots
  obtain ⟨v2, e2⟩ := var95_total (sample snapshots).daily
  obtain ⟨v3, e3⟩ := var95_total (sample snapshots).weekly
  have hrep : report snapshots mul dur upd = .ok
      { endAmount := Dec.bigString (U256.toBig last), multiplierX10 := mul, historyWindow := dur, updateInterval := upd,
        ret := roi last first, stdHourly := std snapshots, stdDaily := std (sample snapshots).daily,
        stdWeekly := std (sample snapshots).weekly, ddHourly := downDeviation snapshots,
        ddDaily := downDeviation (sample snapshots).daily, ddWeekly := downDeviation (sample snapshots).weekly,
        maxDrawdown := d, varHourly := v1, varDaily := v2, varWeekly := v3 } := by
    unfold report
    dsimp only
    rw [h1, hd, e1, e2, e3]
    show createResult _ _ _ _ _ _ _ _ _ _ _ _ _ _ = _
    unfold createResult idx
    rw [if_pos (by omega), if_pos (by omega)]
    have e : ((snapshots.length : Int) - 1).toNat = snapshots.length - 1 := by omega
    rw [e, hl, show Int.toNat 0 = 0 from rfl, hf]
    rfl
  refine ⟨_, hrep, rfl, rfl, rfl, (C11_big last 0).1 ▸ Dec.bigString_canonical _, rfl, hd, _, _, everyNth_map _ h2, everyNth_map _ h3, ?_⟩
  intro hpos
  have hpd : ∀ v ∈ (sample snapshots).daily, 0 < v.toNat := fun v hv => hpos v (everyNth_mem h2 v hv)
  have hpw : ∀ v ∈ (sample snapshots).weekly, 0 < v.toNat := fun v hv => hpos v (everyNth_mem h3 v hv)
  have pick : ∀ (vs : List U256) (x : ℝ), (∀ v ∈ vs, 0 < v.toNat) → var95 vs = .ok x → VarOf (vs.map U256.toNat) x := by
    intro vs x hp hx
    obtain ⟨y, hy, hs⟩ := C66_var vs hp
    rw [hx] at hy
    rw [Except.ok.inj hy]
    exact hs
  exact { stdHourly := C64_std _ hpos, stdDaily := C64_std _ hpd, stdWeekly := C64_std _ hpw,
          ddHourly := C65_down _ hpos, ddDaily := C65_down _ hpd, ddWeekly := C65_down _ hpw,
          varHourly := pick _ _ hpos e1, varDaily := pick _ _ hpd e2, varWeekly := pick _ _ hpw e3 }

theorem run_snapshots {fuel : Nat} {e r : Execution} (h : e.run fuel = .ok r) : r.snapshots ≠ [] := by
  unfold Execution.run at h
  cases h1 : e.loop fuel e.transactions e.initial with
  | error x => rw [h1] at h; cases h
  | ok st =>
    rw [h1] at h
    cases h2 : st.strategy.burnAll with
    | error x =>
      have : (Except.error x : Go Execution) = .ok r := by
        rw [← h]; show _ = (st.strategy.burnAll >>= _); rw [h2]; rfl
      cases this
    | ok b =>
      cases h3 : Execution.usd b.1 b.2.pool.price with
      | error x =>
        have : (Except.error x : Go Execution) = .ok r := by
          rw [← h]; show _ = (st.strategy.burnAll >>= _); rw [h2]
          show _ = (Execution.usd b.1 b.2.pool.price >>= _); rw [h3]; rfl
        cases this
      | ok v =>
        have : (Except.ok { e with strategy := b.2, snapshots := st.snapshots ++ [v] } : Go Execution) = .ok r := by
          rw [← h]; show _ = (st.strategy.burnAll >>= _); rw [h2]
          show _ = (Execution.usd b.1 b.2.pool.price >>= _); rw [h3]; rfl
        rw [← Except.ok.inj this]
        simp

/-- Reporting a finished run never panics.  The report carries the given parameters, the decimal text of the last
snapshot, the return from the first to the last snapshot, the drawdown of all snapshots, and (for positive values) each
statistic computed from the series its name says: all snapshots, every 24th, every 168th. -/
theorem C68_report (fuel : Nat) (e r : Execution) (h : e.run fuel = .ok r) (mul dur upd : Int) :
    ∃ rep first last, runAndReport fuel e mul dur upd = .ok rep ∧
      r.snapshots.head? = some first ∧ r.snapshots.getLast? = some last ∧
      rep.multiplierX10 = mul ∧ rep.historyWindow = dur ∧
      rep.updateInterval = upd ∧ DecCanonical rep.endAmount last.toNat ∧ rep.ret = roi last first ∧
      maximumDrawdown r.snapshots = .ok rep.maxDrawdown ∧
      ∃ daily weekly, EveryNth 24 (r.snapshots.map U256.toNat) daily ∧
        EveryNth 168 (r.snapshots.map U256.toNat) weekly ∧
        ((∀ v ∈ r.snapshots, 0 < v.toNat) → ReportOk (r.snapshots.map U256.toNat) daily weekly rep) := by
  have hne := run_snapshots h
  have hlen := List.length_pos_iff.2 hne
  have hf : r.snapshots[0]? = some r.snapshots[0] := List.getElem?_eq_getElem hlen
  have hl : r.snapshots[r.snapshots.length - 1]? = some r.snapshots[r.snapshots.length - 1] :=
    List.getElem?_eq_getElem (by omega)
  obtain ⟨rep, h1, h2⟩ := report_spec r.snapshots _ _ hf hl mul dur upd
  refine ⟨rep, _, _, ?_, ?_, ?_, h2⟩
  · unfold runAndReport
    rw [h]
    exact h1
  · rw [List.head?_eq_getElem?]; exact hf
  · rw [List.getLast?_eq_getElem?]; exact hl

/-- The hypotheses are met by a run with a strategy, a mint, a swap and a burn: its three snapshots are positive. -/
example : ExecDemo.e0.run 10 = .ok ExecDemo.e1 ∧ ExecDemo.e1.snapshots.length = 3 ∧
    ∀ v ∈ ExecDemo.e1.snapshots, 0 < v.toNat :=
  ⟨ExecDemo.run1, by decide +kernel, by decide +kernel⟩

end Uni.Props
