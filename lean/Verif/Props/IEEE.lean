import Verif.Proofs.IEEEReport
import Verif.Props.Stats64
import Verif.Props.TickRound
/-! # C110: the floating point of reports and tick rounding, in full IEEE 754 -/
namespace Uni.Props
open Main TickRound Spec

/-- Computed in IEEE 754, the numbers of a report are those of the simplified format, and each is NaN, infinite, `+0` or a
normal number far from the ends of the exponent range. -/
theorem C110_report (lg : ℚ → ℚ) (hlg : LogUlp lg) (hr : Rounded lg) (snapshots : List U256) (hm : snapshots.length ≤ 2 ^ 31)
    (mul dur upd : Int) :
    numbersB lg snapshots = (report64 lg snapshots mul dur upd).map (fun rep => rep.numbers.map ieee) ∧
    ∀ ns, numbersB lg snapshots = .ok ns → ∀ x ∈ ns, Normal 300 x := by
  by_cases hne : snapshots = []
  · subst hne
    have e : numbersB lg [] = .error .panic := rfl
    exact ⟨rfl, fun ns h => by rw [e] at h; cases h⟩
  obtain ⟨first, last, d, v1, v2, v3, f1, f2, f3, e1, e2, e3, hrep⟩ := report64_eq lg snapshots hne mul dur upd
  obtain ⟨h1, h2, h3⟩ := sample_spec snapshots
  have ld : (sample snapshots).daily.length ≤ 2 ^ 31 := by rw [h2.2]; omega
  have lw : (sample snapshots).weekly.length ≤ 2 ^ 31 := by rw [h3.2]; omega
  obtain ⟨a1, a2⟩ := IEEE.drawdown_eq' snapshots
  obtain ⟨b1, b2⟩ := IEEE.var_eq' hlg hr snapshots
  obtain ⟨c1, c2⟩ := IEEE.var_eq' hlg hr (sample snapshots).daily
  obtain ⟨d1, d2⟩ := IEEE.var_eq' hlg hr (sample snapshots).weekly
  obtain ⟨r1, r2⟩ := IEEE.roi_eq' last first
  obtain ⟨s1, s2⟩ := IEEE.std_eq' hlg hr snapshots hm
  obtain ⟨t1, t2⟩ := IEEE.std_eq' hlg hr (sample snapshots).daily ld
  obtain ⟨u1, u2⟩ := IEEE.std_eq' hlg hr (sample snapshots).weekly lw
  obtain ⟨w1, w2⟩ := IEEE.down_eq' hlg hr snapshots hm
  obtain ⟨x1, x2⟩ := IEEE.down_eq' hlg hr (sample snapshots).daily ld
  obtain ⟨y1, y2⟩ := IEEE.down_eq' hlg hr (sample snapshots).weekly lw
  have key : numbersB lg snapshots = .ok [ieee (roi last first), ieee d, ieee (std64 lg snapshots), ieee (std64 lg (sample snapshots).daily),
      ieee (std64 lg (sample snapshots).weekly), ieee (downDeviation64 lg snapshots), ieee (downDeviation64 lg (sample snapshots).daily),
      ieee (downDeviation64 lg (sample snapshots).weekly), ieee v1, ieee v2, ieee v3] := by
    have hlen := List.length_pos_iff.2 hne
    unfold numbersB
    dsimp only
    rw [h1, a1, b1, c1, d1, f3, e1, e2, e3, s1, t1, u1, w1, x1, y1]
    have i1 : idx snapshots (snapshots.length - 1) = .ok last := by
      unfold idx
      rw [if_pos (by omega), show ((snapshots.length : Int) - 1).toNat = snapshots.length - 1 by omega]
      rw [List.getLast?_eq_getElem?] at f2
      rw [f2]
    have i2 : idx snapshots 0 = .ok first := by
      unfold idx
      rw [if_pos (le_refl _), show Int.toNat 0 = 0 from rfl]
      rw [List.head?_eq_getElem?] at f1
      rw [f1]
    rw [i1, i2, ← r1]
    rfl
  refine ⟨by rw [key, hrep]; rfl, ?_⟩
  intro ns hns x hx
  rw [key] at hns
  rw [← Except.ok.inj hns] at hx
  simp only [List.mem_cons, List.not_mem_nil, or_false] at hx
  rcases hx with rfl | rfl | rfl | rfl | rfl | rfl | rfl | rfl | rfl | rfl | rfl
  · exact r2
  · exact a2 _ f3
  · exact s2
  · exact t2
  · exact u2
  · exact w2
  · exact x2
  · exact y2
  · exact b2 _ e1
  · exact c2 _ e2
  · exact d2 _ e3

/-- The same for a whole run of a strategy: the report is made, and IEEE 754 gives its numbers. -/
theorem C110_run (lg : ℚ → ℚ) (hlg : LogUlp lg) (hr : Rounded lg) (fuel : Nat) (e r : Execution) (h : e.run fuel = .ok r)
    (hm : r.snapshots.length ≤ 2 ^ 31) (mul dur upd : Int) :
    ∃ rep, runAndReport64 lg fuel e mul dur upd = .ok rep ∧ numbersB lg r.snapshots = .ok (rep.numbers.map ieee) := by
  obtain ⟨first, last, d, v1, v2, v3, f1, f2, f3, e1, e2, e3, hrep⟩ := report64_eq lg r.snapshots (run_snapshots h) mul dur upd
  refine ⟨_, by unfold runAndReport64; rw [h]; exact hrep, ?_⟩
  rw [(C110_report lg hlg hr r.snapshots hm mul dur upd).1, hrep]
  rfl

/-- The three ways to round a tick, computed in IEEE 754, for every tick and unit a Go `int` can hold. -/
theorem C110_ticks (x u : Int) (hx1 : -2 ^ 63 ≤ x) (hx2 : x < 2 ^ 63) (hu : 0 < u) (hu2 : u < 2 ^ 63) :
    roundB x u = round x u ∧ ceilB x u = ceil x u ∧ floorB x u = floor x u := by
  have hx : |x| ≤ 2 ^ 63 := abs_le.2 ⟨by omega, by omega⟩
  exact ⟨IEEE.round_eq' hx hu (by omega), IEEE.ceil_eq' hx hu (by omega), IEEE.floor_eq' hx hu (by omega)⟩

/-- C17 in IEEE 754. -/
theorem C110_rounding (x u : Int) (hx1 : -2 ^ 31 < x) (hx2 : x < 2 ^ 31) (hu : 0 < u) (hu2 : u ≤ 2 ^ 20) :
    (u ∣ floorB x u ∧ floorB x u ≤ x ∧ x < floorB x u + u) ∧
    (u ∣ ceilB x u ∧ ceilB x u - u < x ∧ x ≤ ceilB x u) ∧
    (u ∣ roundB x u ∧ 2 * |x - roundB x u| ≤ u ∧ (2 * |x - roundB x u| = u → |x| < |roundB x u|)) := by
  obtain ⟨h1, h2, h3⟩ := C110_ticks x u (by omega) (by omega) hu (by omega)
  rw [h1, h2, h3]
  exact C17_rounding x u hx1 hx2 hu hu2

/-! ### The hypotheses can be met -/

theorem rnd_rounded (r : ℚ) : ∃ m e : Int, |m| ≤ 2 ^ 53 ∧ rnd r = m * 2 ^ e := by
  rcases eq_or_ne r 0 with h | h
  · exact ⟨0, 0, by norm_num, by rw [h, rnd_zero]; simp⟩
  · refine ⟨roundEven (r / 2 ^ (Int.log 2 |r| - 52)), Int.log 2 |r| - 52, ?_, rfl⟩
    have h1 := (scaled (abs_pos.2 h)).2
    have h2 : |r / 2 ^ (Int.log 2 |r| - 52)| < 2 ^ 53 := by
      rw [abs_div, abs_of_pos (two_zpow_pos _)]; exact h1
    obtain ⟨h3, h4⟩ := abs_lt.1 h2
    refine abs_le.2 ⟨?_, ?_⟩
    · have := le_roundEven (q := r / 2 ^ (Int.log 2 |r| - 52)) (m := -2 ^ 53) (by push_cast; linarith)
      exact this
    · exact roundEven_le (by push_cast; linarith)

/-- There is a logarithm as Go documents it: a float64 within one unit in the last place. -/
theorem log_exists : ∃ lg : ℚ → ℚ, LogUlp lg ∧ Rounded lg := by
  have h : ∀ x : ℚ, ∃ y : ℚ, |((rnd y : ℚ) : ℝ) - Real.log x| ≤ |Real.log x| / 2 ^ 52 := by
    intro x
    by_cases h1 : Real.log (x : ℝ) = 0
    · exact ⟨0, by rw [h1, rnd_zero]; simp⟩
    · have hp := abs_pos.2 h1
      obtain ⟨y, y1, y2⟩ := exists_rat_btwn (show Real.log (x : ℝ) < Real.log x + |Real.log x| / 2 ^ 60 by
        have : 0 < |Real.log (x : ℝ)| / 2 ^ 60 := by positivity
        linarith)
      refine ⟨y, ?_⟩
      have e1 : |((rnd y : ℚ) : ℝ) - y| ≤ |(y : ℝ)| / 2 ^ 53 := by
        have := (Rat.cast_le (K := ℝ)).2 (rnd_err y)
        push_cast at this
        exact this
      have e2 : |(y : ℝ) - Real.log x| ≤ |Real.log x| / 2 ^ 60 := by
        rw [abs_of_pos (by linarith)]; linarith
      have e3 : |(y : ℝ)| ≤ |Real.log x| + |Real.log x| / 2 ^ 60 := by
        have := abs_sub_abs_le_abs_sub (y : ℝ) (Real.log x)
        linarith
      have e4 := abs_sub_le ((rnd y : ℚ) : ℝ) (y : ℝ) (Real.log x)
      have e5 : (|Real.log (x : ℝ)| + |Real.log x| / 2 ^ 60) / 2 ^ 53 + |Real.log x| / 2 ^ 60 ≤ |Real.log x| / 2 ^ 52 := by
        norm_num
        linarith
      have e6 : |(y : ℝ)| / 2 ^ 53 ≤ (|Real.log (x : ℝ)| + |Real.log x| / 2 ^ 60) / 2 ^ 53 :=
        div_le_div_of_nonneg_right e3 (by norm_num)
      linarith
  choose f hf using h
  exact ⟨fun x => rnd (f x), fun x _ => hf x, fun x => rnd_rounded (f x)⟩

/-- A run with three snapshots. -/
example : ∃ lg : ℚ → ℚ, LogUlp lg ∧ Rounded lg ∧
    ∃ rep, runAndReport64 lg 10 ExecDemo.e0 1 2 3 = .ok rep ∧ numbersB lg ExecDemo.e1.snapshots = .ok (rep.numbers.map ieee) := by
  obtain ⟨lg, h1, h2⟩ := log_exists
  exact ⟨lg, h1, h2, C110_run lg h1 h2 10 ExecDemo.e0 ExecDemo.e1 ExecDemo.run1 (by decide +kernel) 1 2 3⟩

/-- The full format is not the simplified one: products can overflow, vanish, or be a negative zero. -/
example : B64.mul (.num (2 ^ 600)) (.num (2 ^ 600)) = .inf false ∧ F64.mul (.fin (2 ^ 600)) (.fin (2 ^ 600)) = .fin (2 ^ 1200) ∧
    B64.mul (.num (-2 ^ (-600 : Int))) (.num (2 ^ (-600 : Int))) = .zero true ∧
    B64.mul (.zero false) (.num (-1)) = .zero true := by
  refine ⟨by decide +kernel, ?_, by decide +kernel, rfl⟩
  show F64.fin (rnd (2 ^ 600 * 2 ^ 600)) = _
  rw [← pow_add]
  have := IEEE.rnd_two_pow 1200
  exact congrArg F64.fin (by exact_mod_cast this)

/-- Tick -887272 in units of 60. -/
example : floorB (-887272) 60 = -887280 ∧ ceilB (-887272) 60 = -887220 ∧ roundB (-887272) 60 = -887280 := by
  obtain ⟨h1, h2, h3⟩ := C110_ticks (-887272) 60 (by norm_num) (by norm_num) (by norm_num) (by norm_num)
  rw [h1, h2, h3, floor_eq (by norm_num) (by norm_num) (by norm_num) (by norm_num), ceil_eq (by norm_num) (by norm_num) (by norm_num) (by norm_num),
    round_neg_eq (by norm_num) (by norm_num) (by norm_num) (by norm_num)]
  decide

end Uni.Props
