import Verif.Props.Main
/-! # C105: the numbers of a report fit together -/
namespace Uni
namespace Props
open U256 Spec Main TickRound

/-- The two series are the same up to a change of the unit: `k` units of the first are worth `n` units of the second. -/
def SameUpToUnit (vs ws : List U256) : Prop :=
  vs.length = ws.length ∧ ∃ k n : Nat, 0 < k ∧ 0 < n ∧
    ∀ (i : Nat) (v w : U256), vs[i]? = some v → ws[i]? = some w → n * v.toNat = k * w.toNat

theorem unit_tail {v w : U256} {vs ws : List U256} (h : SameUpToUnit (v :: vs) (w :: ws)) : SameUpToUnit vs ws := by
  obtain ⟨h1, k, n, hk, hn, h2⟩ := h
  exact ⟨by simpa using h1, k, n, hk, hn, fun i x y hx hy => h2 (i + 1) x y (by simpa using hx) (by simpa using hy)⟩

theorem unit_symm {vs ws : List U256} (h : SameUpToUnit vs ws) : SameUpToUnit ws vs := by
  obtain ⟨h1, k, n, hk, hn, h2⟩ := h
  exact ⟨h1.symm, n, k, hn, hk, fun i x y hx hy => (h2 i y x hy hx).symm⟩

theorem unit_ratio {k n a b c d : Nat} (hk : 0 < k) (hn : 0 < n) (h1 : n * a = k * c) (h2 : n * b = k * d) :
    (b : ℝ) / a = (d : ℝ) / c := by
  have e1 : (n : ℝ) * a = k * c := by exact_mod_cast h1
  have e2 : (n : ℝ) * b = k * d := by exact_mod_cast h2
  have hk' : (k : ℝ) ≠ 0 := by exact_mod_cast hk.ne'
  have hn' : (n : ℝ) ≠ 0 := by exact_mod_cast hn.ne'
  calc (b : ℝ) / a = (n * b) / (n * a) := (mul_div_mul_left _ _ hn').symm
    _ = (k * d) / (k * c) := by rw [e1, e2]
    _ = d / c := mul_div_mul_left _ _ hk'

theorem unit_returns (vs : List U256) : ∀ ws, SameUpToUnit vs ws → getReturns vs = getReturns ws := by
  induction vs with
  | nil =>
    intro ws h
    cases ws with
    | nil => rfl
    | cons w ws => have := h.1; simp at this
  | cons v vs ih =>
    intro ws h
    cases ws with
    | nil => have := h.1; simp at this
    | cons w ws =>
      have ht := ih ws (unit_tail h)
      obtain ⟨h1, k, n, hk, hn, h2⟩ := h
      cases vs with
      | nil =>
        cases ws with
        | nil => rfl
        | cons _ _ => simp at h1
      | cons v' vs =>
        cases ws with
        | nil => simp at h1
        | cons w' ws =>
          show Real.log _ :: getReturns (v' :: vs) = Real.log _ :: getReturns (w' :: ws)
          rw [ht, unit_ratio hk hn (h2 0 v w rfl rfl) (h2 1 v' w' rfl rfl)]

theorem change_unit {vs ws : List U256} (h : SameUpToUnit vs ws) {i j a b : Nat} (ha : (vs.map U256.toNat)[i]? = some a)
    (hb : (vs.map U256.toNat)[j]? = some b) (h0 : 0 < a) : ∃ c d, (ws.map U256.toNat)[i]? = some c ∧ (ws.map U256.toNat)[j]? = some d ∧
      0 < c ∧ change a b = change c d := by
  obtain ⟨h1, k, n, hk, hn, h2⟩ := h
  rw [List.getElem?_map, Option.map_eq_some_iff] at ha hb
  obtain ⟨x, hx, rfl⟩ := ha
  obtain ⟨y, hy, rfl⟩ := hb
  have li := (List.getElem?_eq_some_iff.1 hx).1
  have lj := (List.getElem?_eq_some_iff.1 hy).1
  have ex : ws[i]? = some ws[i] := List.getElem?_eq_getElem (by omega)
  have ey : ws[j]? = some ws[j] := List.getElem?_eq_getElem (by omega)
  have e1 := h2 i x _ hx ex
  have e2 := h2 j y _ hy ey
  have hc : 0 < (ws[i]).toNat := by
    have := Nat.mul_pos hn h0
    rw [e1] at this
    exact Nat.pos_of_mul_pos_left this
  refine ⟨_, _, by rw [List.getElem?_map, ex]; rfl, by rw [List.getElem?_map, ey]; rfl, hc, ?_⟩
  have f1 : (n : ℚ) * x.toNat = k * (ws[i]).toNat := by exact_mod_cast e1
  have f2 : (n : ℚ) * y.toNat = k * (ws[j]).toNat := by exact_mod_cast e2
  have hk' : (k : ℚ) ≠ 0 := by exact_mod_cast hk.ne'
  have hn' : (n : ℚ) ≠ 0 := by exact_mod_cast hn.ne'
  unfold change
  calc ((y.toNat : ℚ) - x.toNat) / x.toNat = (n * y.toNat - n * x.toNat) / (n * x.toNat) := by
        rw [← mul_sub]; exact (mul_div_mul_left _ _ hn').symm
    _ = (k * (ws[j]).toNat - k * (ws[i]).toNat) / (k * (ws[i]).toNat) := by rw [f1, f2]
    _ = _ := by rw [← mul_sub]; exact mul_div_mul_left _ _ hk'

/-- C105: the statistics of log returns do not depend on the unit in which the values are expressed, and the drawdown depends on it
only by the rounding of float64. -/
theorem C105_unit (vs ws : List U256) (h : SameUpToUnit vs ws) :
    std vs = std ws ∧ downDeviation vs = downDeviation ws ∧ var95 vs = var95 ws ∧
    ((∀ v ∈ vs, 0 < v.toNat) → ∃ q r, maximumDrawdown vs = .ok (.fin q) ∧ maximumDrawdown ws = .ok (.fin r) ∧ |q - r| ≤ 1 / 2 ^ 48) := by
  have hr := unit_returns vs ws h
  have hl := h.1
  refine ⟨?_, ?_, ?_, fun hpos => ?_⟩
  · unfold std; rw [hr, hl]
  · unfold downDeviation; rw [hr, hl]
  · unfold var95; rw [hr, hl]
  · by_cases hle : vs.length ≤ 1
    · refine ⟨0, 0, ?_, ?_, by norm_num⟩
      · unfold maximumDrawdown; rw [if_pos hle]
      · unfold maximumDrawdown; rw [if_pos (by omega)]
    · cases vs with
      | nil => simp at hle
      | cons v vs =>
        cases ws with
        | nil => simp at hl
        | cons w ws =>
          have hv : vs ≠ [] := by intro hc; subst hc; simp at hle
          have hw : ws ≠ [] := by intro hc; subst hc; simp at hl; exact hv hl
          have v0 : 0 < v.toNat := hpos v (by simp)
          obtain ⟨c, d, hc, _, hc0, _⟩ := change_unit h (i := 0) (j := 0) (a := v.toNat) (b := v.toNat) rfl rfl v0
          obtain rfl : w.toNat = c := by simpa using hc
          obtain ⟨q, e1, _, _, ⟨a1, i, j, a, b, hij, ha, hb, h0, a2⟩, _⟩ := drawdown_spec hv v0
          obtain ⟨r, e2, _, _, ⟨b1, i', j', a', b', hij', ha', hb', h0', b2⟩, _⟩ := drawdown_spec hw hc0
          refine ⟨q, r, e1, e2, ?_⟩
          obtain ⟨c1, d1, g1, g2, g3, g4⟩ := change_unit h ha hb h0
          obtain ⟨c2, d2, k1, k2, k3, k4⟩ := change_unit (unit_symm h) ha' hb' h0'
          have u1 := b1 i j c1 d1 hij g1 g2 g3
          have u2 := a1 i' j' c2 d2 hij' k1 k2 k3
          rw [← g4] at u1
          rw [← k4] at u2
          rw [abs_le] at a2 b2 ⊢
          have : (1 : ℚ) / 2 ^ 48 = 1 / 2 ^ 49 + 1 / 2 ^ 49 := by norm_num
          constructor <;> linarith

theorem drawdownLoop_append (fs gs : List F64) : ∀ acc, drawdownLoop (fs ++ gs) acc = drawdownLoop gs (drawdownLoop fs acc) := by
  induction fs with
  | nil => intro acc; rfl
  | cons f fs ih => intro acc; exact ih _

theorem loop_top (fs : List ℚ) : ∀ (M D : ℚ), 0 < M → ∃ M' D', 0 < M' ∧ drawdownLoop (fs.map F64.fin) (.fin M, .fin D) = (.fin M', .fin D') := by
  induction fs with
  | nil => intro M D hM; exact ⟨M, D, hM, rfl⟩
  | cons f fs ih =>
    intro M D hM
    have hpos : 0 < max M f := lt_of_lt_of_le hM (le_max_left _ _)
    have hd := step_fin (p := f) (M := M) hpos.ne'
    obtain ⟨M', D', h1, h2⟩ := ih (max M f) (min D (ddOf f (max M f))) hpos
    refine ⟨M', D', h1, ?_⟩
    rw [← h2]
    show drawdownLoop (fs.map F64.fin) (F64.max (.fin M) (.fin f),
      F64.min (.fin D) (F64.div (F64.sub (.fin f) (F64.max (.fin M) (.fin f))) (F64.max (.fin M) (.fin f)))) = _
    rw [hd]
    rfl

/-- C105: if a series goes on, its drawdown can only get worse. -/
theorem C105_longer (v : U256) (vs ws : List U256) (hv : 0 < v.toNat) :
    ∃ q r, maximumDrawdown (v :: vs) = .ok (.fin q) ∧ maximumDrawdown (v :: vs ++ ws) = .ok (.fin r) ∧ r ≤ q := by
  by_cases h : vs = []
  · subst h
    have h1 : maximumDrawdown [v] = .ok (.fin 0) := rfl
    by_cases hw : ws = []
    · subst hw
      exact ⟨0, 0, h1, h1, le_refl _⟩
    · obtain ⟨r, e, _, hr, _⟩ := drawdown_spec hw hv
      exact ⟨0, r, h1, e, hr⟩
  · have hne : vs ++ ws ≠ [] := by simp [h]
    have hM : (0 : ℚ) < rnd (v.toNat : ℚ) := rnd_pos (by exact_mod_cast hv)
    rw [maximumDrawdown_eq h, List.cons_append, maximumDrawdown_eq hne]
    have e : toFloats (v :: (vs ++ ws)) = toFloats (v :: vs) ++ toFloats ws := by
      unfold toFloats
      rw [← List.cons_append, List.map_append]
    rw [e, drawdownLoop_append, toFloats_eq (v :: vs), toFloats_eq ws]
    obtain ⟨M, D, m1, m2⟩ := loop_top (((v :: vs).map U256.toNat).map fun (v : Nat) => rnd (v : ℚ)) _ 0 hM
    rw [m2]
    obtain ⟨q, k1, k2, _⟩ := loop_fin ((ws.map U256.toNat).map fun (v : Nat) => rnd (v : ℚ)) M D m1
    exact ⟨D, q, rfl, by rw [k1], k2⟩

theorem quantile_change {vs ws : List Nat} {k : Nat} {x : ℝ} {q : ℚ} (hk : 0 < k) (hsub : EveryNth k vs ws) (hpos : ∀ v ∈ vs, 0 < v)
    (hx : VarOf ws x) (hq0 : q ≤ 0) (hq : WorstLoss vs q (1 / 2 ^ 49)) : (q : ℝ) ≤ Real.exp x - 1 + 1 / 2 ^ 49 := by
  by_cases h : ws.length ≤ 2
  · rw [hx.1 h, Real.exp_zero]
    have : (q : ℝ) ≤ 0 := by exact_mod_cast hq0
    have : (0 : ℝ) ≤ 1 / 2 ^ 49 := by positivity
    linarith
  · obtain ⟨rs, ⟨l1, l2⟩, hmem, _⟩ := hx.2 (by omega)
    obtain ⟨i, hi⟩ := List.getElem?_of_mem hmem
    have hlt := (List.getElem?_eq_some_iff.1 hi).1
    have ea : ws[i]? = some ws[i] := List.getElem?_eq_getElem (by omega)
    have eb : ws[i + 1]? = some ws[i + 1] := List.getElem?_eq_getElem (by omega)
    have e := l2 i _ _ ea eb
    rw [hi] at e
    have ex := Option.some.inj e
    rw [hsub.1] at ea eb
    generalize ws[i] = a at *
    generalize ws[i + 1] = b at *
    have ha : 0 < a := hpos a (List.mem_of_getElem? ea)
    have hb : 0 < b := hpos b (List.mem_of_getElem? eb)
    have key := hq.1 (k * i) (k * (i + 1)) a b (Nat.mul_le_mul_left _ (by omega)) ea eb ha
    have haR : (0 : ℝ) < a := by exact_mod_cast ha
    have hbR : (0 : ℝ) < b := by exact_mod_cast hb
    have hexp : Real.exp x = b / a := by rw [ex, Real.exp_sub, Real.exp_log hbR, Real.exp_log haR]
    have key' : (q : ℝ) ≤ ((b : ℝ) - a) / a + 1 / 2 ^ 49 := by
      have : ((q : ℚ) : ℝ) ≤ ((change a b + 1 / 2 ^ 49 : ℚ) : ℝ) := by exact_mod_cast key
      unfold change at this
      push_cast at this
      exact this
    rw [hexp]
    have : ((b : ℝ) - a) / a = b / a - 1 := by field_simp
    linarith

/-- C105: in the report of every run whose values are positive, the drawdown is at least as bad as the return over the whole run and as
the change that each value at risk stands for (hourly, daily, weekly), up to the rounding of float64. -/
theorem C105_report (fuel : Nat) (e r : Execution) (h : e.run fuel = .ok r) (hpos : ∀ v ∈ r.snapshots, 0 < v.toNat) (mul dur upd : Int) :
    ∃ rep q ret, runAndReport fuel e mul dur upd = .ok rep ∧ rep.maxDrawdown = .fin q ∧ rep.ret = .fin ret ∧
      q ≤ ret + 1 / 2 ^ 48 ∧ (q : ℝ) ≤ Real.exp rep.varHourly - 1 + 1 / 2 ^ 49 ∧
      (q : ℝ) ≤ Real.exp rep.varDaily - 1 + 1 / 2 ^ 49 ∧ (q : ℝ) ≤ Real.exp rep.varWeekly - 1 + 1 / 2 ^ 49 := by
  obtain ⟨rep, first, last, h1, h2, h3, _, _, _, _, h4, h5, daily, weekly, h6, h7, h8⟩ := C68_report fuel e r h mul dur upd
  have hok := h8 hpos
  have hf : first ∈ r.snapshots := List.mem_of_mem_head? h2
  have f0 := hpos first hf
  obtain ⟨ret, r1, r2, r3, r4, r5⟩ := (C67_return first last).1 f0
  have hposN : ∀ v ∈ r.snapshots.map U256.toNat, 0 < v := by
    intro v hv
    obtain ⟨x, hx, rfl⟩ := List.mem_map.1 hv
    exact hpos x hx
  have hself : EveryNth 1 (r.snapshots.map U256.toNat) (r.snapshots.map U256.toNat) :=
    ⟨fun j => by rw [Nat.one_mul], by simp⟩
  obtain ⟨q, e1, q0, hW⟩ : ∃ q, rep.maxDrawdown = .fin q ∧ q ≤ 0 ∧ WorstLoss (r.snapshots.map U256.toNat) q (1 / 2 ^ 49) := by
    cases hs : r.snapshots with
    | nil => rw [hs] at h2; simp at h2
    | cons v vs =>
      rw [hs] at h5 h2
      obtain rfl : v = first := by simpa using h2
      by_cases hv : vs = []
      · subst hv
        have : maximumDrawdown [v] = .ok (.fin 0) := rfl
        rw [this] at h5
        refine ⟨0, (Except.ok.inj h5).symm, le_refl _, ?_, 0, 0, v.toNat, v.toNat, le_refl _, rfl, rfl, f0, ?_⟩
        · intro i j a b hij ha hb h0
          have hj : j = 0 := by
            have := (List.getElem?_eq_some_iff.1 hb).1
            simpa using this
          have hi : i = 0 := by omega
          subst hj hi
          rw [ha] at hb
          cases hb
          unfold change
          rw [sub_self, zero_div]
          norm_num
        · unfold change
          rw [sub_self, zero_div]
          norm_num
      · obtain ⟨q, e1, _, q0, hW, _⟩ := drawdown_spec hv f0
        rw [e1] at h5
        exact ⟨q, (Except.ok.inj h5).symm, q0, hW⟩
  refine ⟨rep, q, ret, h1, e1, by rw [h4, r1], ?_, ?_, ?_, ?_⟩
  · by_cases hle : first.toNat ≤ last.toNat
    · have := r4 hle
      have : (0 : ℚ) ≤ 1 / 2 ^ 48 := by norm_num
      linarith
    · have k1 : (r.snapshots.map U256.toNat)[0]? = some first.toNat := by
        rw [List.getElem?_map, ← List.head?_eq_getElem?, h2]; rfl
      have k2 : (r.snapshots.map U256.toNat)[r.snapshots.length - 1]? = some last.toNat := by
        rw [List.getElem?_map, ← List.getLast?_eq_getElem?, h3]; rfl
      have key := hW.1 0 (r.snapshots.length - 1) _ _ (Nat.zero_le _) k1 k2 f0
      rw [abs_le] at r2
      have hq : (last.toNat : ℚ) / first.toNat ≤ 1 := by
        rw [div_le_one (by exact_mod_cast f0)]
        exact_mod_cast (show last.toNat ≤ first.toNat by omega)
      have : (1 : ℚ) / 2 ^ 50 * (1 + (last.toNat : ℚ) / first.toNat) ≤ 1 / 2 ^ 50 * 2 :=
        mul_le_mul_of_nonneg_left (by linarith) (by norm_num)
      have e48 : (1 : ℚ) / 2 ^ 48 = 1 / 2 ^ 49 + 1 / 2 ^ 50 * 2 := by norm_num
      linarith [r2.1]
  · exact quantile_change (by norm_num) hself hposN hok.varHourly q0 hW
  · exact quantile_change (by norm_num) h6 hposN hok.varDaily q0 hW
  · exact quantile_change (by norm_num) h7 hposN hok.varWeekly q0 hW

-- the hypotheses are met
example : SameUpToUnit [U256.ofWord 3, U256.ofWord 6, U256.ofWord 9] [U256.ofWord 5, U256.ofWord 10, U256.ofWord 15] ∧
    ∀ v ∈ [U256.ofWord 3, U256.ofWord 6, U256.ofWord 9], 0 < v.toNat := by
  refine ⟨⟨rfl, 3, 5, by decide, by decide, ?_⟩, by decide⟩
  intro i v w hv hw
  match i with
  | 0 => cases hv; cases hw; decide
  | 1 => cases hv; cases hw; decide
  | 2 => cases hv; cases hw; decide
  | i + 3 => simp at hv
example : ExecDemo.e0.run 10 = .ok ExecDemo.e1 ∧ ExecDemo.e1.snapshots.length = 3 ∧ ∀ v ∈ ExecDemo.e1.snapshots, 0 < v.toNat :=
  ⟨ExecDemo.run1, by decide +kernel, by decide +kernel⟩

end Props
end Uni
