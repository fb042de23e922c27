import Verif.Model.Stats64
import Verif.Proofs.Float64
import Verif.Proofs.Main
import Verif.Proofs.Basic
import Verif.Spec.Stats64
import Mathlib.Analysis.SpecialFunctions.Log.Deriv
import Mathlib.Analysis.Complex.ExponentialBounds
/-! # Rounding errors of the statistics -/
namespace Uni
open U256 TickRound Spec
namespace Main

/-- Half a unit in the last place. -/
noncomputable def uu : ℝ := 1 / 2 ^ 53

theorem uu_pos : 0 < uu := by unfold uu; positivity
theorem uu_small : uu ≤ 1 / 2 ^ 53 := le_refl _

theorem rnd_errR (x : ℚ) : |((rnd x : ℚ) : ℝ) - x| ≤ uu * |(x : ℝ)| := by
  have h := rnd_err x
  have : ((|rnd x - x| : ℚ) : ℝ) ≤ ((|x| / 2 ^ 53 : ℚ) : ℝ) := by exact_mod_cast h
  push_cast at this
  unfold uu
  calc _ ≤ |(x : ℝ)| / 2 ^ 53 := this
    _ = 1 / 2 ^ 53 * |(x : ℝ)| := by ring

theorem rnd_rel (x : ℚ) : ∃ d : ℝ, |d| ≤ uu ∧ ((rnd x : ℚ) : ℝ) = x * (1 + d) := by
  by_cases hx : (x : ℝ) = 0
  · have : x = 0 := by exact_mod_cast hx
    refine ⟨0, by rw [abs_zero]; exact uu_pos.le, ?_⟩
    rw [this, rnd_zero]; simp
  · refine ⟨((rnd x : ℚ) - x : ℝ) / x, ?_, by field_simp; ring⟩
    rw [abs_div, div_le_iff₀ (abs_pos.2 hx)]
    exact rnd_errR x

theorem log_one_add {d : ℝ} (h : |d| ≤ uu) : |Real.log (1 + d)| ≤ 2 * uu := by
  have hu : uu ≤ 1 / 2 := by unfold uu; norm_num
  obtain ⟨h1, h2⟩ := abs_le.1 h
  have hp : 0 < 1 + d := by linarith
  have a1 := Real.log_le_sub_one_of_pos hp
  have a2 := Real.one_sub_inv_le_log_of_pos hp
  rw [abs_le]
  constructor
  · have : 1 - (1 + d)⁻¹ = d / (1 + d) := by field_simp; ring
    rw [this] at a2
    have : -(2 * uu) ≤ d / (1 + d) := by
      rw [le_div_iff₀ hp]
      have := uu_pos
      nlinarith
    linarith
  · have := uu_pos; linarith

/-! ### Powers of 1 + u -/

theorem pow_up {m : Nat} (h : (m : ℝ) * uu ≤ 1 / 2) : (1 + uu) ^ m ≤ 1 + 2 * m * uu := by
  induction m with
  | zero => simp
  | succ m ih =>
    have hu := uu_pos
    push_cast at h ⊢
    have h1 := ih (by nlinarith)
    rw [pow_succ]
    have : (1 + uu) ^ m * (1 + uu) ≤ (1 + 2 * m * uu) * (1 + uu) := mul_le_mul_of_nonneg_right h1 (by linarith)
    nlinarith

theorem pow_down (m : Nat) : 1 - m * uu ≤ (1 - uu) ^ m := by
  have h := one_add_mul_le_pow (a := -uu) (by have : uu ≤ 1 := by unfold uu; norm_num
                                              linarith) m
  rw [← sub_eq_add_neg] at h
  linarith

/-! ### The square root -/

theorem sqrtRnd_err {q : ℚ} (hq : 0 < q) : |((F64.sqrtRnd q : ℚ) : ℝ) - Real.sqrt q| ≤ uu * Real.sqrt q ∧ 0 ≤ F64.sqrtRnd q := by
  set e := Int.log 2 q with he
  obtain ⟨h1, h2⟩ := scale hq
  rw [← he] at h1 h2
  set k : Int := 52 - e.fdiv 2 with hk
  set X : ℚ := q * 4 ^ k with hX
  have hX0 : 0 < X := by positivity
  have e4 : (4 : ℚ) ^ k = 2 ^ (2 * k) := by
    rw [show (4 : ℚ) = 2 ^ (2 : Int) by norm_num, ← zpow_mul]
  have hf : 2 * e.fdiv 2 ≤ e ∧ e < 2 * e.fdiv 2 + 2 := by
    rw [Int.fdiv_eq_ediv_of_nonneg _ (by norm_num)]; omega
  have lo : (2 : ℚ) ^ (104 : Int) ≤ X := by
    calc (2 : ℚ) ^ (104 : Int) ≤ 2 ^ (e + 2 * k) := zpow_le_zpow_right₀ (by norm_num) (by omega)
      _ = 2 ^ e * 2 ^ (2 * k) := zpow_add₀ (by norm_num) _ _
      _ ≤ X := by rw [hX, e4]; exact mul_le_mul_of_nonneg_right h1 (by positivity)
  set m := Nat.sqrt ⌊X⌋.toNat with hm
  have hfl : (0 : Int) ≤ ⌊X⌋ := Int.floor_nonneg.2 hX0.le
  have s1 : m * m ≤ ⌊X⌋.toNat := Nat.sqrt_le _
  have s2 : ⌊X⌋.toNat < (m + 1) * (m + 1) := Nat.lt_succ_sqrt _
  have t1 : ((m : ℚ)) ^ 2 ≤ X := by
    have : ((m * m : Nat) : Int) ≤ ⌊X⌋ := by omega
    have : (((m * m : Nat) : Int) : ℚ) ≤ X := Int.le_floor.1 this
    push_cast at this
    nlinarith
  have t2 : X < ((m : ℚ) + 1) ^ 2 := by
    have : ⌊X⌋ < (((m + 1) * (m + 1) : Nat) : Int) := by omega
    have : X < ((((m + 1) * (m + 1) : Nat) : Int) : ℚ) := Int.floor_lt.1 this
    push_cast at this
    nlinarith
  have hq' : (0 : ℝ) < q := by exact_mod_cast hq
  have p2 : (0 : ℝ) < 2 ^ k := by positivity
  have hs : Real.sqrt (X : ℚ) = Real.sqrt q * 2 ^ k := by
    rw [hX, e4]
    push_cast
    rw [Real.sqrt_mul hq'.le, show (2 : ℝ) ^ (2 * k) = (2 ^ k) ^ 2 by rw [← zpow_natCast, ← zpow_mul]; congr 1; ring, Real.sqrt_sq p2.le]
  have hXR : (0 : ℝ) < X := by exact_mod_cast hX0
  set y := Real.sqrt (X : ℚ) with hy
  have y0 : 0 < y := Real.sqrt_pos.2 hXR
  have yy : y ^ 2 = X := Real.sq_sqrt hXR.le
  have t1R : (m : ℝ) ^ 2 ≤ X := by exact_mod_cast t1
  have t2R : (X : ℝ) < ((m : ℝ) + 1) ^ 2 := by exact_mod_cast t2
  have m0 : (0 : ℝ) ≤ m := Nat.cast_nonneg _
  have b1 : (m : ℝ) ≤ y := by nlinarith
  have b2 : y < m + 1 := by nlinarith
  have ylo : (2 : ℝ) ^ 52 ≤ y := by
    have : (2 : ℝ) ^ (104 : Int) ≤ X := by exact_mod_cast lo
    have h : ((2 : ℝ) ^ 52) ^ 2 ≤ y ^ 2 := by rw [yy]; calc _ = (2 : ℝ) ^ (104 : Int) := by norm_num
                                                _ ≤ _ := this
    exact le_of_sq_le_sq h y0.le
  have main : ∀ z : ℚ, |(z : ℝ) - y| ≤ 1 / 2 → |((z / 2 ^ k : ℚ) : ℝ) - Real.sqrt q| ≤ uu * Real.sqrt q := by
    intro z hz
    have e1 : Real.sqrt q = y / 2 ^ k := by rw [hs]; field_simp
    rw [e1]
    push_cast
    rw [← sub_div, abs_div, abs_of_pos p2, ← mul_div_assoc]
    apply div_le_div_of_nonneg_right _ p2.le
    calc _ ≤ (1 : ℝ) / 2 := hz
      _ = uu * 2 ^ 52 := by unfold uu; norm_num
      _ ≤ uu * y := mul_le_mul_of_nonneg_left ylo uu_pos.le
  have hdef : F64.sqrtRnd q = (if (2 * (m : ℚ) + 1) ^ 2 ≤ 4 * X then (m : ℚ) + 1 else m) / 2 ^ k := rfl
  rw [hdef]
  by_cases hc : (2 * (m : ℚ) + 1) ^ 2 ≤ 4 * X
  · rw [if_pos hc]
    refine ⟨main _ ?_, by positivity⟩
    have hc' : (2 * (m : ℝ) + 1) ^ 2 ≤ 4 * X := by exact_mod_cast hc
    have : (m : ℝ) + 1 / 2 ≤ y := by nlinarith
    push_cast
    rw [abs_le]; constructor <;> linarith
  · rw [if_neg hc]
    refine ⟨main _ ?_, by positivity⟩
    have hc' : 4 * (X : ℝ) < (2 * (m : ℝ) + 1) ^ 2 := by exact_mod_cast not_le.1 hc
    have : y ≤ (m : ℝ) + 1 / 2 := by nlinarith
    push_cast
    rw [abs_le]; constructor <;> linarith

/-! ### Returns -/

/-- The error of a return. -/
noncomputable def eps : ℝ := 1 / 2 ^ 44

theorem eps_pos : 0 < eps := by unfold eps; positivity

theorem log_range {a : U256} (h : 0 < a.toNat) : 0 ≤ Real.log a.toNat ∧ Real.log a.toNat ≤ 180 := by
  have h1 : (1 : ℝ) ≤ a.toNat := by exact_mod_cast h
  have h2 : (a.toNat : ℝ) ≤ 2 ^ 256 := by exact_mod_cast a.toNat_lt.le
  refine ⟨Real.log_nonneg h1, ?_⟩
  calc Real.log a.toNat ≤ Real.log (2 ^ 256) := Real.log_le_log (by linarith) h2
    _ = 256 * Real.log 2 := by rw [Real.log_pow]; norm_num
    _ ≤ 180 := by have := Real.log_two_lt_d9; linarith

theorem return_err {lg : ℚ → ℚ} (hlg : LogUlp lg) {a b : U256} (ha : 0 < a.toNat) (hb : 0 < b.toNat) :
    ∃ q : ℚ, F64.log lg (F64.div (F64.ofNat b.toNat) (F64.ofNat a.toNat)) = .fin q ∧
      |(q : ℝ) - Real.log ((b.toNat : ℝ) / (a.toNat : ℝ))| ≤ eps := by
  have ha' : (0 : ℚ) < a.toNat := by exact_mod_cast ha
  have hb' : (0 : ℚ) < b.toNat := by exact_mod_cast hb
  have haR : (0 : ℝ) < a.toNat := by exact_mod_cast ha
  have hbR : (0 : ℝ) < b.toNat := by exact_mod_cast hb
  have pa := rnd_pos ha'
  have pb := rnd_pos hb'
  have pq := rnd_pos (div_pos pb pa)
  set Q := rnd (rnd (b.toNat : ℚ) / rnd (a.toNat : ℚ)) with hQ
  refine ⟨lg Q, ?_, ?_⟩
  · unfold F64.ofNat F64.div
    dsimp only
    rw [if_neg pa.ne']
    unfold F64.log
    dsimp only
    rw [if_neg (not_lt.2 pq.le), if_neg pq.ne']
  · obtain ⟨d1, h1, e1⟩ := rnd_rel (a.toNat : ℚ)
    obtain ⟨d2, h2, e2⟩ := rnd_rel (b.toNat : ℚ)
    obtain ⟨d3, h3, e3⟩ := rnd_rel (rnd (b.toNat : ℚ) / rnd (a.toNat : ℚ))
    have pos : ∀ {d : ℝ}, |d| ≤ uu → 1 + d ≠ 0 := by
      intro d hd
      have : uu ≤ 1 / 2 := by unfold uu; norm_num
      obtain ⟨x, _⟩ := abs_le.1 hd
      linarith
    push_cast at e1 e2 e3
    rw [← hQ, e1, e2] at e3
    have eL : Real.log Q = Real.log ((b.toNat : ℝ) / a.toNat) + (Real.log (1 + d2) - Real.log (1 + d1) + Real.log (1 + d3)) := by
      rw [e3, Real.log_mul (div_ne_zero (mul_ne_zero hbR.ne' (pos h2)) (mul_ne_zero haR.ne' (pos h1))) (pos h3),
        Real.log_div (mul_ne_zero hbR.ne' (pos h2)) (mul_ne_zero haR.ne' (pos h1)), Real.log_mul hbR.ne' (pos h2),
        Real.log_mul haR.ne' (pos h1), Real.log_div hbR.ne' haR.ne']
      ring
    obtain ⟨x1, x2⟩ := abs_le.1 (log_one_add h1)
    obtain ⟨y1, y2⟩ := abs_le.1 (log_one_add h2)
    obtain ⟨z1, z2⟩ := abs_le.1 (log_one_add h3)
    have hl := hlg Q pq
    obtain ⟨a1, a2⟩ := log_range ha
    obtain ⟨b1, b2⟩ := log_range hb
    have hr : Real.log ((b.toNat : ℝ) / a.toNat) = Real.log b.toNat - Real.log a.toNat := Real.log_div hbR.ne' haR.ne'
    have hu : uu = 1 / 2 ^ 53 := rfl
    have hQ2 : |Real.log Q| ≤ 181 := by
      rw [eL, hr, abs_le]
      have hu' : uu ≤ 1 / 100 := by rw [hu]; norm_num
      constructor <;> linarith
    have hl2 : |(lg Q : ℝ) - Real.log Q| ≤ 181 / 2 ^ 52 :=
      le_trans hl (div_le_div_of_nonneg_right hQ2 (by positivity))
    rw [eL] at hl2
    obtain ⟨l1, l2⟩ := abs_le.1 hl2
    have hnum : 6 * uu + 181 / 2 ^ 52 ≤ eps := by unfold uu eps; norm_num
    rw [abs_le]
    constructor <;> linarith

/-- All returns of a positive series. -/
theorem returns_err {lg : ℚ → ℚ} (hlg : LogUlp lg) : ∀ vs : List U256, (∀ v ∈ vs, 0 < v.toNat) →
    ∃ qs : List ℚ, getReturns64 lg vs = qs.map F64.fin ∧ List.Forall₂ (fun q r => |((q : ℚ) : ℝ) - r| ≤ eps) qs (getReturns vs) := by
  intro vs
  induction vs with
  | nil => intro _; exact ⟨[], rfl, .nil⟩
  | cons a rest ih =>
    intro h
    cases rest with
    | nil => exact ⟨[], rfl, .nil⟩
    | cons b rest =>
      obtain ⟨qs, h1, h2⟩ := ih (fun v hv => h v (List.mem_cons_of_mem _ hv))
      obtain ⟨q, h3, h4⟩ := return_err hlg (h a (List.mem_cons_self ..)) (h b (List.mem_cons_of_mem _ (List.mem_cons_self ..)))
      refine ⟨q :: qs, ?_, .cons h4 h2⟩
      show F64.log lg _ :: getReturns64 lg (b :: rest) = _
      rw [h3, h1]; rfl

/-! ### Lists of numbers that are close -/

theorem sum_sq_le (xs : List ℝ) : xs.sum ^ 2 ≤ xs.length * (xs.map fun x => x ^ 2).sum := by
  induction xs with
  | nil => simp
  | cons x xs ih =>
    simp only [List.sum_cons, List.length_cons, List.map_cons]
    push_cast
    set n : ℝ := (xs.length : ℝ)
    set S := xs.sum
    set T := (xs.map fun x => x ^ 2).sum
    have n0 : 0 ≤ n := Nat.cast_nonneg _
    have T0 : 0 ≤ T := sum_nonneg_sq xs (fun x => x)
    by_cases hn : n = 0
    · have : xs = [] := List.length_eq_zero_iff.1 (by
        have hn2 : (xs.length : ℝ) = 0 := hn
        exact_mod_cast hn2)
      have hS : S = 0 := by simp [S, this]
      have hT : T = 0 := by simp [T, this]
      rw [hS, hT, hn]; nlinarith
    · have hn' : 0 < n := lt_of_le_of_ne n0 (Ne.symm hn)
      have : 0 ≤ (n * x - S) ^ 2 := sq_nonneg _
      have h2 : 2 * x * S ≤ n * x ^ 2 + T := by
        have h3 : n * (2 * x * S) ≤ n * (n * x ^ 2 + T) := by nlinarith
        exact le_of_mul_le_mul_left h3 hn'
      nlinarith

theorem abs_sum_le (xs : List ℝ) : |xs.sum| ≤ (xs.map fun x => |x|).sum := by
  induction xs with
  | nil => simp
  | cons x xs ih =>
    simp only [List.sum_cons, List.map_cons]
    exact le_trans (abs_add_le _ _) (by linarith)

theorem sum_abs_sq_le (xs : List ℝ) : (xs.map fun x => |x|).sum ^ 2 ≤ xs.length * (xs.map fun x => x ^ 2).sum := by
  have h := sum_sq_le (xs.map fun x => |x|)
  rw [List.length_map, List.map_map] at h
  have : ((fun x : ℝ => x ^ 2) ∘ fun x => |x|) = fun x => x ^ 2 := by funext x; exact sq_abs x
  rw [this] at h
  exact h

theorem sum_sq_close {xs ys : List ℝ} {c : ℝ} (hc : 0 ≤ c) (h : List.Forall₂ (fun x y => |x - y| ≤ c) xs ys) :
    (xs.map fun x => x ^ 2).sum ≤ (ys.map fun y => y ^ 2).sum + 2 * c * (ys.map fun y => |y|).sum + ys.length * c ^ 2 := by
  induction h with
  | nil => simp
  | @cons x y xs ys hxy _ ih =>
    simp only [List.sum_cons, List.length_cons, List.map_cons]
    push_cast
    have h1 : |x| ≤ |y| + c := by
      have : |x| ≤ |x - y| + |y| := by
        have := abs_add_le (x - y) y
        rwa [sub_add_cancel] at this
      linarith
    have h2 : x ^ 2 ≤ (|y| + c) ^ 2 := by
      rw [← sq_abs x]
      exact pow_le_pow_left₀ (abs_nonneg _) h1 2
    have h3 : (|y| + c) ^ 2 = y ^ 2 + 2 * c * |y| + c ^ 2 := by rw [← sq_abs y]; ring
    rw [h3] at h2
    nlinarith

theorem forall2_length {α β : Type} {R : α → β → Prop} {xs : List α} {ys : List β} (h : List.Forall₂ R xs ys) : xs.length = ys.length := h.length_eq

/-- The triangle inequality for root sums of squares. -/
theorem root_close {xs ys : List ℝ} {c : ℝ} (hc : 0 ≤ c) (h : List.Forall₂ (fun x y => |x - y| ≤ c) xs ys) :
    Real.sqrt (xs.map fun x => x ^ 2).sum ≤ Real.sqrt (ys.map fun y => y ^ 2).sum + Real.sqrt ys.length * c := by
  have n0 : (0 : ℝ) ≤ ys.length := Nat.cast_nonneg _
  have Y0 : 0 ≤ (ys.map fun y => y ^ 2).sum := sum_nonneg_sq ys (fun y => y)
  rw [Real.sqrt_le_left (by positivity)]
  have h1 := sum_sq_close hc h
  have h2 : (ys.map fun y => |y|).sum ≤ Real.sqrt ys.length * Real.sqrt (ys.map fun y => y ^ 2).sum := by
    rw [← Real.sqrt_mul n0]
    exact Real.le_sqrt_of_sq_le (sum_abs_sq_le ys)
  have e : (Real.sqrt (ys.map fun y => y ^ 2).sum + Real.sqrt ys.length * c) ^ 2 =
      (ys.map fun y => y ^ 2).sum + 2 * c * (Real.sqrt ys.length * Real.sqrt (ys.map fun y => y ^ 2).sum) + ys.length * c ^ 2 := by
    have a := Real.sq_sqrt Y0
    have b := Real.sq_sqrt n0
    nlinarith
  rw [e]
  nlinarith

theorem close_symm {xs ys : List ℝ} {c : ℝ} (h : List.Forall₂ (fun x y => |x - y| ≤ c) xs ys) :
    List.Forall₂ (fun x y => |x - y| ≤ c) ys xs := by
  induction h with
  | nil => exact .nil
  | cons h _ ih => exact .cons (by rw [abs_sub_comm]; exact h) ih

theorem root_close' {xs ys : List ℝ} {c : ℝ} (hc : 0 ≤ c) (h : List.Forall₂ (fun x y => |x - y| ≤ c) xs ys) :
    |Real.sqrt (xs.map fun x => x ^ 2).sum - Real.sqrt (ys.map fun y => y ^ 2).sum| ≤ Real.sqrt ys.length * c := by
  have h1 := root_close hc h
  have h2 := root_close hc (close_symm h)
  rw [h.length_eq] at h2
  rw [abs_le]
  constructor <;> linarith

/-! ### Order statistics -/

theorem count_close {xs ys : List ℝ} {c : ℝ} (h : List.Forall₂ (fun x y => |x - y| ≤ c) xs ys) (p q : ℝ → Bool)
    (hpq : ∀ x y, |x - y| ≤ c → p x = true → q y = true) : xs.countP p ≤ ys.countP q := by
  induction h with
  | nil => exact le_refl _
  | @cons x y xs ys hxy _ ih =>
    rw [List.countP_cons, List.countP_cons]
    by_cases hp : p x = true
    · rw [if_pos hp, if_pos (hpq x y hxy hp)]; omega
    · rw [if_neg hp]; omega

open Classical in
theorem rank_close {xs ys : List ℝ} {c : ℝ} (h : List.Forall₂ (fun x y => |x - y| ≤ c) xs ys) {k : Nat} {v w : ℝ}
    (hv : AtRank xs k v) (hw : AtRank ys k w) : |v - w| ≤ c := by
  have one : ∀ {xs ys : List ℝ}, List.Forall₂ (fun x y => |x - y| ≤ c) xs ys → ∀ {v w : ℝ}, AtRank xs k v → AtRank ys k w → w ≤ v + c := by
    intro xs ys h v w hv hw
    by_contra hc
    push Not at hc
    have := count_close h (fun r => decide (r ≤ v)) (fun r => decide (r < w)) (by
      intro x y hxy hx
      have hx := of_decide_eq_true hx
      obtain ⟨a, b⟩ := abs_le.1 hxy
      exact decide_eq_true (by linarith))
    have h1 := hv.2.2
    have h2 := hw.2.1
    omega
  have h1 := one h hv hw
  have h2 := one (close_symm h) hw hv
  rw [abs_le]
  constructor <;> linarith

theorem before_iff (x y : ℚ) : F64.before (.fin x) (.fin y) ↔ x ≤ y := by
  unfold F64.before F64.lt
  simp

theorem var64_spec {lg : ℚ → ℚ} (hlg : LogUlp lg) {vs : List U256} (hpos : ∀ v ∈ vs, 0 < v.toNat) (hl : 3 ≤ vs.length) :
    ∃ q : ℚ, ∃ v : ℝ, var95of64 lg vs = .ok (.fin q) ∧ AtRank (getReturns vs) ((getReturns vs).length / 20) v ∧ |(q : ℝ) - v| ≤ eps := by
  obtain ⟨qs, h1, h2⟩ := returns_err hlg vs hpos
  have hlen := h2.length_eq
  have hgl := getReturns_length vs
  obtain ⟨v, hv1, hv2⟩ := entry95_spec (getReturns vs) (by omega)
  have hcl : List.Forall₂ (fun x y => |x - y| ≤ eps) (qs.map fun q : ℚ => (q : ℝ)) (getReturns vs) := by
    rw [List.forall₂_map_left_iff]; exact h2
  obtain ⟨w, hw1, hw2⟩ := entry95_spec (qs.map fun q : ℚ => (q : ℝ)) (by rw [List.length_map]; omega)
  have s1 : (qs.map F64.fin).insertionSort F64.before = (qs.insertionSort (· ≤ ·)).map F64.fin :=
    (List.map_insertionSort (r := fun x y : ℚ => x ≤ y) F64.before F64.fin qs (fun a _ b _ => (before_iff a b).symm)).symm
  have s2 : (qs.map fun q : ℚ => (q : ℝ)).insertionSort (· ≤ ·) = (qs.insertionSort (· ≤ ·)).map fun q : ℚ => (q : ℝ) :=
    (List.map_insertionSort (r := fun x y : ℚ => x ≤ y) (s := fun x y : ℝ => x ≤ y) (fun q : ℚ => (q : ℝ)) qs
      (fun a _ b _ => (Rat.cast_le (K := ℝ)).symm)).symm
  have hk : (0 : Int) ≤ Int.tdiv (qs.length : Int) 20 := Int.tdiv_nonneg (by omega) (by norm_num)
  unfold entry95 at hw1
  rw [s2, List.length_map] at hw1
  rw [List.length_map, hlen] at hw2
  unfold idx at hw1
  rw [if_pos hk, List.getElem?_map] at hw1
  cases hq : (qs.insertionSort (· ≤ ·))[(Int.tdiv (qs.length : Int) 20).toNat]? with
  | none => rw [hq] at hw1; cases hw1
  | some q =>
    rw [hq] at hw1
    have hqw : (q : ℝ) = w := Except.ok.inj hw1
    refine ⟨q, v, ?_, hv2, ?_⟩
    · unfold var95of64
      rw [if_neg (by omega), h1]
      dsimp only
      rw [s1, List.length_map]
      unfold idx
      rw [if_pos hk, List.getElem?_map, hq]
      rfl
    · rw [hqw]
      exact rank_close hcl hw2 hv2

/-! ### Sums -/

/-- The sum of squares, with rounding. -/
def fsq (s : ℚ) (qs : List ℚ) : ℚ := qs.foldl (fun s q => rnd (s + rnd (q * q))) s
/-- The sum, with rounding. -/
def fsum (s : ℚ) (qs : List ℚ) : ℚ := qs.foldl (fun s q => rnd (s + q)) s

theorem fold_sq (qs : List ℚ) : ∀ s : ℚ, (qs.map F64.fin).foldl (fun sum r => F64.add sum (F64.mul r r)) (.fin s) = .fin (fsq s qs) := by
  induction qs with
  | nil => intro s; rfl
  | cons q qs ih => intro s; exact ih _

theorem fold_sum (qs : List ℚ) : ∀ s : ℚ, (qs.map F64.fin).foldl (fun sum r => F64.add sum r) (.fin s) = .fin (fsum s qs) := by
  induction qs with
  | nil => intro s; rfl
  | cons q qs ih => intro s; exact ih _

theorem fold_neg (qs : List ℚ) : ∀ s : ℚ,
    (qs.map F64.fin).foldl (fun sum r => if F64.lt r (.fin 0) then F64.add sum (F64.mul r r) else sum) (.fin s) =
      .fin (fsq s (qs.filter (fun q => decide (q < 0)))) := by
  induction qs with
  | nil => intro s; rfl
  | cons q qs ih =>
    intro s
    rw [List.map_cons, List.foldl_cons, List.filter_cons]
    by_cases h : q < 0
    · rw [if_pos (decide_eq_true h)]
      have : F64.lt (.fin q) (.fin 0) = true := decide_eq_true h
      rw [if_pos this]
      exact ih _
    · have h1 : decide (q < 0) = false := decide_eq_false h
      have h2 : F64.lt (.fin q) (.fin 0) = false := h1
      rw [h1, h2]
      exact ih _

/-- The exact sum of squares. -/
noncomputable def sq (qs : List ℚ) : ℝ := (qs.map fun q : ℚ => (q : ℝ) ^ 2).sum

theorem sq_nonneg' (qs : List ℚ) : 0 ≤ sq qs := by
  unfold sq
  apply List.sum_nonneg
  intro x hx
  obtain ⟨q, _, rfl⟩ := List.mem_map.1 hx
  positivity

theorem uu_lt_one : uu < 1 := by unfold uu; norm_num

theorem rnd_between {x : ℚ} (h : 0 ≤ x) : (x : ℝ) * (1 - uu) ≤ (rnd x : ℚ) ∧ ((rnd x : ℚ) : ℝ) ≤ x * (1 + uu) := by
  have h1 := rnd_errR x
  have h0 : (0 : ℝ) ≤ x := by exact_mod_cast h
  rw [abs_of_nonneg h0] at h1
  obtain ⟨a, b⟩ := abs_le.1 h1
  constructor <;> nlinarith

theorem fsq_bounds (qs : List ℚ) : ∀ s : ℚ, 0 ≤ s → 0 ≤ fsq s qs ∧
    ((s : ℝ) + sq qs) * (1 - uu) ^ (2 * qs.length) ≤ fsq s qs ∧ (fsq s qs : ℝ) ≤ ((s : ℝ) + sq qs) * (1 + uu) ^ (2 * qs.length) := by
  induction qs with
  | nil =>
    intro s hs
    refine ⟨hs, ?_, ?_⟩ <;> (show _ ≤ _; simp [sq, fsq])
  | cons q qs ih =>
    intro s hs
    have hq0 : 0 ≤ q * q := mul_self_nonneg q
    have hr0 := rnd_nonneg hq0
    have hx0 : 0 ≤ s + rnd (q * q) := by linarith
    have h0 := rnd_nonneg hx0
    obtain ⟨i1, i2, i3⟩ := ih _ h0
    obtain ⟨a1, a2⟩ := rnd_between hq0
    obtain ⟨b1, b2⟩ := rnd_between hx0
    have hs' : (0 : ℝ) ≤ s := by exact_mod_cast hs
    have u0 := uu_pos
    have u1 := uu_lt_one
    have S0 := sq_nonneg' qs
    have e : sq (q :: qs) = (q : ℝ) ^ 2 + sq qs := by unfold sq; rw [List.map_cons, List.sum_cons]
    have q0 : (0 : ℝ) ≤ (q : ℝ) ^ 2 := by positivity
    push_cast at a1 a2 b1 b2
    have el : 2 * (q :: qs).length = 2 * qs.length + 2 := by rw [List.length_cons]; ring
    refine ⟨i1, ?_, ?_⟩
    · rw [el, pow_add, e]
      have c1 : ((s : ℝ) + ((q : ℝ) ^ 2 + sq qs)) * (1 - uu) ^ 2 ≤ (rnd (s + rnd (q * q)) : ℚ) + sq qs := by
        have d1 : ((s : ℝ) + (q : ℝ) ^ 2) * (1 - uu) ≤ s + (rnd (q * q) : ℚ) := by nlinarith
        have d2 : ((s : ℝ) + (q : ℝ) ^ 2) * (1 - uu) * (1 - uu) ≤ (s + (rnd (q * q) : ℚ)) * (1 - uu) :=
          mul_le_mul_of_nonneg_right d1 (by linarith)
        have d3 : sq qs * (1 - uu) ^ 2 ≤ sq qs := by
          have : (1 - uu) ^ 2 ≤ 1 := by nlinarith
          nlinarith
        nlinarith
      have p0 : 0 ≤ (1 - uu) ^ (2 * qs.length) := pow_nonneg (by linarith) _
      calc _ = ((s : ℝ) + ((q : ℝ) ^ 2 + sq qs)) * (1 - uu) ^ 2 * (1 - uu) ^ (2 * qs.length) := by ring
        _ ≤ _ := mul_le_mul_of_nonneg_right c1 p0
        _ ≤ _ := i2
    · rw [el, pow_add, e]
      have c1 : (rnd (s + rnd (q * q)) : ℚ) + sq qs ≤ ((s : ℝ) + ((q : ℝ) ^ 2 + sq qs)) * (1 + uu) ^ 2 := by
        have d1 : (s : ℝ) + (rnd (q * q) : ℚ) ≤ ((s : ℝ) + (q : ℝ) ^ 2) * (1 + uu) := by nlinarith
        have d2 : (s + (rnd (q * q) : ℚ)) * (1 + uu) ≤ ((s : ℝ) + (q : ℝ) ^ 2) * (1 + uu) * (1 + uu) :=
          mul_le_mul_of_nonneg_right d1 (by linarith)
        have d3 : sq qs ≤ sq qs * (1 + uu) ^ 2 := by
          have : 1 ≤ (1 + uu) ^ 2 := by nlinarith
          nlinarith
        nlinarith
      have p0 : 0 ≤ (1 + uu) ^ (2 * qs.length) := pow_nonneg (by linarith) _
      calc (fsq s (q :: qs) : ℝ) ≤ _ := i3
        _ ≤ _ := mul_le_mul_of_nonneg_right c1 p0
        _ = _ := by ring

/-- The sum of the absolute values. -/
noncomputable def absum (qs : List ℚ) : ℝ := (qs.map fun q : ℚ => |(q : ℝ)|).sum

theorem absum_nonneg (qs : List ℚ) : 0 ≤ absum qs := by
  unfold absum
  apply List.sum_nonneg
  intro x hx
  obtain ⟨q, _, rfl⟩ := List.mem_map.1 hx
  exact abs_nonneg _

theorem fsum_bounds (qs : List ℚ) : ∀ s : ℚ,
    |(fsum s qs : ℝ) - (s + (qs.map fun q : ℚ => (q : ℝ)).sum)| ≤ ((1 + uu) ^ qs.length - 1) * (|(s : ℝ)| + absum qs) := by
  induction qs with
  | nil => intro s; simp [fsum, absum]
  | cons q qs ih =>
    intro s
    have h1 := ih (rnd (s + q))
    have h2 := rnd_errR (s + q)
    push_cast at h2
    have u0 := uu_pos
    have A0 := absum_nonneg qs
    have e : absum (q :: qs) = |(q : ℝ)| + absum qs := by unfold absum; rw [List.map_cons, List.sum_cons]
    rw [e, List.map_cons, List.sum_cons, List.length_cons]
    have ht : |(s : ℝ) + q| ≤ |(s : ℝ)| + |(q : ℝ)| := abs_add_le _ _
    have hr : |((rnd (s + q) : ℚ) : ℝ)| ≤ (1 + uu) * (|(s : ℝ)| + |(q : ℝ)|) := by
      have : |((rnd (s + q) : ℚ) : ℝ)| ≤ |((rnd (s + q) : ℚ) : ℝ) - (s + q)| + |(s : ℝ) + q| := by
        have := abs_add_le (((rnd (s + q) : ℚ) : ℝ) - (s + q)) (s + q)
        rwa [sub_add_cancel] at this
      nlinarith
    have g0 : 0 ≤ (1 + uu) ^ qs.length - 1 := by
      have := one_le_pow₀ (show 1 ≤ 1 + uu by linarith) (n := qs.length)
      linarith
    set g := (1 + uu) ^ qs.length - 1 with hg
    have eg : (1 + uu) ^ (qs.length + 1) - 1 = g * (1 + uu) + uu := by rw [hg, pow_succ]; ring
    rw [eg]
    set B := |(s : ℝ)| + |(q : ℝ)| with hB
    have B0 : 0 ≤ B := by positivity
    have h3 : |(fsum s (q :: qs) : ℝ) - (s + (q + (qs.map fun q : ℚ => (q : ℝ)).sum))| ≤
        |(fsum (rnd (s + q)) qs : ℝ) - ((rnd (s + q) : ℚ) + (qs.map fun q : ℚ => (q : ℝ)).sum)| + |((rnd (s + q) : ℚ) : ℝ) - (s + q)| := by
      have := abs_add_le ((fsum (rnd (s + q)) qs : ℝ) - ((rnd (s + q) : ℚ) + (qs.map fun q : ℚ => (q : ℝ)).sum)) (((rnd (s + q) : ℚ) : ℝ) - (s + q))
      refine le_trans (le_of_eq ?_) this
      show |(fsum (rnd (s + q)) qs : ℝ) - _| = _
      congr 1
      ring
    have h4 : g * (|((rnd (s + q) : ℚ) : ℝ)| + absum qs) ≤ g * ((1 + uu) * (B + absum qs)) := by
      apply mul_le_mul_of_nonneg_left _ g0
      nlinarith
    have h5 : uu * |(s : ℝ) + q| ≤ uu * (B + absum qs) := mul_le_mul_of_nonneg_left (by linarith) u0.le
    have h6 : |(s : ℝ)| + (|(q : ℝ)| + absum qs) = B + absum qs := by rw [hB]; ring
    rw [h6]
    nlinarith

/-! ### The downward deviation -/

/-- A rounded quotient of a number that is known up to a factor. -/
theorem sqrt64_fin {w : ℚ} (hw : 0 ≤ w) : ∃ q : ℚ, F64.sqrt (.fin w) = .fin q ∧ 0 ≤ q ∧ |(q : ℝ) - Real.sqrt w| ≤ uu * Real.sqrt w := by
  unfold F64.sqrt
  dsimp only
  rw [if_neg (not_lt.2 hw)]
  by_cases h : w = 0
  · rw [if_pos h]
    refine ⟨0, rfl, le_refl _, ?_⟩
    rw [h]; simp
  · rw [if_neg h]
    obtain ⟨h1, h2⟩ := sqrtRnd_err (lt_of_le_of_ne hw (Ne.symm h))
    exact ⟨_, rfl, h2, h1⟩

theorem ofInt_nat {n : Nat} (h : n ≤ 2 ^ 53) : F64.ofInt (n : Int) = .fin n := by
  unfold F64.ofInt
  rw [show (((n : Nat) : Int) : ℚ) = (n : ℚ) by push_cast; rfl, rnd_natCast h]

theorem div64 {x y : ℚ} (hy : y ≠ 0) : F64.div (.fin x) (.fin y) = .fin (rnd (x / y)) := by
  unfold F64.div
  dsimp only
  rw [if_neg hy]

theorem losses_sq (qs : List ℚ) : sq (qs.filter (fun q => decide (q < 0))) = ((qs.map fun q : ℚ => min (q : ℝ) 0).map fun x => x ^ 2).sum := by
  induction qs with
  | nil => rfl
  | cons q qs ih =>
    rw [List.filter_cons]
    by_cases h : q < 0
    · rw [if_pos (decide_eq_true h)]
      unfold sq at ih ⊢
      simp only [List.map_cons, List.sum_cons]
      rw [ih, min_eq_left (by exact_mod_cast h.le)]
    · rw [if_neg (by simpa using h), ih]
      simp only [List.map_cons, List.sum_cons]
      rw [min_eq_right (by exact_mod_cast not_lt.1 h)]
      simp

theorem min_close {xs : List ℚ} {ys : List ℝ} {c : ℝ} (h : List.Forall₂ (fun q r => |((q : ℚ) : ℝ) - r| ≤ c) xs ys) :
    List.Forall₂ (fun x y : ℝ => |x - y| ≤ c) (xs.map fun q : ℚ => min (q : ℝ) 0) (ys.map fun r => min r 0) := by
  induction h with
  | nil => exact .nil
  | @cons a b _ _ h _ ih =>
    refine .cons (le_trans ?_ h) ih
    have := abs_min_sub_min_le_max (a : ℝ) 0 b 0
    simpa using this

theorem root_aux {q r s g t u : ℝ} (r0 : 0 ≤ r) (u0 : 0 ≤ u) (hs : s ≤ 2 * r) (h : |q - s| ≤ u * s) (h1 : s ≤ r * (1 + g))
    (h2 : r * (1 - g) ≤ s) (ht : g + 2 * u ≤ t) : |q - r| ≤ t * r := by
  obtain ⟨x1, x2⟩ := abs_le.1 h
  have a : u * s ≤ 2 * u * r := by nlinarith
  have b : (g + 2 * u) * r ≤ t * r := mul_le_mul_of_nonneg_right ht r0
  rw [abs_le]
  constructor <;> nlinarith

theorem down64_spec {lg : ℚ → ℚ} (hlg : LogUlp lg) {vs : List U256} (hpos : ∀ v ∈ vs, 0 < v.toNat) (hl : 3 ≤ vs.length)
    (hm : vs.length ≤ 2 ^ 31) :
    ∃ q : ℚ, downDeviation64 lg vs = .fin q ∧ 0 ≤ q ∧
      |(q : ℝ) - Real.sqrt (lossSquare (getReturns vs))| ≤ 1 / 2 ^ 43 + vs.length / 2 ^ 51 * Real.sqrt (lossSquare (getReturns vs)) := by
  obtain ⟨qs, h1, h2⟩ := returns_err hlg vs hpos
  have hlen := h2.length_eq
  have hgl := getReturns_length vs
  set n := qs.length with hn
  have hn2 : 2 ≤ n := by omega
  have hnR : (0 : ℝ) < n := by exact_mod_cast (by omega : 0 < n)
  set neg := qs.filter (fun q => decide (q < 0)) with hneg
  have hnl : neg.length ≤ n := List.length_filter_le _ _
  obtain ⟨f0, f1, f2⟩ := fsq_bounds neg 0 (le_refl _)
  set F := fsq 0 neg with hF
  have hS0 := sq_nonneg' neg
  set S := sq neg with hS
  simp only [Rat.cast_zero, zero_add] at f1 f2
  have hnQ : (0 : ℚ) < n := by exact_mod_cast (by omega : 0 < n)
  have hFn : 0 ≤ F / n := div_nonneg f0 hnQ.le
  obtain ⟨w1, w2⟩ := rnd_between hFn
  set w := rnd (F / n) with hw
  have w0 : 0 ≤ w := rnd_nonneg hFn
  push_cast at w1 w2
  obtain ⟨q, e1, e2, e3⟩ := sqrt64_fin w0
  have u0 := uu_pos
  have u1 := uu_lt_one
  -- the rounded mean square
  have k1 : S / n * (1 - uu) ^ (2 * n + 1) ≤ w := by
    have a : (1 - uu) ^ (2 * n) ≤ (1 - uu) ^ (2 * neg.length) := pow_le_pow_of_le_one (by linarith) (by linarith) (by omega)
    have b : S * (1 - uu) ^ (2 * n) ≤ F := le_trans (mul_le_mul_of_nonneg_left a hS0) f1
    calc S / n * (1 - uu) ^ (2 * n + 1) = (S * (1 - uu) ^ (2 * n)) / n * (1 - uu) := by rw [pow_succ]; ring
      _ ≤ (F : ℝ) / n * (1 - uu) := mul_le_mul_of_nonneg_right (div_le_div_of_nonneg_right b hnR.le) (by linarith)
      _ ≤ w := w1
  have k2 : (w : ℝ) ≤ S / n * (1 + uu) ^ (2 * n + 1) := by
    have a : (1 + uu) ^ (2 * neg.length) ≤ (1 + uu) ^ (2 * n) := pow_le_pow_right₀ (by linarith) (by omega)
    have b : (F : ℝ) ≤ S * (1 + uu) ^ (2 * n) := le_trans f2 (mul_le_mul_of_nonneg_left a hS0)
    calc (w : ℝ) ≤ (F : ℝ) / n * (1 + uu) := w2
      _ ≤ (S * (1 + uu) ^ (2 * n)) / n * (1 + uu) := mul_le_mul_of_nonneg_right (div_le_div_of_nonneg_right b hnR.le) (by linarith)
      _ = _ := by rw [pow_succ]; ring
  have hnu : (n : ℝ) ≤ 2 ^ 31 := by exact_mod_cast (by omega : n ≤ 2 ^ 31)
  have bp := pow_up (m := 2 * n + 1) (by push_cast; unfold uu; norm_num; linarith)
  have bd := pow_down (2 * n + 1)
  push_cast at bp bd
  set M := S / n with hM
  have M0 : 0 ≤ M := div_nonneg hS0 hnR.le
  set g : ℝ := 2 * (2 * n + 1) * uu with hg
  have g0 : 0 ≤ g := by positivity
  have g1 : g ≤ 1 / 2 := by rw [hg]; unfold uu; norm_num; linarith
  have k3 : Real.sqrt w ≤ Real.sqrt M * (1 + g) := by
    apply Real.sqrt_le_iff.2
    refine ⟨by positivity, ?_⟩
    rw [mul_pow, Real.sq_sqrt M0]
    calc (w : ℝ) ≤ M * (1 + uu) ^ (2 * n + 1) := k2
      _ ≤ M * (1 + g) ^ 2 := mul_le_mul_of_nonneg_left (by nlinarith) M0
  have k4 : Real.sqrt M * (1 - g) ≤ Real.sqrt w := by
    apply Real.le_sqrt_of_sq_le
    rw [mul_pow, Real.sq_sqrt M0]
    calc M * (1 - g) ^ 2 ≤ M * (1 - uu) ^ (2 * n + 1) := mul_le_mul_of_nonneg_left (by nlinarith) M0
      _ ≤ w := k1
  -- the exact mean square of the rounded returns
  have c1 := root_close' eps_pos.le (min_close h2)
  rw [List.length_map] at c1
  have c2 : ((qs.map fun q : ℚ => min (q : ℝ) 0).map fun x => x ^ 2).sum = S := (losses_sq qs).symm
  have c3 : lossSquare (getReturns vs) = (((getReturns vs).map fun r => min r 0).map fun x => x ^ 2).sum / n := by
    unfold lossSquare
    rw [List.map_map, ← hlen]
    rfl
  rw [c2, ← hlen] at c1
  have sn := Real.sqrt_pos.2 hnR
  have c4 : |Real.sqrt M - Real.sqrt (lossSquare (getReturns vs))| ≤ eps := by
    rw [c3, hM, Real.sqrt_div hS0, Real.sqrt_div (sum_nonneg_sq _ (fun x => x)), ← sub_div, abs_div, abs_of_pos sn, div_le_iff₀ sn]
    linarith
  refine ⟨q, ?_, e2, ?_⟩
  · unfold downDeviation64
    rw [if_neg (by omega), h1]
    dsimp only
    rw [fold_neg, List.length_map, ofInt_nat (by omega), div64 hnQ.ne']
    exact e1
  · set D := Real.sqrt (lossSquare (getReturns vs)) with hD
    have D0 : 0 ≤ D := Real.sqrt_nonneg _
    obtain ⟨x1, x2⟩ := abs_le.1 e3
    obtain ⟨y1, y2⟩ := abs_le.1 c4
    set r := Real.sqrt M with hr
    have r0 : 0 ≤ r := Real.sqrt_nonneg _
    have hvl : (vs.length : ℝ) = n + 1 := by exact_mod_cast (by omega : vs.length = n + 1)
    have hgu : g + 2 * uu ≤ (vs.length : ℝ) / 2 ^ 51 := by
      rw [hvl, hg]; unfold uu; norm_num; linarith
    have hsm : (vs.length : ℝ) / 2 ^ 51 ≤ 1 / 2 ^ 2 := by
      rw [hvl]; norm_num; linarith
    set t := (vs.length : ℝ) / 2 ^ 51 with ht
    have t0 : 0 ≤ t := by positivity
    have hw' : Real.sqrt w ≤ 2 * r := by
      have := mul_le_mul_of_nonneg_left g1 r0
      linarith
    have z : |(q : ℝ) - r| ≤ t * r := root_aux r0 u0.le hw' e3 k3 k4 hgu
    obtain ⟨z1, z2⟩ := abs_le.1 z
    have he : eps = 1 / 2 ^ 44 := rfl
    have e43 : (1 : ℝ) / 2 ^ 43 = 2 * eps := by rw [he]; norm_num
    have ep := eps_pos
    rw [e43, abs_le]
    have hrD : t * r ≤ t * D + eps := by
      have a1 : t * r ≤ t * (D + eps) := mul_le_mul_of_nonneg_left (by linarith) t0
      have a2 : t * eps ≤ 1 * eps := mul_le_mul_of_nonneg_right (by linarith) ep.le
      linarith
    constructor <;> linarith

/-! ### The standard deviation -/

/-- The variance as computed. -/
def var64 (qs : List ℚ) : ℚ :=
  rnd (rnd (fsq 0 qs / ((qs.length : ℚ) - 1)) - rnd (rnd (fsum 0 qs * fsum 0 qs) / rnd ((qs.length : ℚ) * ((qs.length : ℚ) - 1))))

theorem first_close {P Q F S n : ℝ} {m : ℕ} (n0 : 0 < n) (P0 : 0 ≤ P) (hQ : Q = P / n) (f1 : P * (1 - uu) ^ (2 * m) ≤ F)
    (f2 : F ≤ P * (1 + uu) ^ (2 * m)) (s1 : F / n * (1 - uu) ≤ S) (s2 : S ≤ F / n * (1 + uu)) (hm : ((2 * m + 1 : ℕ) : ℝ) * uu ≤ 1 / 2) :
    |S - Q| ≤ (4 * m + 2) * uu * Q := by
  have u0 := uu_pos
  have u1 := uu_lt_one
  have Q0 : 0 ≤ Q := by rw [hQ]; positivity
  have bp := pow_up hm
  have bd := pow_down (2 * m + 1)
  push_cast at bp bd
  have k1 : Q * (1 - uu) ^ (2 * m + 1) ≤ S := by
    calc Q * (1 - uu) ^ (2 * m + 1) = (P * (1 - uu) ^ (2 * m)) / n * (1 - uu) := by rw [hQ, pow_succ]; ring
      _ ≤ F / n * (1 - uu) := mul_le_mul_of_nonneg_right (div_le_div_of_nonneg_right f1 n0.le) (by linarith)
      _ ≤ S := s1
  have k2 : S ≤ Q * (1 + uu) ^ (2 * m + 1) := by
    calc S ≤ F / n * (1 + uu) := s2
      _ ≤ (P * (1 + uu) ^ (2 * m)) / n * (1 + uu) := mul_le_mul_of_nonneg_right (div_le_div_of_nonneg_right f2 n0.le) (by linarith)
      _ = _ := by rw [hQ, pow_succ]; ring
  have l1 := mul_le_mul_of_nonneg_left bp Q0
  have l2 := mul_le_mul_of_nonneg_left bd Q0
  have m0 : (0 : ℝ) ≤ m := Nat.cast_nonneg _
  have z : 0 ≤ (2 * (m : ℝ) + 1) * uu * Q := by positivity
  rw [abs_le]
  constructor <;> nlinarith

theorem square_close {T F A G γ u : ℝ} (u0 : 0 ≤ u) (u1 : u ≤ 1 / 8) (γ0 : 0 ≤ γ) (γ1 : γ ≤ 1 / 8) (hT : |T| ≤ A) (hF : |F - T| ≤ γ * A)
    (hG : |G - F * F| ≤ u * |F * F|) : |G - T ^ 2| ≤ (3 * γ + 2 * u) * A ^ 2 ∧ G ≤ 2 * A ^ 2 := by
  have A0 : 0 ≤ A := le_trans (abs_nonneg _) hT
  have hFA : |F| ≤ (1 + γ) * A := by
    have := abs_add_le (F - T) T
    rw [sub_add_cancel] at this
    linarith
  have e1 : |F * F| = |F| ^ 2 := by rw [abs_mul]; ring
  have h2 : |F| ^ 2 ≤ ((1 + γ) * A) ^ 2 := pow_le_pow_left₀ (abs_nonneg _) hFA 2
  have h3 : |F * F - T ^ 2| ≤ γ * A * ((2 + γ) * A) := by
    have e : F * F - T ^ 2 = (F - T) * (F + T) := by ring
    rw [e, abs_mul]
    have h4 : |F + T| ≤ (2 + γ) * A := le_trans (abs_add_le _ _) (by linarith)
    exact mul_le_mul hF h4 (abs_nonneg _) (by positivity)
  have A2 : 0 ≤ A ^ 2 := by positivity
  have c1 : (1 + γ) ^ 2 ≤ 3 / 2 := by nlinarith
  have h5 : |F * F| ≤ 3 / 2 * A ^ 2 := by
    rw [e1]
    calc _ ≤ _ := h2
      _ = (1 + γ) ^ 2 * A ^ 2 := by ring
      _ ≤ _ := mul_le_mul_of_nonneg_right c1 A2
  have h6 : u * |F * F| ≤ u * (3 / 2 * A ^ 2) := mul_le_mul_of_nonneg_left h5 u0
  have h7 : γ * A * ((2 + γ) * A) ≤ 3 * γ * A ^ 2 := by
    have : γ * (2 + γ) ≤ 3 * γ := by nlinarith
    calc γ * A * ((2 + γ) * A) = γ * (2 + γ) * A ^ 2 := by ring
      _ ≤ _ := mul_le_mul_of_nonneg_right this A2
  constructor
  · have := abs_add_le (G - F * F) (F * F - T ^ 2)
    rw [sub_add_sub_cancel] at this
    have z : 0 ≤ u * A ^ 2 := by positivity
    linarith
  · have g1 := (abs_le.1 hG).2
    have g2 := le_abs_self (F * F)
    have z : u * (3 / 2 * A ^ 2) ≤ 1 / 8 * (3 / 2 * A ^ 2) := mul_le_mul_of_nonneg_right u1 (by positivity)
    linarith

theorem second_close {G M Mh S B u : ℝ} (u0 : 0 ≤ u) (u1 : u ≤ 1 / 2) (M0 : 0 < M) (G0 : 0 ≤ G) (hG : G ≤ B * M) (hM : |Mh - M| ≤ u * M)
    (hS : |S - G / Mh| ≤ u * (G / Mh)) : |S - G / M| ≤ 4 * u * B := by
  obtain ⟨a, b⟩ := abs_le.1 hM
  have h1 : M / 2 ≤ Mh := by nlinarith
  have Mh0 : 0 < Mh := by linarith
  have h2 : G / Mh ≤ 2 * B := by
    rw [div_le_iff₀ Mh0]
    have B0 : 0 ≤ B := by
      by_contra h
      push Not at h
      nlinarith
    nlinarith
  have q0 : 0 ≤ G / Mh := div_nonneg G0 Mh0.le
  have h3 : |G / Mh - G / M| ≤ u * (G / Mh) := by
    have e : G / Mh - G / M = -((G / Mh) * ((Mh - M) / M)) := by field_simp; ring
    rw [e, abs_neg, abs_mul, abs_of_nonneg q0, abs_div, abs_of_pos M0]
    have : |Mh - M| / M ≤ u := by rw [div_le_iff₀ M0]; exact hM
    nlinarith
  have := abs_add_le (S - G / Mh) (G / Mh - G / M)
  rw [sub_add_sub_cancel] at this
  have h4 : u * (G / Mh) ≤ u * (2 * B) := mul_le_mul_of_nonneg_left h2 u0
  linarith

theorem var64_close (qs : List ℚ) (h2 : 2 ≤ qs.length) (hm : qs.length ≤ 2 ^ 31) :
    |(var64 qs : ℝ) - (sq qs / ((qs.length : ℝ) - 1) - (qs.map fun q : ℚ => (q : ℝ)).sum ^ 2 / (qs.length * ((qs.length : ℝ) - 1)))| ≤
      qs.length / 2 ^ 48 * (sq qs / ((qs.length : ℝ) - 1)) := by
  set n := qs.length with hn
  have nR : (2 : ℝ) ≤ n := by exact_mod_cast h2
  have nQ : (2 : ℚ) ≤ n := by exact_mod_cast h2
  have nU : (n : ℝ) ≤ 2 ^ 31 := by exact_mod_cast hm
  have u0 := uu_pos
  have u1 : uu ≤ 1 / 8 := by unfold uu; norm_num
  obtain ⟨f0, f1, f2⟩ := fsq_bounds qs 0 (le_refl _)
  simp only [Rat.cast_zero, zero_add] at f1 f2
  have hP0 := sq_nonneg' qs
  set P := sq qs with hP
  set F := fsq 0 qs with hF
  have d0 : (0 : ℚ) < (n : ℚ) - 1 := by linarith
  have d0R : (0 : ℝ) < (n : ℝ) - 1 := by linarith
  obtain ⟨s1, s2⟩ := rnd_between (div_nonneg f0 d0.le)
  push_cast at s1 s2
  set Q := P / ((n : ℝ) - 1) with hQ
  have Q0 : 0 ≤ Q := div_nonneg hP0 d0R.le
  have hnu : (n : ℝ) * uu ≤ 1 / 2 ^ 22 := by
    calc (n : ℝ) * uu ≤ 2 ^ 31 * uu := mul_le_mul_of_nonneg_right nU u0.le
      _ = 1 / 2 ^ 22 := by unfold uu; norm_num
  have c1 := first_close (m := n) d0R hP0 hQ f1 f2 s1 s2 (by push_cast; linarith)
  set S1 := rnd (F / ((n : ℚ) - 1)) with hS1
  -- the sum
  have t1 := fsum_bounds qs 0
  simp only [Rat.cast_zero, zero_add, abs_zero] at t1
  set T := (qs.map fun q : ℚ => (q : ℝ)).sum with hT
  set A := absum qs with hA
  have A0 : 0 ≤ A := absum_nonneg qs
  set F2 := fsum 0 qs with hF2
  have hTA : |T| ≤ A := by
    have := abs_sum_le (qs.map fun q : ℚ => (q : ℝ))
    rw [List.map_map] at this
    exact this
  have hAP : A ^ 2 ≤ n * P := by
    have := sum_abs_sq_le (qs.map fun q : ℚ => (q : ℝ))
    rw [List.map_map, List.map_map, List.length_map] at this
    exact this
  have bp := pow_up (m := n) (by linarith)
  have t2 : |(F2 : ℝ) - T| ≤ (2 * n * uu) * A := le_trans t1 (mul_le_mul_of_nonneg_right (by linarith) A0)
  have g := rnd_errR (F2 * F2)
  push_cast at g
  obtain ⟨g1, g2⟩ := square_close u0.le u1 (by positivity) (by linarith) hTA t2 g
  have G0 : 0 ≤ rnd (F2 * F2) := rnd_nonneg (mul_self_nonneg _)
  set G := rnd (F2 * F2) with hG
  have G0R : (0 : ℝ) ≤ G := by exact_mod_cast G0
  -- the quotient
  have M0Q : (0 : ℚ) ≤ (n : ℚ) * ((n : ℚ) - 1) := by positivity
  have M0 : (0 : ℝ) < (n : ℝ) * ((n : ℝ) - 1) := by positivity
  have m := rnd_errR ((n : ℚ) * ((n : ℚ) - 1))
  push_cast at m
  rw [abs_of_pos M0] at m
  set M := (n : ℝ) * ((n : ℝ) - 1) with hM
  have Mh0 : 0 ≤ rnd ((n : ℚ) * ((n : ℚ) - 1)) := rnd_nonneg M0Q
  set Mh := rnd ((n : ℚ) * ((n : ℚ) - 1)) with hMh
  have r := rnd_errR (G / Mh)
  push_cast at r
  rw [abs_of_nonneg (div_nonneg G0R (by exact_mod_cast Mh0))] at r
  have hQM : Q * M = n * P := by rw [hQ, hM]; field_simp
  have gB : (G : ℝ) ≤ 2 * Q * M := by linarith
  have c2 := second_close u0.le (by linarith) M0 G0R gB m r
  set S2 := rnd (G / Mh) with hS2
  have hAM : A ^ 2 / M ≤ Q := by rw [div_le_iff₀ M0, hQM]; exact hAP
  have c3 : |(G : ℝ) / M - T ^ 2 / M| ≤ (6 * n + 2) * uu * Q := by
    rw [← sub_div, abs_div, abs_of_pos M0, div_le_iff₀ M0]
    refine le_trans g1 ?_
    calc (3 * (2 * n * uu) + 2 * uu) * A ^ 2 ≤ (3 * (2 * n * uu) + 2 * uu) * (n * P) := mul_le_mul_of_nonneg_left hAP (by positivity)
      _ = (6 * n + 2) * uu * Q * M := by rw [mul_assoc _ Q M, hQM]; ring
  have c4 : |(S2 : ℝ) - T ^ 2 / M| ≤ (6 * n + 10) * uu * Q := by
    have := abs_add_le ((S2 : ℝ) - G / M) (G / M - T ^ 2 / M)
    rw [sub_add_sub_cancel] at this
    linarith
  have hTQ : T ^ 2 / M ≤ Q := by
    refine le_trans (div_le_div_of_nonneg_right ?_ M0.le) hAM
    rw [← sq_abs]
    exact pow_le_pow_left₀ (abs_nonneg _) hTA 2
  have hTQ0 : 0 ≤ T ^ 2 / M := by positivity
  have v := rnd_errR (S1 - S2)
  push_cast at v
  set D := (S1 : ℝ) - S2 with hD
  have hnQ : (n : ℝ) * uu * Q ≤ 1 / 2 ^ 22 * Q := mul_le_mul_of_nonneg_right hnu Q0
  have huQ : uu * Q ≤ 1 / 2 ^ 22 * Q := by
    refine mul_le_mul_of_nonneg_right ?_ Q0
    unfold uu; norm_num
  have uQ0 : 0 ≤ uu * Q := by positivity
  have hc : |D - (Q - T ^ 2 / M)| ≤ (10 * n + 12) * uu * Q := by
    have := abs_sub (( S1 : ℝ) - Q) ((S2 : ℝ) - T ^ 2 / M)
    have e : (S1 : ℝ) - Q - (S2 - T ^ 2 / M) = D - (Q - T ^ 2 / M) := by rw [hD]; ring
    rw [e] at this
    linarith
  have hD2 : |D| ≤ 2 * Q := by
    have := abs_add_le (D - (Q - T ^ 2 / M)) (Q - T ^ 2 / M)
    rw [sub_add_cancel, abs_of_nonneg (by linarith : 0 ≤ Q - T ^ 2 / M)] at this
    linarith
  have hv : uu * |D| ≤ 2 * (uu * Q) := by
    have := mul_le_mul_of_nonneg_left hD2 u0.le
    linarith
  have fin : |((rnd (S1 - S2) : ℚ) : ℝ) - (Q - T ^ 2 / M)| ≤ (10 * n + 14) * uu * Q := by
    have := abs_add_le (((rnd (S1 - S2) : ℚ) : ℝ) - D) (D - (Q - T ^ 2 / M))
    rw [sub_add_sub_cancel] at this
    linarith
  refine le_trans fin ?_
  have : (10 * (n : ℝ) + 14) * uu ≤ n / 2 ^ 48 := by unfold uu; norm_num; linarith
  exact mul_le_mul_of_nonneg_right this Q0

theorem std64_eq {lg : ℚ → ℚ} {vs : List U256} {qs : List ℚ} (h : getReturns64 lg vs = qs.map F64.fin) (hl : 3 ≤ vs.length)
    (hq : qs.length + 1 = vs.length) (hm : vs.length ≤ 2 ^ 31) : std64 lg vs = F64.sqrt (.fin (var64 qs)) := by
  unfold std64
  rw [if_neg (by omega), h]
  dsimp only
  rw [fold_sq, fold_sum, List.length_map]
  have e1 : ((qs.length : Int) - 1) = ((qs.length - 1 : Nat) : Int) := by omega
  have e2 : mulInt (qs.length : Int) ((qs.length : Int) - 1) = ((qs.length * (qs.length - 1) : Nat) : Int) := by
    unfold mulInt
    rw [e1]
    have : qs.length * (qs.length - 1) ≤ 2 ^ 31 * 2 ^ 31 := Nat.mul_le_mul (by omega) (by omega)
    rw [← Nat.cast_mul]
    exact Int.bmod_eq_of_le (by omega) (by omega)
  rw [e2, e1, ofInt_nat (by omega)]
  have d1 : ((qs.length - 1 : Nat) : ℚ) = (qs.length : ℚ) - 1 := by rw [Nat.cast_sub (by omega)]; simp
  have p1 : (0 : ℚ) < (qs.length : ℚ) - 1 := by
    have : (2 : ℚ) ≤ qs.length := by exact_mod_cast (by omega : 2 ≤ qs.length)
    linarith
  have p2 : (0 : ℚ) < (qs.length : ℚ) := by linarith
  have o : F64.ofInt ((qs.length * (qs.length - 1) : Nat) : Int) = .fin (rnd ((qs.length : ℚ) * ((qs.length : ℚ) - 1))) := by
    unfold F64.ofInt
    rw [← d1]; push_cast; rfl
  rw [o, d1, div64 p1.ne']
  have : F64.mul (.fin (fsum 0 qs)) (.fin (fsum 0 qs)) = .fin (rnd (fsum 0 qs * fsum 0 qs)) := rfl
  rw [this, div64 (rnd_pos (mul_pos p2 p1)).ne']
  unfold var64
  rw [sub_eq_add_neg (rnd _) (rnd _)]
  rfl

theorem mean_close {xs ys : List ℝ} {c : ℝ} (h : List.Forall₂ (fun x y => |x - y| ≤ c) xs ys) :
    |xs.sum - ys.sum| ≤ ys.length * c := by
  induction h with
  | nil => simp
  | @cons x y xs ys hxy _ ih =>
    simp only [List.sum_cons, List.length_cons]
    push_cast
    have := abs_add_le (x - y) (xs.sum - ys.sum)
    have e : x - y + (xs.sum - ys.sum) = x + xs.sum - (y + ys.sum) := by ring
    rw [e] at this
    linarith

theorem dev_close {xs ys : List ℝ} {c : ℝ} (hc : 0 ≤ c) (h : List.Forall₂ (fun x y => |x - y| ≤ c) xs ys) (h2 : 2 ≤ ys.length) :
    |Real.sqrt (variance xs) - Real.sqrt (variance ys)| ≤ 4 * c := by
  have hl := h.length_eq
  have n2 : (2 : ℝ) ≤ ys.length := by exact_mod_cast h2
  have n0 : (0 : ℝ) < ys.length := by linarith
  have m : |mean xs - mean ys| ≤ c := by
    unfold mean
    rw [hl, ← sub_div, abs_div, abs_of_pos n0, div_le_iff₀ n0]
    linarith [mean_close h]
  have d : List.Forall₂ (fun x y => |x - y| ≤ 2 * c) (xs.map fun x => x - mean xs) (ys.map fun y => y - mean ys) := by
    rw [List.forall₂_map_left_iff, List.forall₂_map_right_iff]
    refine h.imp fun x y hxy => ?_
    have := abs_sub (x - y) (mean xs - mean ys)
    have e : x - y - (mean xs - mean ys) = x - mean xs - (y - mean ys) := by ring
    rw [e] at this
    linarith
  have r := root_close' (by linarith) d
  rw [List.map_map, List.map_map, List.length_map] at r
  have p : (0 : ℝ) < (ys.length : ℝ) - 1 := by linarith
  have sp := Real.sqrt_pos.2 p
  unfold variance
  rw [hl, Real.sqrt_div (sum_nonneg_sq xs _), Real.sqrt_div (sum_nonneg_sq ys _), ← sub_div, abs_div, abs_of_pos sp, div_le_iff₀ sp]
  refine le_trans r ?_
  have : Real.sqrt ys.length ≤ 2 * Real.sqrt ((ys.length : ℝ) - 1) := by
    apply Real.sqrt_le_iff.2
    refine ⟨by positivity, ?_⟩
    rw [mul_pow, Real.sq_sqrt p.le]
    linarith
  nlinarith

theorem typical_close {xs ys : List ℝ} {c : ℝ} (hc : 0 ≤ c) (h : List.Forall₂ (fun x y => |x - y| ≤ c) xs ys) (h2 : 2 ≤ ys.length) :
    typical xs ≤ typical ys + 2 * c := by
  have hl := h.length_eq
  have n2 : (2 : ℝ) ≤ ys.length := by exact_mod_cast h2
  have r := root_close hc h
  have p : (0 : ℝ) < (ys.length : ℝ) - 1 := by linarith
  have sp := Real.sqrt_pos.2 p
  unfold typical
  rw [hl, Real.sqrt_div (sum_nonneg_sq xs (fun x => x)), Real.sqrt_div (sum_nonneg_sq ys (fun x => x)), div_le_iff₀ sp, add_mul,
    div_mul_cancel₀ _ sp.ne']
  refine le_trans r ?_
  have : Real.sqrt ys.length ≤ 2 * Real.sqrt ((ys.length : ℝ) - 1) := by
    apply Real.sqrt_le_iff.2
    refine ⟨by positivity, ?_⟩
    rw [mul_pow, Real.sq_sqrt p.le]
    linarith
  nlinarith

theorem sqrt_diff {a b : ℝ} (ha : 0 ≤ a) (hb : 0 ≤ b) : |Real.sqrt a - Real.sqrt b| ≤ Real.sqrt |a - b| := by
  have one : ∀ {a b : ℝ}, 0 ≤ a → 0 ≤ b → Real.sqrt a ≤ Real.sqrt b + Real.sqrt |a - b| := by
    intro a b ha hb
    apply Real.sqrt_le_iff.2
    refine ⟨by positivity, ?_⟩
    have h1 := Real.sq_sqrt hb
    have h2 := Real.sq_sqrt (abs_nonneg (a - b))
    have h3 := Real.sqrt_nonneg b
    have h4 := Real.sqrt_nonneg |a - b|
    have h5 := le_abs_self (a - b)
    nlinarith
  have h1 := one ha hb
  have h2 := one hb ha
  rw [abs_sub_comm b a] at h2
  rw [abs_le]
  constructor <;> linarith

/-- The computed deviation of exact numbers. -/
theorem dev64 (qs : List ℚ) (h2 : 2 ≤ qs.length) (hm : qs.length ≤ 2 ^ 31) :
    (F64.sqrt (.fin (var64 qs)) = .nan ∧
        Real.sqrt (variance (qs.map fun q : ℚ => (q : ℝ))) ≤ Real.sqrt qs.length / 2 ^ 23 * typical (qs.map fun q : ℚ => (q : ℝ))) ∨
      ∃ s : ℚ, F64.sqrt (.fin (var64 qs)) = .fin s ∧ 0 ≤ s ∧
        |(s : ℝ) - Real.sqrt (variance (qs.map fun q : ℚ => (q : ℝ)))| ≤ Real.sqrt qs.length / 2 ^ 23 * typical (qs.map fun q : ℚ => (q : ℝ)) := by
  have c := var64_close qs h2 hm
  have n2 : (2 : ℝ) ≤ qs.length := by exact_mod_cast h2
  have nU : (qs.length : ℝ) ≤ 2 ^ 31 := by exact_mod_cast hm
  set xs := qs.map fun q : ℚ => (q : ℝ) with hxs
  have xl : xs.length = qs.length := List.length_map ..
  have es : (xs.map fun x => x ^ 2).sum = sq qs := by rw [hxs, List.map_map]; rfl
  have ev : variance xs = sq qs / ((qs.length : ℝ) - 1) - xs.sum ^ 2 / (qs.length * ((qs.length : ℝ) - 1)) := by
    unfold variance mean
    rw [sum_sq_shift, xl]
    have : (xs.map fun r => r * r).sum = sq qs := by rw [← es]; congr 2; funext x; ring
    rw [this]
    have a : (qs.length : ℝ) ≠ 0 := by linarith
    have b : (qs.length : ℝ) - 1 ≠ 0 := by linarith
    field_simp
    ring
  have et : typical xs = Real.sqrt (sq qs / ((qs.length : ℝ) - 1)) := by unfold typical; rw [es, xl]
  rw [← ev] at c
  set n : ℝ := (qs.length : ℝ) with hn
  have Q0 : 0 ≤ sq qs / (n - 1) := div_nonneg (sq_nonneg' qs) (by linarith)
  have vQ : variance xs ≤ sq qs / (n - 1) := by
    rw [ev]
    have : 0 ≤ xs.sum ^ 2 / (n * (n - 1)) := div_nonneg (by positivity) (mul_nonneg (by linarith) (by linarith))
    linarith
  have v0 : 0 ≤ variance xs := variance_nonneg xs (by rw [xl]; omega)
  set Q := sq qs / (n - 1) with hQ
  set V := variance xs with hV
  have e1 : Real.sqrt (n / 2 ^ 48 * Q) = Real.sqrt n / 2 ^ 24 * Real.sqrt Q := by
    rw [Real.sqrt_mul (by positivity), Real.sqrt_div (by positivity)]
    congr 2
    rw [show (2 : ℝ) ^ 48 = (2 ^ 24) ^ 2 by norm_num, Real.sqrt_sq (by positivity)]
  rw [et]
  have q0 := Real.sqrt_nonneg Q
  have n0 := Real.sqrt_nonneg n
  have nq : 0 ≤ Real.sqrt n * Real.sqrt Q := mul_nonneg n0 q0
  by_cases hneg : var64 qs < 0
  · left
    refine ⟨by unfold F64.sqrt; dsimp only; rw [if_pos hneg], ?_⟩
    have hw : ((var64 qs : ℚ) : ℝ) < 0 := by exact_mod_cast hneg
    have : V ≤ n / 2 ^ 48 * Q := by linarith [(abs_le.1 c).1]
    have := Real.sqrt_le_sqrt this
    rw [e1] at this
    have e2 : Real.sqrt n / 2 ^ 24 * Real.sqrt Q = Real.sqrt n * Real.sqrt Q / 2 ^ 24 := by ring
    have e3 : Real.sqrt n / 2 ^ 23 * Real.sqrt Q = Real.sqrt n * Real.sqrt Q / 2 ^ 23 := by ring
    rw [e2] at this
    rw [e3]
    linarith
  · right
    obtain ⟨s, s1, s2, s3⟩ := sqrt64_fin (not_lt.1 hneg)
    refine ⟨s, s1, s2, ?_⟩
    have w0 : (0 : ℝ) ≤ ((var64 qs : ℚ) : ℝ) := by exact_mod_cast not_lt.1 hneg
    have d := sqrt_diff w0 v0
    have d2 := le_trans d (Real.sqrt_le_sqrt c)
    rw [e1] at d2
    set W := Real.sqrt ((var64 qs : ℚ) : ℝ) with hW
    have vq := Real.sqrt_le_sqrt vQ
    have n1 : 1 ≤ Real.sqrt n := by rw [Real.one_le_sqrt]; linarith
    have nU2 : Real.sqrt n ≤ 2 ^ 16 := by
      apply Real.sqrt_le_iff.2
      refine ⟨by positivity, le_trans nU (by norm_num)⟩
    have k1 : Real.sqrt n / 2 ^ 24 * Real.sqrt Q ≤ Real.sqrt Q := by
      have : Real.sqrt n / 2 ^ 24 ≤ 1 := by rw [div_le_one (by positivity)]; linarith
      nlinarith
    have k2 : W ≤ 2 * Real.sqrt Q := by linarith [(abs_le.1 d2).2]
    have u0 := uu_pos
    have k3 : uu * W ≤ Real.sqrt n / 2 ^ 24 * Real.sqrt Q := by
      have a : uu * W ≤ uu * (2 * Real.sqrt Q) := mul_le_mul_of_nonneg_left k2 u0.le
      have b : 2 * uu ≤ Real.sqrt n / 2 ^ 24 := by
        rw [le_div_iff₀ (by positivity)]
        have : 2 * uu * 2 ^ 24 ≤ 1 := by unfold uu; norm_num
        linarith
      have := mul_le_mul_of_nonneg_right b q0
      linarith
    have := abs_add_le ((s : ℝ) - W) (W - Real.sqrt V)
    rw [sub_add_sub_cancel] at this
    have e4 : Real.sqrt n / 2 ^ 23 * Real.sqrt Q = 2 * (Real.sqrt n / 2 ^ 24 * Real.sqrt Q) := by ring
    rw [e4]
    linarith

theorem std64_spec {lg : ℚ → ℚ} (hlg : LogUlp lg) {vs : List U256} (hpos : ∀ v ∈ vs, 0 < v.toNat) (hl : 3 ≤ vs.length)
    (hm : vs.length ≤ 2 ^ 31) :
    (std64 lg vs = .nan ∧ Real.sqrt (variance (getReturns vs)) ≤ tolerance (getReturns vs)) ∨
      ∃ s : ℚ, std64 lg vs = .fin s ∧ 0 ≤ s ∧ |(s : ℝ) - Real.sqrt (variance (getReturns vs))| ≤ tolerance (getReturns vs) := by
  obtain ⟨qs, h1, h2⟩ := returns_err hlg vs hpos
  have hlen := h2.length_eq
  have hgl := getReturns_length vs
  have hcl : List.Forall₂ (fun x y => |x - y| ≤ eps) (qs.map fun q : ℚ => (q : ℝ)) (getReturns vs) := by
    rw [List.forall₂_map_left_iff]; exact h2
  have ep := eps_pos
  have dc := dev_close ep.le hcl (by omega)
  have tc := typical_close ep.le hcl (by omega)
  have dd := dev64 qs (by omega) (by omega)
  rw [std64_eq h1 hl (by omega) hm]
  set xs := qs.map fun q : ℚ => (q : ℝ) with hxs
  have nU : (qs.length : ℝ) ≤ 2 ^ 31 := by exact_mod_cast (by omega : qs.length ≤ 2 ^ 31)
  have nU2 : Real.sqrt qs.length ≤ 2 ^ 16 := by
    apply Real.sqrt_le_iff.2
    refine ⟨by positivity, le_trans nU (by norm_num)⟩
  have tol : Real.sqrt qs.length / 2 ^ 23 * typical xs + 4 * eps ≤ tolerance (getReturns vs) := by
    unfold tolerance
    rw [← hlen]
    have a : Real.sqrt qs.length / 2 ^ 23 * typical xs ≤ Real.sqrt qs.length / 2 ^ 23 * (typical (getReturns vs) + 2 * eps) :=
      mul_le_mul_of_nonneg_left tc (by positivity)
    have b : Real.sqrt qs.length / 2 ^ 23 * (2 * eps) ≤ 1 * (2 * eps) := by
      apply mul_le_mul_of_nonneg_right _ (by linarith)
      rw [div_le_one (by positivity)]
      linarith
    have e41 : (1 : ℝ) / 2 ^ 41 = 8 * eps := by unfold eps; norm_num
    rw [e41]
    linarith
  obtain ⟨y1, y2⟩ := abs_le.1 dc
  rcases dd with ⟨d1, d2⟩ | ⟨s, d1, d2, d3⟩
  · exact Or.inl ⟨d1, by linarith⟩
  · refine Or.inr ⟨s, d1, d2, ?_⟩
    obtain ⟨z1, z2⟩ := abs_le.1 d3
    rw [abs_le]
    constructor <;> linarith

end Main
end Uni
