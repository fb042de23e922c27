import Verif.Spec.IEEE
import Verif.Proofs.Stats64
/-! The IEEE 754 format and the simplified one agree away from the ends of the exponent range -/
namespace Uni
namespace IEEE
open Spec TickRound

/-- far from the ends of the exponent range -/
def Tame (q : ℚ) : Prop := q = 0 ∨ (2 : ℚ) ^ (-1000 : Int) ≤ |q| ∧ |q| ≤ 2 ^ (1000 : Int)

/-- a multiple of `2^-k` -/
def Grid (k : Nat) (x : ℚ) : Prop := ∃ m : Int, x = m * 2 ^ (-(k : Int))

theorem abs_rnd (x : ℚ) : |rnd x| = rnd |x| := by
  rcases le_total 0 x with h | h
  · rw [abs_of_nonneg h, abs_of_nonneg (rnd_nonneg h)]
  · rw [abs_of_nonpos h, rnd_neg, abs_of_nonpos]
    have := rnd_nonneg (x := -x) (by linarith)
    rw [rnd_neg] at this; linarith

theorem rnd_two_pow (e : Int) : rnd ((2 : ℚ) ^ e) = 2 ^ e := by
  have := rnd_exact (m := 1) (by norm_num) e
  simpa using this

theorem le_abs_rnd {x : ℚ} {e : Int} (h : (2 : ℚ) ^ e ≤ |x|) : (2 : ℚ) ^ e ≤ |rnd x| := by
  rw [abs_rnd, ← rnd_two_pow e]; exact rnd_mono h

theorem abs_rnd_le {x : ℚ} {e : Int} (h : |x| ≤ (2 : ℚ) ^ e) : |rnd x| ≤ (2 : ℚ) ^ e := by
  rw [abs_rnd, ← rnd_two_pow e]; exact rnd_mono h

theorem rd_tame {q : ℚ} (h : Tame q) : B64.rd false q = ieee (.fin (rnd q)) := by
  unfold B64.rd
  show _ = (if rnd q = 0 then B64.zero false else B64.num (rnd q))
  rcases h with h | ⟨h1, h2⟩
  · rw [if_pos h, if_pos (rnd_eq_zero.2 h)]
  · have hq : q ≠ 0 := by
      intro hc; rw [hc, abs_zero] at h1
      exact absurd h1 (not_le.2 (zpow_pos (by norm_num) _))
    have hl : -1000 ≤ Int.log 2 |q| := by
      rw [← Int.zpow_le_iff_le_log (by norm_num) (abs_pos.2 hq)]
      exact_mod_cast h1
    have hm : Max.max (Int.log 2 |q| - 52) (-1074) = Int.log 2 |q| - 52 := max_eq_left (by omega)
    rw [if_neg hq, hm]
    have hr : (roundEven (q / 2 ^ (Int.log 2 |q| - 52)) : ℚ) * 2 ^ (Int.log 2 |q| - 52) = rnd q := rfl
    dsimp only
    rw [hr, if_neg (fun hc => hq (rnd_eq_zero.1 hc)), if_neg (fun hc => hq (rnd_eq_zero.1 hc)), if_neg]
    have := abs_rnd_le h2
    rw [not_le]
    refine lt_of_le_of_lt this ?_
    have : (2 : ℚ) ^ (1000 : Int) < 2 ^ (1024 : Int) := zpow_lt_zpow_right₀ (by norm_num) (by norm_num)
    exact_mod_cast this

theorem grid_rnd {k : Nat} {y : ℚ} (h : Grid k y) : Grid k (rnd y) := by
  obtain ⟨m, hm⟩ := h
  by_cases he : -(k : Int) ≤ Int.log 2 |y| - 52
  · refine ⟨roundEven (y / 2 ^ (Int.log 2 |y| - 52)) * 2 ^ (Int.log 2 |y| - 52 + k).toNat, ?_⟩
    have : rnd y = (roundEven (y / 2 ^ (Int.log 2 |y| - 52)) : ℚ) * 2 ^ (Int.log 2 |y| - 52) := rfl
    rw [this]
    push_cast
    rw [mul_assoc]
    congr 1
    rw [← zpow_natCast, Int.toNat_of_nonneg (by omega), ← zpow_add₀ (by norm_num)]
    congr 1; ring
  · have : rnd y = (roundEven (y / 2 ^ (Int.log 2 |y| - 52)) : ℚ) * 2 ^ (Int.log 2 |y| - 52) := rfl
    have h2 : y / 2 ^ (Int.log 2 |y| - 52) = ((m * 2 ^ (-(k : Int) - (Int.log 2 |y| - 52)).toNat : Int) : ℚ) := by
      push_cast
      rw [← zpow_natCast, Int.toNat_of_nonneg (by omega), zpow_sub₀ (by norm_num : (2 : ℚ) ≠ 0) (-(k : Int)), ← mul_div_assoc, ← hm]
    refine ⟨m, ?_⟩
    rw [← hm, this, h2, roundEven_int, ← h2]
    exact div_mul_cancel₀ _ (ne_of_gt (zpow_pos (by norm_num) _))

theorem grid_add {k : Nat} {x y : ℚ} (hx : Grid k x) (hy : Grid k y) : Grid k (x + y) := by
  obtain ⟨m, rfl⟩ := hx
  obtain ⟨n, rfl⟩ := hy
  exact ⟨m + n, by push_cast; ring⟩

theorem grid_neg {k : Nat} {x : ℚ} (hx : Grid k x) : Grid k (-x) := by
  obtain ⟨m, rfl⟩ := hx
  exact ⟨-m, by push_cast; ring⟩

theorem grid_sub {k : Nat} {x y : ℚ} (hx : Grid k x) (hy : Grid k y) : Grid k (x - y) := by
  rw [sub_eq_add_neg]; exact grid_add hx (grid_neg hy)

theorem grid_mul {j k : Nat} {x y : ℚ} (hx : Grid j x) (hy : Grid k y) : Grid (j + k) (x * y) := by
  obtain ⟨m, rfl⟩ := hx
  obtain ⟨n, rfl⟩ := hy
  refine ⟨m * n, ?_⟩
  push_cast
  rw [neg_add, zpow_add₀ (by norm_num : (2 : ℚ) ≠ 0)]; ring

theorem grid_mono {j k : Nat} (h : j ≤ k) {x : ℚ} (hx : Grid j x) : Grid k x := by
  obtain ⟨m, rfl⟩ := hx
  refine ⟨m * 2 ^ (k - j), ?_⟩
  push_cast
  rw [mul_assoc, ← zpow_natCast, ← zpow_add₀ (by norm_num : (2 : ℚ) ≠ 0)]
  congr 2; omega

theorem grid_zero (k : Nat) : Grid k 0 := ⟨0, by simp⟩

theorem grid_int (m : Int) : Grid 0 m := ⟨m, by simp⟩

theorem grid_ge {k : Nat} {x : ℚ} (hx : Grid k x) (h0 : x ≠ 0) : (2 : ℚ) ^ (-(k : Int)) ≤ |x| := by
  obtain ⟨m, rfl⟩ := hx
  have hm : m ≠ 0 := by rintro rfl; simp at h0
  have h1 : (1 : ℚ) ≤ |(m : ℚ)| := by
    rw [← Int.cast_abs]; exact_mod_cast Int.one_le_abs hm
  rw [abs_mul, abs_of_pos (zpow_pos (by norm_num : (0 : ℚ) < 2) (-(k : Int)))]
  exact le_mul_of_one_le_left (le_of_lt (zpow_pos (by norm_num) _)) h1

/-- a float64 that is not too small is on a grid -/
theorem grid_of_ge {k : Nat} {x : ℚ} (hr : rnd x = x) (h : (2 : ℚ) ^ (-(k : Int)) ≤ |x|) : Grid (k + 52) x := by
  have hx : x ≠ 0 := by
    rintro rfl; rw [abs_zero] at h
    exact absurd h (not_le.2 (zpow_pos (by norm_num) _))
  have hl : -(k : Int) ≤ Int.log 2 |x| := by
    rw [← Int.zpow_le_iff_le_log (by norm_num) (abs_pos.2 hx)]
    exact_mod_cast h
  have : rnd x = (roundEven (x / 2 ^ (Int.log 2 |x| - 52)) : ℚ) * 2 ^ (Int.log 2 |x| - 52) := rfl
  refine ⟨roundEven (x / 2 ^ (Int.log 2 |x| - 52)) * 2 ^ (Int.log 2 |x| + k).toNat, ?_⟩
  conv_lhs => rw [← hr, this]
  push_cast
  rw [mul_assoc]
  congr 1
  rw [← zpow_natCast, Int.toNat_of_nonneg (by omega), ← zpow_add₀ (by norm_num)]
  congr 1; ring

theorem tame_of {k : Nat} (hk : k ≤ 1000) {x : ℚ} (hx : Grid k x) (h : |x| ≤ 2 ^ (1000 : Int)) : Tame x := by
  by_cases h0 : x = 0
  · exact Or.inl h0
  · refine Or.inr ⟨le_trans ?_ (grid_ge hx h0), h⟩
    exact zpow_le_zpow_right₀ (by norm_num) (by omega)

/-! ### The operations -/

theorem ieee_zero : ieee (.fin 0) = .zero false := by simp [ieee]
theorem ieee_num {q : ℚ} (h : q ≠ 0) : ieee (.fin q) = .num q := by simp [ieee, h]

theorem add_eq' {a b : F64} (h : ∀ x y, a = .fin x → b = .fin y → Tame (x + y)) : ieee (F64.add a b) = B64.add (ieee a) (ieee b) := by
  cases a with
  | nan => cases b <;> rfl
  | inf s =>
    cases b with
    | nan => rfl
    | inf t => cases s <;> cases t <;> rfl
    | fin y => by_cases hy : y = 0 <;> simp [F64.add, ieee, B64.add, hy]
  | fin x =>
    cases b with
    | nan => by_cases hx : x = 0 <;> simp [F64.add, ieee, B64.add, hx]
    | inf t => by_cases hx : x = 0 <;> simp [F64.add, ieee, B64.add, hx]
    | fin y =>
      have ht := h x y rfl rfl
      show ieee (.fin (rnd (x + y))) = _
      rw [← rd_tame ht]
      by_cases hx : x = 0
      · by_cases hy : y = 0
        · subst hx hy; rw [ieee_zero]; simp [B64.rd, B64.add]
        · subst hx; rw [ieee_zero, ieee_num hy, zero_add]; rfl
      · by_cases hy : y = 0
        · subst hy; rw [ieee_zero, ieee_num hx, add_zero]; rfl
        · rw [ieee_num hx, ieee_num hy]; rfl

theorem sub_eq' {x y : ℚ} (h : Tame (x - y)) : ieee (F64.sub (.fin x) (.fin y)) = B64.sub (ieee (.fin x)) (ieee (.fin y)) := by
  show ieee (.fin (rnd (x + -y))) = _
  rw [← sub_eq_add_neg, ← rd_tame h]
  by_cases hx : x = 0
  · by_cases hy : y = 0
    · subst hx hy; rw [ieee_zero]; simp [B64.rd, B64.sub, B64.neg, B64.add]
    · subst hx; rw [ieee_zero, ieee_num hy, zero_sub]; rfl
  · by_cases hy : y = 0
    · subst hy; rw [ieee_zero, ieee_num hx, sub_zero]; rfl
    · rw [ieee_num hx, ieee_num hy, sub_eq_add_neg]; rfl

/-- subtraction of anything -/
theorem sub_eq'' {a b : F64} (h : ∀ x y, a = .fin x → b = .fin y → Tame (x - y)) : ieee (F64.sub a b) = B64.sub (ieee a) (ieee b) := by
  cases a with
  | nan => cases b <;> rfl
  | inf s =>
    cases b with
    | nan => rfl
    | inf t => cases s <;> cases t <;> rfl
    | fin y => by_cases hy : y = 0 <;> simp [F64.sub, F64.neg, F64.add, ieee, B64.sub, B64.neg, B64.add, hy]
  | fin x =>
    cases b with
    | nan => by_cases hx : x = 0 <;> simp [F64.sub, F64.neg, F64.add, ieee, B64.sub, B64.neg, B64.add, hx]
    | inf t => by_cases hx : x = 0 <;> simp [F64.sub, F64.neg, F64.add, ieee, B64.sub, B64.neg, B64.add, hx]
    | fin y => exact sub_eq' (h x y rfl rfl)

theorem sq_eq' {a : F64} (h : ∀ x, a = .fin x → Tame (x * x)) : ieee (F64.mul a a) = B64.mul (ieee a) (ieee a) := by
  cases a with
  | nan => rfl
  | inf s => cases s <;> rfl
  | fin x =>
    have ht := h x rfl
    show ieee (.fin (rnd (x * x))) = _
    rw [← rd_tame ht]
    by_cases hx : x = 0
    · subst hx; rw [ieee_zero]; simp [B64.rd, B64.mul, B64.sign]
    · rw [ieee_num hx]; rfl

theorem div_eq' {a : F64} {y : ℚ} (hy0 : 0 ≤ y) (h : ∀ x, a = .fin x → y ≠ 0 → Tame (x / y)) :
    ieee (F64.div a (.fin y)) = B64.div (ieee a) (ieee (.fin y)) := by
  have hlt : ¬ y < 0 := not_lt.2 hy0
  cases a with
  | nan => by_cases hy : y = 0 <;> simp [F64.div, ieee, B64.div, hy]
  | inf s => by_cases hy : y = 0 <;> simp [F64.div, ieee, B64.div, B64.sign, hy, hlt]
  | fin x =>
    by_cases hy : y = 0
    · subst hy
      by_cases hx : x = 0 <;> simp [F64.div, ieee, B64.div, B64.sign, hx]
    · have ht := h x rfl hy
      have hd : F64.div (.fin x) (.fin y) = .fin (rnd (x / y)) := by simp [F64.div, hy]
      rw [hd, ← rd_tame ht, ieee_num hy]
      by_cases hx : x = 0
      · subst hx; rw [ieee_zero]; simp [B64.rd, B64.div, B64.sign, hlt]
      · rw [ieee_num hx]; rfl

theorem lt_eq' (a b : F64) : B64.lt (ieee a) (ieee b) = F64.lt a b := by
  cases a with
  | nan => cases b <;> rfl
  | inf s =>
    cases b with
    | nan => rfl
    | inf t => rfl
    | fin y => by_cases hy : y = 0 <;> simp [F64.lt, ieee, B64.lt, hy]
  | fin x =>
    cases b with
    | nan => by_cases hx : x = 0 <;> simp [F64.lt, ieee, B64.lt, hx]
    | inf t => by_cases hx : x = 0 <;> simp [F64.lt, ieee, B64.lt, hx]
    | fin y => by_cases hx : x = 0 <;> by_cases hy : y = 0 <;> simp [F64.lt, ieee, B64.lt, hx, hy]

theorem ieee_nan (a : F64) : ieee a = .nan ↔ a = .nan := by
  cases a with
  | nan => simp [ieee]
  | inf s => simp [ieee]
  | fin x => by_cases hx : x = 0 <;> simp [ieee, hx]

theorem before_eq' (a b : F64) : B64.before (ieee a) (ieee b) ↔ F64.before a b := by
  unfold B64.before F64.before
  rw [lt_eq', ieee_nan, ne_eq, ieee_nan]

theorem max_eq' (x y : ℚ) : ieee (F64.max (.fin x) (.fin y)) = B64.max (ieee (.fin x)) (ieee (.fin y)) := by
  show ieee (.fin (Max.max x y)) = _
  by_cases hx : x = 0
  · by_cases hy : y = 0
    · subst hx hy; simp [ieee, B64.max]
    · subst hx
      rcases lt_or_gt_of_ne hy with c | c
      · rw [max_eq_left (le_of_lt c), ieee_zero, ieee_num hy]; simp [B64.max, B64.lt, c]
      · rw [max_eq_right (le_of_lt c), ieee_zero, ieee_num hy]; simp [B64.max, B64.lt, not_lt.2 (le_of_lt c)]
  · by_cases hy : y = 0
    · subst hy
      rcases lt_or_gt_of_ne hx with c | c
      · rw [max_eq_right (le_of_lt c), ieee_zero, ieee_num hx]; simp [B64.max, B64.lt, not_lt.2 (le_of_lt c)]
      · rw [max_eq_left (le_of_lt c), ieee_zero, ieee_num hx]; simp [B64.max, B64.lt, c]
    · rw [ieee_num hx, ieee_num hy]
      by_cases c : y < x
      · rw [max_eq_left (le_of_lt c), ieee_num hx]; simp [B64.max, B64.lt, c]
      · rw [max_eq_right (not_lt.1 c), ieee_num hy]; simp [B64.max, B64.lt, c]

theorem min_fin {x : ℚ} (b : F64) : ieee (F64.min (.fin x) b) = B64.min (ieee (.fin x)) (ieee b) := by
  cases b with
  | nan => by_cases hx : x = 0 <;> simp [F64.min, ieee, B64.min, hx]
  | inf t => cases t <;> by_cases hx : x = 0 <;> simp [F64.min, ieee, B64.min, B64.lt, hx]
  | fin y =>
    show ieee (.fin (Min.min x y)) = _
    by_cases hx : x = 0
    · by_cases hy : y = 0
      · subst hx hy; simp [ieee, B64.min]
      · subst hx
        rcases lt_or_gt_of_ne hy with c | c
        · rw [min_eq_right (le_of_lt c), ieee_zero, ieee_num hy]; simp [B64.min, B64.lt, not_lt.2 (le_of_lt c)]
        · rw [min_eq_left (le_of_lt c), ieee_zero, ieee_num hy]; simp [B64.min, B64.lt, c]
    · by_cases hy : y = 0
      · subst hy
        rcases lt_or_gt_of_ne hx with c | c
        · rw [min_eq_left (le_of_lt c), ieee_zero, ieee_num hx]; simp [B64.min, B64.lt, c]
        · rw [min_eq_right (le_of_lt c), ieee_zero, ieee_num hx]; simp [B64.min, B64.lt, not_lt.2 (le_of_lt c)]
      · rw [ieee_num hx, ieee_num hy]
        by_cases c : x < y
        · rw [min_eq_left (le_of_lt c), ieee_num hx]; simp [B64.min, B64.lt, c]
        · rw [min_eq_right (not_lt.1 c), ieee_num hy]; simp [B64.min, B64.lt, c]

theorem min_eq' (a b : F64) : ieee (F64.min a b) = B64.min (ieee a) (ieee b) := by
  cases a with
  | nan =>
    cases b with
    | nan => rfl
    | inf t => cases t <;> rfl
    | fin y => by_cases hy : y = 0 <;> simp [F64.min, ieee, B64.min, hy]
  | inf s =>
    cases b with
    | nan => cases s <;> rfl
    | inf t => cases s <;> cases t <;> rfl
    | fin y => cases s <;> by_cases hy : y = 0 <;> simp [F64.min, ieee, B64.min, B64.lt, hy]
  | fin x => exact min_fin b

end IEEE
end Uni
