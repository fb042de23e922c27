import Verif.Model.TickRound
import Mathlib.Tactic.Linarith
import Mathlib.Tactic.FieldSimp
import Mathlib.Tactic.Positivity
import Mathlib.Algebra.Order.Field.Rat
/-! Float rounding does not disturb tick rounding. -/
namespace Uni
namespace TickRound

theorem roundEven_le {q : ℚ} {m : Int} (h : q ≤ m) : roundEven q ≤ m := by
  have h1 : ⌊q⌋ ≤ m := by
    have := Int.floor_le_floor h
    rwa [Int.floor_intCast] at this
  unfold roundEven
  dsimp only
  by_cases h2 : ⌊q⌋ = m
  · have : q - (⌊q⌋ : ℚ) < 1 / 2 := by rw [h2]; linarith
    rw [if_pos this]; exact h1
  · split
    · exact h1
    · split
      · omega
      · split <;> omega

theorem le_roundEven {q : ℚ} {m : Int} (h : m ≤ q) : m ≤ roundEven q := by
  have h1 : m ≤ ⌊q⌋ := Int.le_floor.2 h
  unfold roundEven
  dsimp only
  split
  · exact h1
  · split
    · omega
    · split <;> omega

theorem log_le {q : ℚ} (h : |q| < 2 ^ 32) : Int.log 2 |q| ≤ 31 := by
  by_cases h0 : 0 < |q|
  · have h1 := Int.zpow_log_le_self (b := 2) (by norm_num) h0
    by_contra hc
    push Not at hc
    have h2 : ((2 : Nat) : ℚ) ^ (32 : Int) ≤ ((2 : Nat) : ℚ) ^ (Int.log 2 |q|) := zpow_le_zpow_right₀ (by norm_num) (by omega)
    have h3 : ((2 : Nat) : ℚ) ^ (32 : Int) = 2 ^ 32 := by norm_num
    rw [h3] at h2
    linarith
  · rw [Int.log_of_right_le_zero _ (by linarith)]
    norm_num

theorem grid_scale (n : Int) (e : Int) (he : e ≤ -21) :
    (n : ℚ) / 2 ^ 21 / 2 ^ e = ((n * 2 ^ (-21 - e).toNat : Int) : ℚ) := by
  have h : (2 : ℚ) ^ e = 1 / (2 ^ 21 * 2 ^ (-21 - e).toNat) := by
    have : e = -(((21 + (-21 - e).toNat : Nat)) : Int) := by omega
    conv_lhs => rw [this]
    rw [zpow_neg, zpow_natCast, pow_add]
    field_simp
  rw [h]
  push_cast
  field_simp

theorem rnd_le {q : ℚ} (hq : |q| < 2 ^ 32) (n : Int) (h : q ≤ n / 2 ^ 21) : rnd q ≤ n / 2 ^ 21 := by
  unfold rnd
  dsimp only
  have he := log_le hq
  generalize he' : Int.log 2 |q| - 52 = e
  have hp : (0 : ℚ) < 2 ^ e := zpow_pos (by norm_num) _
  have h1 : q / 2 ^ e ≤ ((n * 2 ^ (-21 - e).toNat : Int) : ℚ) := by
    rw [← grid_scale n e (by omega)]
    exact div_le_div_of_nonneg_right h (le_of_lt hp)
  have h2 : (roundEven (q / 2 ^ e) : ℚ) ≤ ((n * 2 ^ (-21 - e).toNat : Int) : ℚ) := by
    exact_mod_cast roundEven_le h1
  rw [← grid_scale n e (by omega), le_div_iff₀ hp] at h2
  exact h2

theorem le_rnd {q : ℚ} (hq : |q| < 2 ^ 32) (n : Int) (h : n / 2 ^ 21 ≤ q) : n / 2 ^ 21 ≤ rnd q := by
  unfold rnd
  dsimp only
  have he := log_le hq
  generalize he' : Int.log 2 |q| - 52 = e
  have hp : (0 : ℚ) < 2 ^ e := zpow_pos (by norm_num) _
  have h1 : ((n * 2 ^ (-21 - e).toNat : Int) : ℚ) ≤ q / 2 ^ e := by
    rw [← grid_scale n e (by omega)]
    exact div_le_div_of_nonneg_right h (le_of_lt hp)
  have h2 : ((n * 2 ^ (-21 - e).toNat : Int) : ℚ) ≤ (roundEven (q / 2 ^ e) : ℚ) := by
    exact_mod_cast le_roundEven h1
  rw [← grid_scale n e (by omega), div_le_iff₀ hp] at h2
  exact h2

theorem rnd_int {m : Int} (h1 : -2 ^ 32 < m) (h2 : m < 2 ^ 32) : rnd m = m := by
  have hq : |(m : ℚ)| < 2 ^ 32 := by
    rw [abs_lt]
    constructor
    · exact_mod_cast h1
    · exact_mod_cast h2
  have e : (m : ℚ) = ((m * 2 ^ 21 : Int) : ℚ) / 2 ^ 21 := by push_cast; field_simp; norm_num
  apply le_antisymm
  · conv_rhs => rw [e]
    exact rnd_le hq _ (le_of_eq e)
  · conv_lhs => rw [e]
    exact le_rnd hq _ (le_of_eq e.symm)

theorem toIntTrunc_int (m : Int) : toIntTrunc m = m := by
  unfold toIntTrunc
  split
  · exact Int.floor_intCast m
  · exact Int.ceil_intCast m

theorem abs_quot {x u : Int} (hx1 : -2 ^ 31 < x) (hx2 : x < 2 ^ 31) (hu : 0 < u) : |(x : ℚ) / u| < 2 ^ 32 := by
  have hu' : (1 : ℚ) ≤ u := by exact_mod_cast hu
  have a : (x : ℚ) < 2 ^ 31 := by exact_mod_cast hx2
  have b : (-2 ^ 31 : ℚ) < x := by exact_mod_cast hx1
  rw [abs_lt]
  constructor
  · rw [lt_div_iff₀ (by linarith)]; linarith
  · rw [div_lt_iff₀ (by linarith)]; linarith

/-- Float quotient between integers-plus-fraction bounds: if `a*u ≤ 2x` and `2x < b*u` (so `2x+1 ≤ b*u`) then the
float quotient lies in `[a/2, b/2 - 2^-21]`. -/
theorem quot_bounds {x u a b : Int} (hx1 : -2 ^ 31 < x) (hx2 : x < 2 ^ 31) (hu : 0 < u) (hu2 : u ≤ 2 ^ 20)
    (ha : a * u ≤ 2 * x) (hb : 2 * x < b * u) :
    (a : ℚ) / 2 ≤ rnd ((x : ℚ) / u) ∧ rnd ((x : ℚ) / u) < (b : ℚ) / 2 := by
  have hq := abs_quot hx1 hx2 hu
  have hu' : (0 : ℚ) < u := by exact_mod_cast hu
  have hu2' : (u : ℚ) ≤ 2 ^ 20 := by exact_mod_cast hu2
  constructor
  · have e : (a : ℚ) / 2 = ((a * 2 ^ 20 : Int) : ℚ) / 2 ^ 21 := by push_cast; field_simp; norm_num
    rw [e]
    apply le_rnd hq
    rw [← e, div_le_div_iff₀ (by norm_num) hu']
    have : (a : ℚ) * u ≤ 2 * x := by exact_mod_cast ha
    linarith
  · have hb' : (2 : ℚ) * x + 1 ≤ b * u := by exact_mod_cast (by omega : 2 * x + 1 ≤ b * u)
    have : rnd ((x : ℚ) / u) ≤ ((b * 2 ^ 20 - 1 : Int) : ℚ) / 2 ^ 21 := by
      apply rnd_le hq
      rw [div_le_div_iff₀ hu' (by norm_num)]
      push_cast
      nlinarith
    refine lt_of_le_of_lt this ?_
    push_cast
    rw [div_lt_div_iff₀ (by norm_num) (by norm_num)]
    linarith

theorem final_int {k u : Int} (h1 : -2 ^ 32 < k * u) (h2 : k * u < 2 ^ 32) : toIntTrunc (rnd ((k : ℚ) * (u : ℚ))) = k * u := by
  have e : ((k : ℚ) * (u : ℚ)) = ((k * u : Int) : ℚ) := by push_cast; ring
  rw [e, rnd_int h1 h2, toIntTrunc_int]

theorem float64_int {m : Int} (h1 : -2 ^ 32 < m) (h2 : m < 2 ^ 32) : float64 m = m := rnd_int h1 h2

theorem floor_eq {x u : Int} (hx1 : -2 ^ 31 < x) (hx2 : x < 2 ^ 31) (hu : 0 < u) (hu2 : u ≤ 2 ^ 20) :
    floor x u = x / u * u := by
  have h1 : x / u * u ≤ x := Int.ediv_mul_le _ (by omega)
  have h2 : x < (x / u + 1) * u := Int.lt_ediv_add_one_mul_self _ hu
  unfold floor
  dsimp only
  rw [float64_int (by omega) (by omega), float64_int (by omega) (by omega)]
  generalize x / u = k at *
  rw [add_mul, one_mul] at h2
  obtain ⟨a, b⟩ := quot_bounds hx1 hx2 hu hu2 (a := 2 * k) (b := 2 * (k + 1)) (by rw [mul_assoc]; omega)
    (by rw [mul_assoc, add_mul, one_mul]; omega)
  unfold mathFloor
  have : ⌊rnd ((x : ℚ) / u)⌋ = k := by
    rw [Int.floor_eq_iff]
    push_cast at a b ⊢
    constructor <;> linarith
  rw [this]
  exact final_int (by omega) (by omega)

theorem ceil_eq {x u : Int} (hx1 : -2 ^ 31 < x) (hx2 : x < 2 ^ 31) (hu : 0 < u) (hu2 : u ≤ 2 ^ 20) :
    ceil x u = -((-x) / u) * u := by
  have h1 : (-x) / u * u ≤ -x := Int.ediv_mul_le _ (by omega)
  have h2 : -x < ((-x) / u + 1) * u := Int.lt_ediv_add_one_mul_self _ hu
  unfold ceil
  dsimp only
  rw [float64_int (by omega) (by omega), float64_int (by omega) (by omega)]
  generalize (-x) / u = k at *
  rw [add_mul, one_mul] at h2
  -- x in ((-k-1)*u, -k*u]
  have hq := abs_quot hx1 hx2 hu
  have hu' : (0 : ℚ) < u := by exact_mod_cast hu
  have hu2' : (u : ℚ) ≤ 2 ^ 20 := by exact_mod_cast hu2
  have up : rnd ((x : ℚ) / u) ≤ ((-k : Int) : ℚ) := by
    have e : ((-k : Int) : ℚ) = ((-k * 2 ^ 21 : Int) : ℚ) / 2 ^ 21 := by push_cast; field_simp; norm_num
    rw [e]
    apply rnd_le hq
    rw [← e, div_le_iff₀ hu']
    have : x ≤ -k * u := by rw [neg_mul]; omega
    exact_mod_cast this
  have lo : ((-k : Int) : ℚ) - 1 < rnd ((x : ℚ) / u) := by
    have h3 : ((-k - 1) * u + 1 : Int) ≤ x := by
      rw [sub_mul, neg_mul, one_mul]; omega
    have h3' : ((-k : ℚ) - 1) * u + 1 ≤ x := by exact_mod_cast h3
    have : (((-k - 1) * 2 ^ 21 + 2 : Int) : ℚ) / 2 ^ 21 ≤ rnd ((x : ℚ) / u) := by
      apply le_rnd hq
      rw [div_le_div_iff₀ (by norm_num) hu']
      push_cast
      nlinarith
    refine lt_of_lt_of_le ?_ this
    push_cast
    rw [lt_div_iff₀ (by norm_num)]
    linarith
  unfold mathCeil
  have : ⌈rnd ((x : ℚ) / u)⌉ = -k := by
    rw [Int.ceil_eq_iff]
    exact ⟨lo, up⟩
  rw [this]
  exact final_int (by rw [neg_mul]; omega) (by rw [neg_mul]; omega)

theorem round_nonneg_eq {x u : Int} (hx1 : 0 ≤ x) (hx2 : x < 2 ^ 31) (hu : 0 < u) (hu2 : u ≤ 2 ^ 20) :
    round x u = (2 * x + u) / (2 * u) * u := by
  have h1 : (2 * x + u) / (2 * u) * (2 * u) ≤ 2 * x + u := Int.ediv_mul_le _ (by omega)
  have h2 : 2 * x + u < ((2 * x + u) / (2 * u) + 1) * (2 * u) := Int.lt_ediv_add_one_mul_self _ (by omega)
  have h0 : 0 ≤ (2 * x + u) / (2 * u) := Int.ediv_nonneg (by omega) (by omega)
  unfold round
  dsimp only
  rw [float64_int (by omega) (by omega), float64_int (by omega) (by omega)]
  generalize (2 * x + u) / (2 * u) = k at *
  obtain ⟨a, b⟩ := quot_bounds (by omega) hx2 hu hu2 (a := 2 * k - 1) (b := 2 * k + 1) (by linarith) (by linarith)
  have a0 : (0 : ℚ) ≤ rnd ((x : ℚ) / u) := by
    have := le_rnd (abs_quot (by omega) hx2 hu) 0 (by
      rw [show (((0 : Int) : ℚ)) / 2 ^ 21 = 0 by norm_num]
      exact div_nonneg (by exact_mod_cast hx1) (by exact_mod_cast le_of_lt hu))
    rwa [show (((0 : Int) : ℚ)) / 2 ^ 21 = 0 by norm_num] at this
  unfold mathRound
  rw [if_pos a0]
  have : ⌊rnd ((x : ℚ) / u) + 1 / 2⌋ = k := by
    rw [Int.floor_eq_iff]
    push_cast at a b ⊢
    constructor <;> linarith
  rw [this]
  have h3 : 0 ≤ k * u := mul_nonneg h0 (by omega)
  exact final_int (by omega) (by linarith)

theorem round_neg_eq {x u : Int} (hx1 : -2 ^ 31 < x) (hx2 : x < 0) (hu : 0 < u) (hu2 : u ≤ 2 ^ 20) :
    round x u = -((2 * -x + u) / (2 * u)) * u := by
  have h1 : (2 * -x + u) / (2 * u) * (2 * u) ≤ 2 * -x + u := Int.ediv_mul_le _ (by omega)
  have h2 : 2 * -x + u < ((2 * -x + u) / (2 * u) + 1) * (2 * u) := Int.lt_ediv_add_one_mul_self _ (by omega)
  have h0 : 0 ≤ (2 * -x + u) / (2 * u) := Int.ediv_nonneg (by omega) (by omega)
  unfold round
  dsimp only
  rw [float64_int (by omega) (by omega), float64_int (by omega) (by omega)]
  generalize (2 * -x + u) / (2 * u) = k at *
  have hq := abs_quot hx1 (by omega) hu
  have hu' : (0 : ℚ) < u := by exact_mod_cast hu
  have hu2' : (u : ℚ) ≤ 2 ^ 20 := by exact_mod_cast hu2
  have a0 : ¬ (0 : ℚ) ≤ rnd ((x : ℚ) / u) := by
    have := (quot_bounds hx1 (by omega) hu hu2 (a := 2 * x) (b := 0) (by nlinarith) (by omega)).2
    norm_num at this
    linarith
  have up : rnd ((x : ℚ) / u) ≤ -(k : ℚ) + 1 / 2 := by
    have e : -(k : ℚ) + 1 / 2 = ((-k * 2 ^ 21 + 2 ^ 20 : Int) : ℚ) / 2 ^ 21 := by push_cast; field_simp; ring
    rw [e]
    apply rnd_le hq
    rw [← e, div_le_iff₀ hu']
    have : 2 * x ≤ -(2 * k) * u + u := by linarith
    have : (2 : ℚ) * x ≤ -(2 * k) * u + u := by exact_mod_cast this
    linarith
  have lo : -(k : ℚ) - 1 / 2 < rnd ((x : ℚ) / u) := by
    have h3 : (-(2 * k) - 1) * u + 1 ≤ 2 * x := by
      have : 2 * -x + 1 ≤ (2 * k + 1) * u := by linarith
      linarith
    have h3' : (-(2 * (k : ℚ)) - 1) * u + 1 ≤ 2 * x := by exact_mod_cast h3
    have : (((-(2 * k) - 1) * 2 ^ 20 + 1 : Int) : ℚ) / 2 ^ 21 ≤ rnd ((x : ℚ) / u) := by
      apply le_rnd hq
      rw [div_le_div_iff₀ (by norm_num) hu']
      push_cast
      nlinarith
    refine lt_of_lt_of_le ?_ this
    push_cast
    rw [lt_div_iff₀ (by norm_num)]
    linarith
  unfold mathRound
  rw [if_neg a0]
  have : ⌊-rnd ((x : ℚ) / u) + 1 / 2⌋ = k := by
    rw [Int.floor_eq_iff]
    constructor <;> linarith
  rw [this]
  have h3 : 0 ≤ k * u := mul_nonneg h0 (by omega)
  have e : (-(k : ℚ)) = ((-k : Int) : ℚ) := by push_cast; rfl
  rw [e]
  exact final_int (by rw [neg_mul]; linarith) (by rw [neg_mul]; omega)

end TickRound
end Uni
