import Verif.Proofs.SqrtPriceMath
import Verif.Proofs.Cmp
/-! # Next price after an input or output amount -/
namespace Uni
namespace SqrtPriceMath
open U256 FullMath

/-! ### Values -/

/-- New price after putting `a` of token0 into liquidity `L`, as computed by the code. -/
def next0In (L P a : Nat) : Nat :=
  if L * 2 ^ 96 + a * P < 2 ^ 256 then Spec.ceilDiv (L * 2 ^ 96 * P) (L * 2 ^ 96 + a * P)
  else Spec.ceilDiv (L * 2 ^ 96) (L * 2 ^ 96 / P + a)

/-- New price after taking `a` of token0 out. -/
def next0Out (L P a : Nat) : Nat := Spec.ceilDiv (L * 2 ^ 96 * P) (L * 2 ^ 96 - a * P)

/-- New price after putting `a` of token1 in. -/
def next1In (L P a : Nat) : Nat := P + a * 2 ^ 96 / L

/-- New price after taking `a` of token1 out. -/
def next1Out (L P a : Nat) : Nat := P - Spec.ceilDiv (a * 2 ^ 96) L

/-! ### Pure arithmetic -/

theorem fallback_ge {N P a : Nat} (hN : 0 < N) (ha : 0 < a) :
    Spec.ceilDiv (N * P) (N + a * P) ≤ Spec.ceilDiv N (N / P + a) := by
  rw [ceilDiv_le_iff (by omega)]
  have h1 := le_ceilDiv_mul (n := N) (d := N / P + a) (Nat.lt_of_lt_of_le ha (Nat.le_add_left _ _))
  have h2 : N / P * P ≤ N := Nat.div_mul_le_self N P
  generalize Spec.ceilDiv N (N / P + a) = r at *
  generalize N / P = e at *
  calc N * P ≤ r * (e + a) * P := Nat.mul_le_mul_right _ h1
    _ = r * (e * P + a * P) := by ring
    _ ≤ r * (N + a * P) := Nat.mul_le_mul_left _ (by omega)

theorem fallback_le {N P a : Nat} (hP : 0 < P) (ha : 0 < a) : Spec.ceilDiv N (N / P + a) ≤ P := by
  rw [ceilDiv_le_iff (Nat.lt_of_lt_of_le ha (Nat.le_add_left _ _))]
  have h1 := Nat.div_add_mod N P
  have h2 := Nat.mod_lt N hP
  have h3 : P * 1 ≤ P * a := Nat.mul_le_mul_left _ ha
  rw [Nat.mul_add]
  omega

theorem exact_le {N P a : Nat} (hN : 0 < N) : Spec.ceilDiv (N * P) (N + a * P) ≤ P := by
  rw [ceilDiv_le_iff (by omega), Nat.mul_comm N P]
  exact Nat.mul_le_mul_left _ (by omega)

theorem next0In_bounds {L P a : Nat} (hL : 0 < L) (hL2 : L < 2 ^ 128) (hP : 0 < P) :
    Spec.ceilDiv (L * 2 ^ 96 * P) (L * 2 ^ 96 + a * P) ≤ next0In L P a ∧ next0In L P a ≤ P := by
  have hN : 0 < L * 2 ^ 96 := by omega
  have hN2 : L * 2 ^ 96 < 2 ^ 224 := by omega
  unfold next0In
  by_cases h : L * 2 ^ 96 + a * P < 2 ^ 256
  · rw [if_pos h]
    exact ⟨le_refl _, exact_le hN⟩
  · rw [if_neg h]
    have ha : 0 < a := by
      rcases Nat.eq_zero_or_pos a with h0 | h0
      · subst h0; rw [Nat.zero_mul] at h; omega
      · exact h0
    exact ⟨fallback_ge hN ha, fallback_le hP ha⟩

theorem pos_of_ceil {N P a r : Nat} (hN : 0 < N) (hP : 0 < P) (h : Spec.ceilDiv (N * P) (N + a * P) ≤ r) : 0 < r := by
  rw [ceilDiv_le_iff (by omega)] at h
  have := Nat.mul_pos hN hP
  rcases Nat.eq_zero_or_pos r with h0 | h0
  · subst h0; rw [Nat.zero_mul] at h; omega
  · exact h0

/-- The input that a price move down needs, rounded up, is at most `a`. -/
theorem amount0Up_le_of {L P a r : Nat} (hL : 0 < L) (hP : 0 < P)
    (h : Spec.ceilDiv (L * 2 ^ 96 * P) (L * 2 ^ 96 + a * P) ≤ r) (hr : r ≤ P) : Spec.amount0Up r P L ≤ a := by
  have hN : 0 < L * 2 ^ 96 := by omega
  unfold Spec.amount0Up
  rw [dist_of_le hr]
  generalize L * 2 ^ 96 = N at *
  have hr0 := pos_of_ceil hN hP h
  rw [ceilDiv_le_iff (by omega)] at h
  rw [ceilDiv_le_iff (Nat.mul_pos hr0 hP), Nat.mul_sub]
  have e : r * (N + a * P) = N * r + a * (r * P) := by ring
  omega

/-- An input that is not enough to reach `T` leaves the price above `T`. -/
theorem lt_next_of_lt {L P a r T : Nat} (hL : 0 < L) (hP : 0 < P) (hT : 0 < T) (hTP : T ≤ P)
    (h : Spec.ceilDiv (L * 2 ^ 96 * P) (L * 2 ^ 96 + a * P) ≤ r) (ha : a < Spec.amount0Up T P L) : T < r := by
  have hN : 0 < L * 2 ^ 96 := by omega
  unfold Spec.amount0Up at ha
  rw [dist_of_le hTP] at ha
  generalize L * 2 ^ 96 = N at *
  rw [lt_ceilDiv_iff (Nat.mul_pos hT hP), Nat.mul_sub] at ha
  refine lt_of_lt_of_le ?_ h
  rw [lt_ceilDiv_iff (by omega)]
  have e : T * (N + a * P) = N * T + a * (T * P) := by ring
  omega

theorem next1In_amount {L P a : Nat} : Spec.amount1Up P (next1In L P a) L ≤ a := by
  unfold Spec.amount1Up next1In
  rw [dist_of_le (Nat.le_add_right _ _), ceilDiv_le_iff (by norm_num), Nat.add_sub_cancel_left, Nat.mul_comm L]
  exact Nat.div_mul_le_self _ _

theorem next1In_lt {L P a T : Nat} (hL : 0 < L) (hPT : P ≤ T) (ha : a < Spec.amount1Up P T L) : next1In L P a < T := by
  unfold Spec.amount1Up at ha
  rw [dist_of_le hPT, lt_ceilDiv_iff (by norm_num)] at ha
  unfold next1In
  have : a * 2 ^ 96 / L < T - P := by
    rw [Nat.div_lt_iff_lt_mul hL, Nat.mul_comm (T - P)]; exact ha
  generalize a * 2 ^ 96 / L = q at *
  omega

theorem next1Out_spec {L P a T : Nat} (hL : 0 < L) (hTP : T ≤ P) (ha : a < Spec.amount1Down T P L) :
    Spec.ceilDiv (a * 2 ^ 96) L ≤ P - T ∧ T ≤ next1Out L P a ∧ next1Out L P a ≤ P ∧
      a ≤ Spec.amount1Down (next1Out L P a) P L := by
  unfold Spec.amount1Down at ha
  rw [dist_of_le hTP] at ha
  have h1 : a * 2 ^ 96 ≤ L * (P - T) := (Nat.le_div_iff_mul_le (by norm_num)).1 (le_of_lt ha)
  have h2 : Spec.ceilDiv (a * 2 ^ 96) L ≤ P - T := by
    rw [ceilDiv_le_iff hL, Nat.mul_comm (P - T)]; exact h1
  have h3 := le_ceilDiv_mul (n := a * 2 ^ 96) hL
  unfold next1Out Spec.amount1Down
  rw [dist_of_le (by omega), Nat.le_div_iff_mul_le (by norm_num)]
  generalize Spec.ceilDiv (a * 2 ^ 96) L = c at *
  refine ⟨h2, by omega, by omega, ?_⟩
  have : P - (P - c) = c := by omega
  rw [this, Nat.mul_comm L]
  exact h3

theorem next0Out_spec {L P a T : Nat} (hL : 0 < L) (hP : 0 < P) (hPT : P ≤ T) (ha : a < Spec.amount0Down P T L) :
    a * P < L * 2 ^ 96 ∧ next0Out L P a ≤ T ∧ P ≤ next0Out L P a ∧ a ≤ Spec.amount0Down P (next0Out L P a) L := by
  have hN : 0 < L * 2 ^ 96 := by omega
  have hT : 0 < T := by omega
  unfold Spec.amount0Down at ha
  rw [dist_of_le hPT] at ha
  unfold next0Out Spec.amount0Down
  generalize L * 2 ^ 96 = N at *
  have h1 : (a + 1) * (P * T) ≤ N * (T - P) := (Nat.le_div_iff_mul_le (Nat.mul_pos hP hT)).1 ha
  rw [Nat.mul_sub] at h1
  have hNPT : N * P ≤ N * T := Nat.mul_le_mul_left _ hPT
  have hNP := Nat.mul_pos hN hP
  have hPTp := Nat.mul_pos hP hT
  have e1 : (a + 1) * (P * T) = a * P * T + P * T := by ring
  have h2 : a * P * T + N * P < N * T := by omega
  have h3 : a * P < N := by
    by_contra hc
    push Not at hc
    have := Nat.mul_le_mul_right T hc
    omega
  have hle : Spec.ceilDiv (N * P) (N - a * P) ≤ T := by
    rw [ceilDiv_le_iff (by omega), Nat.mul_sub, Nat.mul_comm T N, Nat.mul_comm T (a * P)]
    omega
  have hge : P ≤ Spec.ceilDiv (N * P) (N - a * P) := by
    have := le_ceilDiv_mul (n := N * P) (d := N - a * P) (by omega)
    generalize Spec.ceilDiv (N * P) (N - a * P) = c at *
    have h4 : c * (N - a * P) ≤ c * N := Nat.mul_le_mul_left _ (by omega)
    have : P * N ≤ c * N := by rw [Nat.mul_comm P]; omega
    exact Nat.le_of_mul_le_mul_right this hN
  refine ⟨h3, hle, hge, ?_⟩
  have h5 := le_ceilDiv_mul (n := N * P) (d := N - a * P) (by omega)
  rw [dist_of_le hge]
  generalize Spec.ceilDiv (N * P) (N - a * P) = c at *
  rw [Nat.le_div_iff_mul_le (Nat.mul_pos hP (by omega)), Nat.mul_sub]
  rw [Nat.mul_sub] at h5
  have e : a * (P * c) = c * (a * P) := by ring
  have e2 : c * N = N * c := Nat.mul_comm _ _
  have : c * (a * P) ≤ c * N := Nat.mul_le_mul_left _ (by omega)
  omega

/-! ### The next price is the best one -/

/-- A price below the computed one needs at least the given input, and more if the denominator fits. -/
theorem next0In_far {L P a q : Nat} (hL : 0 < L) (hP : 0 < P) (hq0 : 0 < q) (hqP : q ≤ P) (hq : q < next0In L P a) :
    a ≤ Spec.amount0Up q P L ∧ (L * 2 ^ 96 + a * P < 2 ^ 256 → a < Spec.amount0Up q P L) := by
  have hN : 0 < L * 2 ^ 96 := by omega
  unfold next0In at hq
  unfold Spec.amount0Up
  rw [dist_of_le hqP]
  generalize L * 2 ^ 96 = N at *
  by_cases hfit : N + a * P < 2 ^ 256
  · rw [if_pos hfit, lt_ceilDiv_iff (lt_of_lt_of_le hN (Nat.le_add_right _ _))] at hq
    have h1 : a < Spec.ceilDiv (N * (P - q)) (q * P) := by
      rw [lt_ceilDiv_iff (Nat.mul_pos hq0 hP), Nat.mul_sub]
      have e : q * (N + a * P) = N * q + a * (q * P) := by ring
      rw [e] at hq
      exact lt_tsub_iff_left.mpr hq
    exact ⟨le_of_lt h1, fun _ => h1⟩
  · rw [if_neg hfit] at hq
    refine ⟨?_, fun h => absurd h hfit⟩
    rcases Nat.eq_zero_or_pos a with ha | ha
    · omega
    · rw [lt_ceilDiv_iff (Nat.lt_of_lt_of_le ha (Nat.le_add_left _ _))] at hq
      suffices h : a - 1 < Spec.ceilDiv (N * (P - q)) (q * P) by omega
      rw [lt_ceilDiv_iff (Nat.mul_pos hq0 hP), Nat.mul_sub]
      obtain ⟨b, rfl⟩ : ∃ b, a = b + 1 := ⟨a - 1, by omega⟩
      rw [Nat.add_sub_cancel]
      have h1 : N < (N / P + 1) * P := Nat.lt_mul_of_div_lt (Nat.lt_succ_self _) hP
      generalize N / P = e at *
      have h2 : q * N ≤ q * ((e + 1) * P) := Nat.mul_le_mul_left _ (le_of_lt h1)
      have h3 : q * (e + (b + 1)) * P < N * P := Nat.mul_lt_mul_of_pos_right hq hP
      have e1 : q * (e + (b + 1)) * P = q * ((e + 1) * P) + b * (q * P) := by ring
      rw [e1] at h3
      rw [Nat.mul_comm q N] at h2
      exact lt_tsub_iff_left.mpr (lt_of_le_of_lt (Nat.add_le_add_right h2 _) h3)

/-- A price above the computed one needs more than the given input. -/
theorem next1In_far {L P a q : Nat} (hL : 0 < L) (hq : next1In L P a < q) : a < Spec.amount1Up P q L := by
  unfold next1In at hq
  have hpq : P ≤ q := le_trans (Nat.le_add_right _ _) (le_of_lt hq)
  unfold Spec.amount1Up
  rw [lt_ceilDiv_iff (by norm_num), dist_of_le hpq]
  have : a * 2 ^ 96 / L < q - P := by
    generalize a * 2 ^ 96 / L = x at *
    omega
  rw [Nat.div_lt_iff_lt_mul hL] at this
  rw [Nat.mul_comm L]; exact this

/-- A price before the computed one frees less than the requested output. -/
theorem next0Out_far {L P a q : Nat} (hP : 0 < P) (ha : 0 < a) (h1 : a * P < L * 2 ^ 96) (hq1 : P ≤ q)
    (hq2 : q < next0Out L P a) : Spec.amount0Down P q L < a := by
  unfold next0Out at hq2
  unfold Spec.amount0Down
  rw [dist_of_le hq1]
  generalize L * 2 ^ 96 = N at *
  rw [lt_ceilDiv_iff (by omega), Nat.mul_sub] at hq2
  rw [Nat.div_lt_iff_lt_mul (Nat.mul_pos hP (by omega)), Nat.mul_sub]
  have e1 : q * N = N * q := Nat.mul_comm _ _
  have e2 : q * (a * P) = a * (P * q) := by ring
  have e3 : N * P ≤ N * q := Nat.mul_le_mul_left _ hq1
  rw [e1, e2] at hq2
  have hpos := Nat.mul_pos ha (Nat.mul_pos hP (show 0 < q by omega))
  omega

theorem next1Out_far {L P a q : Nat} (hL : 0 < L) (hq1 : next1Out L P a < q) (hq2 : q ≤ P) :
    Spec.amount1Down q P L < a := by
  unfold next1Out at hq1
  unfold Spec.amount1Down
  rw [dist_of_le hq2, Nat.div_lt_iff_lt_mul (by norm_num)]
  have h5 : P - q < Spec.ceilDiv (a * 2 ^ 96) L := by
    generalize Spec.ceilDiv (a * 2 ^ 96) L = c at *
    omega
  rw [lt_ceilDiv_iff hL] at h5
  rw [Nat.mul_comm L]; exact h5

/-! ### The code computes these values -/

theorem multiplyIn256_toNat (x y : U256) : (multiplyIn256 x y).toNat = x.toNat * y.toNat % 2 ^ 256 := by
  unfold multiplyIn256
  have : Cons.maxUint256 = allOne := by decide +kernel
  rw [this, toNat_and_allOne, toNat_mul]

theorem addIn256_toNat (x y : U256) : (addIn256 x y).toNat = (x.toNat + y.toNat) % 2 ^ 256 := by
  unfold addIn256
  have : Cons.maxUint256 = allOne := by decide +kernel
  rw [this, toNat_and_allOne, toNat_add]

theorem wrap_div_iff {a P : Nat} (ha : 0 < a) :
    a * P % 2 ^ 256 / a = P ↔ a * P < 2 ^ 256 := by
  constructor
  · intro h
    by_contra hc
    have h1 : a * P % 2 ^ 256 + 2 ^ 256 ≤ a * P := by
      have := Nat.div_add_mod (a * P) (2 ^ 256)
      have h2 : 1 ≤ a * P / 2 ^ 256 := (Nat.le_div_iff_mul_le (by norm_num)).2 (by omega)
      omega
    have h2 : a * P % 2 ^ 256 / a < P := by
      rw [Nat.div_lt_iff_lt_mul ha, Nat.mul_comm P]; omega
    omega
  · intro h
    rw [Nat.mod_eq_of_lt h, Nat.mul_div_cancel_left _ ha]

theorem wrap_add_iff {N p : Nat} (hN : N < 2 ^ 256) (hp : p < 2 ^ 256) : N ≤ (N + p) % 2 ^ 256 ↔ N + p < 2 ^ 256 := by
  omega

theorem words_ge_of {n k : Nat} (h : 2 ^ (64 * k) ≤ n) : k + 1 ≤ Spec.words n := by
  have h1 := lt_words n
  by_contra hc
  have : (2 : Nat) ^ (64 * Spec.words n) ≤ 2 ^ (64 * k) := Nat.pow_le_pow_right (by norm_num) (by omega)
  omega

theorem next0_not_panics {N P d : Nat} (hN : 2 ^ 96 ≤ N) (hN2 : N < 2 ^ 224) (hP : 2 ^ 32 ≤ P) (hP2 : P < 2 ^ 160)
    (hd : 0 < d) (hd2 : d < 2 ^ 256) (hq : N * P ≤ 2 ^ 160 * d) : ¬ Panics (N * P) d := by
  have h1 : 2 ^ 96 * 2 ^ 32 ≤ N * P := Nat.mul_le_mul hN hP
  have h2 : 2 + 1 ≤ Spec.words (N * P) := words_ge_of (k := 2) (by omega)
  have h3 : Spec.words d ≤ 4 := words_le (by omega)
  have h4 := words_pos (n := d) (by omega)
  have h5 : N * P < 2 ^ 224 * 2 ^ 160 := Nat.mul_lt_mul'' hN2 hP2
  have h6 : Spec.words (N * P) ≤ 6 := words_le (lt_of_lt_of_le h5 (by rw [← pow_add]))
  by_cases h7 : Spec.words d ≤ 1
  · have h8 := lt_words d
    have h9 : (2 : Nat) ^ (64 * Spec.words d) ≤ 2 ^ 64 := Nat.pow_le_pow_right (by norm_num) (by omega)
    have h10 : Spec.words (N * P) ≤ 4 := words_le (by omega)
    unfold Panics; omega
  · unfold Panics; omega

theorem fallback_not_panics {N P a : Nat} (hN : 2 ^ 96 ≤ N) (hN2 : N < 2 ^ 224) (hP : 2 ^ 32 ≤ P) (ha : 0 < a)
    (ha2 : a < 2 ^ 160) : ¬ Panics N (N / P + a) := by
  have h1 : 1 + 1 ≤ Spec.words N := words_ge_of (k := 1) (by omega)
  have h2 : Spec.words N ≤ 4 := words_le (by omega)
  have h3 : N / P ≤ N / 2 ^ 32 := Nat.div_le_div_left hP (by norm_num)
  have h4 : 0 < N / P + a := Nat.lt_of_lt_of_le ha (Nat.le_add_left _ _)
  generalize N / P = e at *
  by_cases h5 : e + a < 2 ^ 192
  · have h6 : Spec.words (e + a) ≤ 3 := words_le (by omega)
    unfold Panics; omega
  · have h6 : 3 + 1 ≤ Spec.words N := words_ge_of (k := 3) (by omega)
    have h7 : Spec.words (e + a) ≤ 4 := words_le (by omega)
    unfold Panics; omega

theorem next0In_ok (p L a : U256) (hL : 0 < L.toNat) (hL2 : L.toNat < 2 ^ 128) (hP : 2 ^ 32 ≤ p.toNat)
    (hP2 : p.toNat < 2 ^ 160) (ha : a.toNat < 2 ^ 160) :
    getNextSqrtPriceFromAmount0RoundingUp p L a true = .ok (ofNat (next0In L.toNat p.toNat a.toNat)) := by
  unfold getNextSqrtPriceFromAmount0RoundingUp
  dsimp only
  have hN := toNat_lsh96 hL2
  have hN1 : 2 ^ 96 ≤ L.toNat * 2 ^ 96 := by omega
  have hN2 : L.toNat * 2 ^ 96 < 2 ^ 224 := by omega
  have hN3 : 0 < L.toNat * 2 ^ 96 + a.toNat * p.toNat := Nat.lt_of_lt_of_le (by omega) (Nat.le_add_right _ _)
  by_cases h0 : a.toNat = 0
  · have hz : a.isZero = true := (isZero_iff a).2 h0
    rw [if_pos hz, h0]
    unfold next0In
    have : L.toNat * 2 ^ 96 + 0 * p.toNat = L.toNat * 2 ^ 96 := by omega
    rw [this, if_pos (lt_trans hN2 (by norm_num))]
    have e : Spec.ceilDiv (L.toNat * 2 ^ 96 * p.toNat) (L.toNat * 2 ^ 96) = p.toNat := by
      apply eq_of_forall_ge_iff
      intro k
      have hN4 : 0 < L.toNat * 2 ^ 96 := lt_of_lt_of_le (by norm_num) hN1
      rw [ceilDiv_le_iff hN4, Nat.mul_comm _ p.toNat]
      exact Nat.mul_le_mul_right_iff hN4
    rw [e, ofNat_toNat]
  · have hz : ¬ a.isZero = true := fun h => h0 ((isZero_iff a).1 h)
    rw [if_neg hz, if_pos rfl, div_eq, Except_bind_ok]
    have hm := multiplyIn256_toNat a p
    have hplt := p.toNat_lt
    have hcond : (eq (ofNat ((multiplyIn256 a p).toNat / a.toNat)) p &&
        decide (cmp (addIn256 (lsh L 96) (multiplyIn256 a p)) (lsh L 96) ≥ 0)) = true ↔
        L.toNat * 2 ^ 96 + a.toNat * p.toNat < 2 ^ 256 := by
      rw [Bool.and_eq_true, eq_iff, decide_eq_true_eq, cmp_ge0, addIn256_toNat, hN, hm]
      have hlt : a.toNat * p.toNat % 2 ^ 256 / a.toNat < 2 ^ 256 := by
        have h1 := Nat.mod_lt (a.toNat * p.toNat) (show 0 < 2 ^ 256 by norm_num)
        exact lt_of_le_of_lt (Nat.div_le_self _ _) h1
      have h1 : ofNat (a.toNat * p.toNat % 2 ^ 256 / a.toNat) = p ↔ a.toNat * p.toNat < 2 ^ 256 := by
        rw [← wrap_div_iff (by omega)]
        constructor
        · intro h
          rw [← toNat_ofNat_of_lt hlt, h]
        · intro h
          rw [h, ofNat_toNat]
      rw [h1]
      constructor
      · rintro ⟨h2, h3⟩
        rw [Nat.mod_eq_of_lt h2] at h3
        exact (wrap_add_iff (lt_trans hN2 (by norm_num)) h2).1 h3
      · intro h2
        have h3 : a.toNat * p.toNat < 2 ^ 256 := lt_of_le_of_lt (Nat.le_add_left _ _) h2
        rw [Nat.mod_eq_of_lt h3, Nat.mod_eq_of_lt h2]
        exact ⟨h3, Nat.le_add_right _ _⟩
    unfold next0In
    by_cases hc : L.toNat * 2 ^ 96 + a.toNat * p.toNat < 2 ^ 256
    · rw [if_pos (hcond.2 hc), if_pos hc, mulDivRoundingUp_ok_iff, hN, addIn256_toNat, hN, hm]
      have e : (L.toNat * 2 ^ 96 + a.toNat * p.toNat % 2 ^ 256) % 2 ^ 256 = L.toNat * 2 ^ 96 + a.toNat * p.toNat := by
        generalize a.toNat * p.toNat = ap at *
        omega
      rw [e]
      refine ⟨Or.inr ?_, rfl⟩
      apply next0_not_panics hN1 hN2 hP hP2 hN3 hc
      have h1 : L.toNat * 2 ^ 96 * p.toNat ≤ L.toNat * 2 ^ 96 * 2 ^ 160 := Nat.mul_le_mul_left _ (by omega)
      generalize L.toNat * 2 ^ 96 * p.toNat = x at *
      generalize a.toNat * p.toNat = ap at *
      omega
    · rw [if_neg (fun h => hc (hcond.1 h)), if_neg hc, div_eq, Except_bind_ok, mulDivRoundingUp_ok_iff, hN, toNat_one, Nat.mul_one]
      have hq : L.toNat * 2 ^ 96 / p.toNat < 2 ^ 224 := lt_of_le_of_lt (Nat.div_le_self _ _) (by omega)
      have e : (add (ofNat (L.toNat * 2 ^ 96 / p.toNat)) a).toNat = L.toNat * 2 ^ 96 / p.toNat + a.toNat := by
        rw [toNat_add, toNat_ofNat_of_lt (lt_trans hq (by norm_num))]
        generalize L.toNat * 2 ^ 96 / p.toNat = x at *
        apply Nat.mod_eq_of_lt
        omega
      rw [e]
      exact ⟨Or.inr (fallback_not_panics hN1 hN2 hP (by omega) ha), rfl⟩

theorem next0Out_ok (p L a : U256) (hL : 0 < L.toNat) (hL2 : L.toNat < 2 ^ 128) (hP : 2 ^ 32 ≤ p.toNat)
    (hP2 : p.toNat < 2 ^ 160) (ha0 : 0 < a.toNat) (ha : a.toNat * p.toNat < L.toNat * 2 ^ 96)
    (hr : next0Out L.toNat p.toNat a.toNat ≤ 2 ^ 160) :
    getNextSqrtPriceFromAmount0RoundingUp p L a false = .ok (ofNat (next0Out L.toNat p.toNat a.toNat)) := by
  unfold getNextSqrtPriceFromAmount0RoundingUp
  dsimp only
  have hN := toNat_lsh96 hL2
  have hz : ¬ a.isZero = true := fun h => by rw [isZero_iff] at h; omega
  rw [if_neg hz, if_neg (by decide), mulDivRoundingUp_ok_iff, hN]
  have hm := multiplyIn256_toNat a p
  have e : (sub (lsh L 96) (multiplyIn256 a p)).toNat = L.toNat * 2 ^ 96 - a.toNat * p.toNat := by
    have h1 : a.toNat * p.toNat % 2 ^ 256 = a.toNat * p.toNat := Nat.mod_eq_of_lt (lt_trans ha (by omega))
    rw [toNat_sub_of_le, hN, hm, h1]
    rw [hN, hm, h1]; exact le_of_lt ha
  rw [e]
  unfold next0Out at hr ⊢
  rw [ceilDiv_le_iff (by omega)] at hr
  exact ⟨Or.inr (next0_not_panics (by omega) (by omega) hP hP2 (by omega) (by omega) hr), rfl⟩

theorem toNat_shl96_of {a : Nat} (h : a < 2 ^ 160) : a * 2 ^ 96 < 2 ^ 256 := by omega

theorem next1In_ok (p L a : U256) (ha : a.toNat < 2 ^ 160) (hr : next1In L.toNat p.toNat a.toNat < 2 ^ 256) :
    getNextSqrtPriceFromAmount1RoundingDown p L a true = .ok (ofNat (next1In L.toNat p.toNat a.toNat)) := by
  unfold getNextSqrtPriceFromAmount1RoundingDown
  have hc : cmp a maxUint160 ≤ 0 := by
    rw [cmp_le0, toNat_maxUint160]; omega
  have h1 : (lsh a 96).toNat = a.toNat * 2 ^ 96 := by
    rw [toNat_lsh, Nat.mod_eq_of_lt (toNat_shl96_of ha)]
  rw [if_pos rfl, if_pos hc, div_eq, Except_bind_ok, h1]
  unfold next1In at hr ⊢
  congr 1
  apply ext_toNat
  have hq : a.toNat * 2 ^ 96 / L.toNat < 2 ^ 256 := lt_of_le_of_lt (Nat.le_add_left _ _) hr
  rw [toNat_add, toNat_ofNat_of_lt hq, toNat_ofNat]

theorem next1Out_ok (p L a : U256) (hL : 0 < L.toNat) (hL2 : L.toNat < 2 ^ 128) (ha0 : 0 < a.toNat)
    (hp : p.toNat < 2 ^ 160) (ha : Spec.ceilDiv (a.toNat * 2 ^ 96) L.toNat ≤ p.toNat) :
    getNextSqrtPriceFromAmount1RoundingDown p L a false = .ok (ofNat (next1Out L.toNat p.toNat a.toNat)) := by
  unfold getNextSqrtPriceFromAmount1RoundingDown
  have hx : mulDivRoundingUp a Cons.q96 L = .ok (ofNat (Spec.ceilDiv (a.toNat * 2 ^ 96) L.toNat)) := by
    rw [mulDivRoundingUp_ok_iff, toNat_q96]
    refine ⟨Or.inr ?_, rfl⟩
    apply not_panics (by omega) (by omega) (by omega)
    have := div_le_ceilDiv (a.toNat * 2 ^ 96) L.toNat
    generalize a.toNat * 2 ^ 96 / L.toNat = q at *
    generalize Spec.ceilDiv (a.toNat * 2 ^ 96) L.toNat = q at *
    omega
  rw [if_neg (by decide), hx, Except_bind_ok]
  unfold next1Out
  congr 1
  apply ext_toNat
  have hq : Spec.ceilDiv (a.toNat * 2 ^ 96) L.toNat < 2 ^ 256 := lt_of_le_of_lt ha p.toNat_lt
  rw [toNat_sub_of_le, toNat_ofNat_of_lt hq, toNat_ofNat, Nat.mod_eq_of_lt]
  · exact lt_of_le_of_lt (Nat.sub_le _ _) p.toNat_lt
  · rw [toNat_ofNat_of_lt hq]; exact ha

end SqrtPriceMath
end Uni
