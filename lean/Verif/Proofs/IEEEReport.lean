import Verif.Proofs.IEEE
/-! The numbers of a report stay far from the ends of the exponent range -/
namespace Uni
namespace IEEE
open Spec TickRound Main

theorem pow2_mul {j k : Int} {x y : ℚ} (hx : |x| ≤ 2 ^ j) (hy : |y| ≤ 2 ^ k) : |x * y| ≤ 2 ^ (j + k) := by
  rw [abs_mul, zpow_add₀ (by norm_num : (2 : ℚ) ≠ 0)]
  exact mul_le_mul hx hy (abs_nonneg _) (le_of_lt (zpow_pos (by norm_num) _))

/-- bounds of a quotient -/
theorem div_ge {k : Nat} {j : Int} {x y : ℚ} (hx : Grid k x) (h0 : x ≠ 0) (hy : 0 < y) (hy2 : y ≤ 2 ^ j) : (2 : ℚ) ^ (-(k : Int) - j) ≤ |x / y| := by
  rw [abs_div, abs_of_pos hy, zpow_sub₀ (by norm_num : (2 : ℚ) ≠ 0)]
  exact div_le_div₀ (abs_nonneg _) (grid_ge hx h0) hy hy2

theorem div_le {j : Int} {x y : ℚ} (hx : |x| ≤ 2 ^ j) (hy : 1 ≤ y) : |x / y| ≤ 2 ^ j := by
  rw [abs_div, abs_of_nonneg (by linarith : 0 ≤ y)]
  exact le_trans (div_le_self (abs_nonneg _) hy) hx

theorem pow_le {j k : Int} {q : ℚ} (h : q ≤ 2 ^ j) (hjk : j ≤ k) : q ≤ 2 ^ k :=
  le_trans h (zpow_le_zpow_right₀ (by norm_num) hjk)

theorem pow_ge {j k : Int} {q : ℚ} (h : 2 ^ k ≤ q) (hjk : j ≤ k) : 2 ^ j ≤ q :=
  le_trans (zpow_le_zpow_right₀ (by norm_num) hjk) h

/-- dividing a number on a grid by a number of moderate size -/
theorem div_tame {k : Nat} {b j : Int} {x y : ℚ} (hx : Grid k x) (hb : |x| ≤ 2 ^ b) (hy : 1 ≤ y) (hy2 : y ≤ 2 ^ j)
    (h1 : k + j ≤ 1000) (h2 : b ≤ 1000) : Tame (x / y) := by
  by_cases h0 : x = 0
  · left; rw [h0, zero_div]
  · right
    exact ⟨pow_ge (div_ge hx h0 (by linarith) hy2) (by omega), pow_le (div_le hb hy) h2⟩

theorem div_grid {k : Nat} {j : Nat} {x y : ℚ} (hx : Grid k x) (hy : 1 ≤ y) (hy2 : y ≤ 2 ^ (j : Int)) : Grid (k + j + 52) (rnd (x / y)) := by
  by_cases h0 : x = 0
  · rw [h0, zero_div, rnd_zero]; exact grid_zero _
  · refine grid_of_ge (rnd_idem _) (le_abs_rnd ?_)
    refine pow_ge (div_ge hx h0 (by linarith) hy2) ?_
    push_cast; omega

theorem normal_grid {k : Nat} {b c : Int} {x : ℚ} (hx : Grid k x) (hb : |x| ≤ 2 ^ b) (h1 : k ≤ c) (h2 : b ≤ c) : Normal c (ieee (.fin x)) := by
  by_cases h0 : x = 0
  · rw [h0, ieee_zero]; rfl
  · rw [ieee_num h0]
    exact ⟨pow_ge (grid_ge hx h0) (by omega), pow_le hb h2⟩

theorem ofInt_eq' {n : Int} (h : |(n : ℚ)| ≤ 2 ^ (1000 : Int)) : B64.ofInt n = ieee (F64.ofInt n) :=
  rd_tame (tame_of (k := 0) (by norm_num) (grid_int n) h)

theorem ofWord (a : U256) : B64.ofInt a.toNat = ieee (F64.ofNat a.toNat) := by
  refine ofInt_eq' (n := (a.toNat : Int)) ?_
  have h2 : (a.toNat : ℚ) ≤ 2 ^ (256 : Int) := by exact_mod_cast a.toNat_lt.le
  rw [Int.cast_natCast, abs_of_nonneg (by positivity)]
  exact pow_le h2 (by norm_num)

/-- the float64 of a word -/
theorem word_range (a : U256) : 0 ≤ rnd (a.toNat : ℚ) ∧ Grid 0 (rnd (a.toNat : ℚ)) ∧ |rnd (a.toNat : ℚ)| ≤ 2 ^ (256 : Int) ∧ (rnd (a.toNat : ℚ) = 0 ∨ 1 ≤ rnd (a.toNat : ℚ)) := by
  have h2 : (a.toNat : ℚ) ≤ 2 ^ (256 : Int) := by exact_mod_cast a.toNat_lt.le
  have h0 : (0 : ℚ) ≤ a.toNat := by positivity
  refine ⟨rnd_nonneg h0, grid_rnd (by simpa using grid_int (a.toNat : Int)), abs_rnd_le (by rwa [abs_of_nonneg h0]), ?_⟩
  rcases Nat.eq_zero_or_pos a.toNat with h | h
  · left; rw [h]; simp [rnd_zero]
  · right
    have : (1 : ℚ) ≤ a.toNat := by exact_mod_cast h
    rw [← rnd_one]; exact rnd_mono this

/-! ### The return on investment and the drawdown -/

theorem two_256 : (2 : ℚ) ^ (256 : Int) + 2 ^ (256 : Int) ≤ 2 ^ (257 : Int) := by
  rw [show (257 : Int) = 256 + 1 by norm_num, zpow_add₀ (by norm_num : (2 : ℚ) ≠ 0)]
  linarith [zpow_one (2 : ℚ)]

theorem change_eq (a b : U256) : ∀ x, F64.sub (F64.ofNat b.toNat) (F64.ofNat a.toNat) = .fin x → Grid 0 x ∧ |x| ≤ 2 ^ (257 : Int) := by
  rintro x hx
  obtain ⟨a0, ag, ab, _⟩ := word_range a
  obtain ⟨b0, bg, bb, _⟩ := word_range b
  have hx' : rnd (rnd (b.toNat : ℚ) + -rnd (a.toNat : ℚ)) = x := F64.fin.inj hx
  subst hx'
  refine ⟨grid_rnd (grid_add bg (grid_neg ag)), abs_rnd_le ?_⟩
  refine le_trans (abs_add_le _ _) ?_
  rw [abs_neg]
  exact le_trans (add_le_add bb ab) two_256

theorem sub_words (a b : U256) : ieee (F64.sub (F64.ofNat b.toNat) (F64.ofNat a.toNat)) = B64.sub (ieee (F64.ofNat b.toNat)) (ieee (F64.ofNat a.toNat)) := by
  obtain ⟨a0, ag, ab, _⟩ := word_range a
  obtain ⟨b0, bg, bb, _⟩ := word_range b
  refine sub_eq' (x := rnd (b.toNat : ℚ)) (y := rnd (a.toNat : ℚ)) (tame_of (k := 0) (by norm_num) (grid_sub bg ag) ?_)
  refine le_trans (abs_sub _ _) ?_
  refine le_trans (add_le_add bb ab) ?_
  exact pow_le two_256 (by norm_num)

theorem roi_eq' (last first : U256) : roiB last first = ieee (roi last first) ∧ Normal 300 (ieee (roi last first)) := by
  obtain ⟨a0, ag, ab, a1⟩ := word_range first
  rw [abs_of_nonneg a0] at ab
  have hc := change_eq first last
  have hdiv : ieee (roi last first) = B64.div (ieee (F64.sub (F64.ofNat last.toNat) (F64.ofNat first.toNat))) (ieee (F64.ofNat first.toNat)) := by
    refine div_eq' (a := F64.sub (F64.ofNat last.toNat) (F64.ofNat first.toNat)) (y := rnd (first.toNat : ℚ)) a0 ?_
    intro x hx hy
    obtain ⟨h1, h2⟩ := hc x hx
    exact div_tame (j := 256) h1 h2 (a1.resolve_left hy) ab (by norm_num) (by norm_num)
  constructor
  · unfold roiB
    rw [ofWord, ofWord, ← sub_words, hdiv]
  · unfold roi
    obtain ⟨x, hx⟩ : ∃ x, F64.sub (F64.ofNat last.toNat) (F64.ofNat first.toNat) = .fin x := ⟨_, rfl⟩
    dsimp only
    rw [hx]
    obtain ⟨h1, h2⟩ := hc x hx
    show Normal 300 (ieee (F64.div (.fin x) (.fin (rnd (first.toNat : ℚ)))))
    rcases a1 with hy | hy
    · rw [hy]
      by_cases h0 : x = 0 <;> simp [F64.div, h0, ieee, Normal]
    · rw [F64.div, if_neg (by linarith)]
      by_cases h0 : x = 0
      · rw [h0, zero_div, rnd_zero, ieee_zero]; rfl
      · have hge := le_abs_rnd (div_ge h1 h0 (by linarith) ab)
        have hn : rnd (x / rnd (first.toNat : ℚ)) ≠ 0 := by
          intro hc; rw [hc, abs_zero] at hge
          exact absurd hge (not_le.2 (zpow_pos (by norm_num) _))
        rw [ieee_num hn]
        exact ⟨pow_ge hge (by norm_num), pow_le (abs_rnd_le (div_le h2 hy)) (by norm_num)⟩

theorem max_words (a p : U256) : ∃ c : U256, F64.max (F64.ofNat a.toNat) (F64.ofNat p.toNat) = F64.ofNat c.toNat := by
  rcases le_total (rnd (a.toNat : ℚ)) (rnd (p.toNat : ℚ)) with h | h
  · exact ⟨p, congrArg F64.fin (max_eq_right h)⟩
  · exact ⟨a, congrArg F64.fin (max_eq_left h)⟩

theorem normal_min {c : Int} {a b : F64} (ha : Normal c (ieee a)) (hb : Normal c (ieee b)) : Normal c (ieee (F64.min a b)) := by
  cases a with
  | nan =>
    cases b with
    | nan => trivial
    | inf t => cases t <;> trivial
    | fin y => trivial
  | inf s =>
    cases b with
    | nan => cases s <;> trivial
    | inf t => cases s <;> cases t <;> trivial
    | fin y => cases s <;> first | trivial | exact hb
  | fin x =>
    cases b with
    | nan => trivial
    | inf t => cases t <;> first | trivial | exact ha
    | fin y =>
      show Normal c (ieee (.fin (Min.min x y)))
      rcases le_total x y with h | h
      · rw [min_eq_left h]; exact ha
      · rw [min_eq_right h]; exact hb

/-- what the drawdown loop keeps -/
theorem loop_eq : ∀ (prices : List U256) (a : U256) (d : F64), Normal 300 (ieee d) →
    ieee (drawdownLoop (toFloats prices) (F64.ofNat a.toNat, d)).2 =
      (drawdownLoopB (prices.map fun x => B64.ofInt x.toNat) (ieee (F64.ofNat a.toNat), ieee d)).2 ∧
    Normal 300 (ieee (drawdownLoop (toFloats prices) (F64.ofNat a.toNat, d)).2)
  | [], a, d, hd => ⟨rfl, hd⟩
  | p :: rest, a, d, hd => by
    obtain ⟨c, hc⟩ := max_words a p
    obtain ⟨r1, r2⟩ := roi_eq' p c
    have ih := loop_eq rest c (F64.min d (roi p c)) (normal_min hd r2)
    have e1 : drawdownLoop (toFloats (p :: rest)) (F64.ofNat a.toNat, d) = drawdownLoop (toFloats rest) (F64.ofNat c.toNat, F64.min d (roi p c)) := by
      show drawdownLoop (toFloats rest) (F64.max (F64.ofNat a.toNat) (F64.ofNat p.toNat), _) = _
      rw [hc]; rfl
    have e2 : drawdownLoopB ((p :: rest).map fun x => B64.ofInt x.toNat) (ieee (F64.ofNat a.toNat), ieee d) =
        drawdownLoopB (rest.map fun x => B64.ofInt x.toNat) (ieee (F64.ofNat c.toNat), ieee (F64.min d (roi p c))) := by
      show drawdownLoopB (rest.map fun x => B64.ofInt x.toNat) (B64.max (ieee (F64.ofNat a.toNat)) (B64.ofInt p.toNat), _) = _
      have hm : B64.max (ieee (F64.ofNat a.toNat)) (B64.ofInt p.toNat) = ieee (F64.ofNat c.toNat) := by
        rw [ofWord, ← hc]; exact (max_eq' _ _).symm
      rw [min_eq', ← r1, hm]
      unfold roiB
      rw [ofWord c]
    rw [e1, e2]
    exact ih

theorem drawdown_eq' (prices : List U256) : maximumDrawdownB prices = (maximumDrawdown prices).map ieee ∧
    ∀ d, maximumDrawdown prices = .ok d → Normal 300 (ieee d) := by
  cases prices with
  | nil =>
    refine ⟨by simp [maximumDrawdownB, maximumDrawdown, Except.map, ieee_zero], ?_⟩
    intro d hd; cases Except.ok.inj hd; rw [ieee_zero]; rfl
  | cons x xs =>
    cases xs with
    | nil =>
      refine ⟨by simp [maximumDrawdownB, maximumDrawdown, Except.map, ieee_zero], ?_⟩
      intro d hd; cases Except.ok.inj hd; rw [ieee_zero]; rfl
    | cons y ys =>
      have h := loop_eq (x :: y :: ys) x (.fin 0) (by rw [ieee_zero]; rfl)
      have e1 : maximumDrawdown (x :: y :: ys) = .ok (drawdownLoop (toFloats (x :: y :: ys)) (F64.ofNat x.toNat, .fin 0)).2 := by
        unfold maximumDrawdown; rw [if_neg (by simp)]; rfl
      have e2 : maximumDrawdownB (x :: y :: ys) =
          .ok (drawdownLoopB ((x :: y :: ys).map fun x => B64.ofInt x.toNat) (B64.ofInt x.toNat, .zero false)).2 := by
        unfold maximumDrawdownB; rw [if_neg (by simp)]; rfl
      rw [e1, e2]
      rw [ofWord, ← ieee_zero]
      refine ⟨congrArg Except.ok h.1.symm, ?_⟩
      intro d hd; rw [← Except.ok.inj hd]; exact h.2

/-! ### The returns -/

theorem rounded_rnd {lg : ℚ → ℚ} (h : Rounded lg) (x : ℚ) : rnd (lg x) = lg x := by
  obtain ⟨m, e, hm, he⟩ := h x
  rw [he]; exact rnd_exact hm e

/-- a float64 other than 1 is at least `2^-53` away from 1 -/
theorem gap_one {q : ℚ} (hq : 0 < q) (hr : rnd q = q) (h1 : q ≠ 1) : (2 : ℚ) ^ (-53 : Int) ≤ |q - 1| := by
  have hge : ∀ {k : Nat}, k + 52 ≤ 53 → (2 : ℚ) ^ (-(k : Int)) ≤ |q| → (2 : ℚ) ^ (-53 : Int) ≤ |q - 1| := by
    intro k hk h
    have g := grid_sub (grid_mono hk (grid_of_ge hr h)) (grid_mono (show 0 ≤ 53 by norm_num) (grid_int 1))
    have := grid_ge g (by rw [Int.cast_one]; exact sub_ne_zero.2 h1)
    simpa using this
  by_cases c : (1 : ℚ) / 2 ≤ q
  · refine hge (k := 1) (by norm_num) ?_
    rw [abs_of_pos hq]; norm_num; linarith
  · rw [abs_of_neg (by linarith [not_le.1 c])]
    have h5 : (2 : ℚ) ^ (-53 : Int) ≤ 1 / 2 := by norm_num
    have h6 : q < 1 / 2 := not_le.1 c
    exact le_trans h5 (by linarith)

theorem lg_ge {lg : ℚ → ℚ} (hlg : LogUlp lg) {q : ℚ} (hq : 0 < q) (hr : rnd q = q) : lg q = 0 ∨ (2 : ℚ) ^ (-((54 : Nat) : Int)) ≤ |lg q| := by
  by_cases h1 : q = 1
  · left
    have := hlg q hq
    rw [h1] at this ⊢
    simp only [Rat.cast_one, Real.log_one, sub_zero, abs_zero, zero_div] at this
    have h0 := abs_nonpos_iff.1 this
    exact_mod_cast h0
  · right
    have hqR : (0 : ℝ) < q := by exact_mod_cast hq
    have hg : (1 : ℝ) / 2 ^ 53 ≤ |(q : ℝ) - 1| := by
      have := gap_one hq hr h1
      have h' : (1 : ℚ) / 2 ^ 53 ≤ |q - 1| := by
        refine le_trans (le_of_eq ?_) this
        rw [zpow_neg]; norm_num
      have h'' := (Rat.cast_le (K := ℝ)).2 h'
      push_cast at h''
      exact h''
    have hl : (3 : ℝ) / 2 ^ 55 ≤ |Real.log q| := by
      rcases lt_or_gt_of_ne h1 with c | c
      · have c' : (q : ℝ) < 1 := by exact_mod_cast c
        rw [abs_of_neg (by linarith)] at hg
        have := Real.log_le_sub_one_of_pos hqR
        have h2 := neg_le_abs (Real.log q)
        norm_num at hg ⊢
        linarith
      · have c' : (1 : ℝ) < q := by exact_mod_cast c
        have hg2 : (1 : ℝ) / 2 ^ 53 ≤ (q : ℝ) - 1 := by rwa [abs_of_pos (by linarith)] at hg
        have h2 := Real.one_sub_inv_le_log_of_pos hqR
        have h3 := le_abs_self (Real.log q)
        have h4 : (q : ℝ)⁻¹ ≤ (1 + 1 / 2 ^ 53)⁻¹ := inv_anti₀ (by norm_num) (by linarith)
        have h5 : ((1 : ℝ) + 1 / 2 ^ 53)⁻¹ ≤ 1 - 3 / 2 ^ 55 := by norm_num
        linarith
    have he := hlg q hq
    have h6 : (1 : ℝ) / 2 ^ 54 ≤ |(lg q : ℝ)| := by
      have h7 := abs_sub_abs_le_abs_sub (Real.log q) (lg q : ℝ)
      rw [abs_sub_comm] at h7
      have h8 : |Real.log (q : ℝ)| / 2 ^ 52 ≤ |Real.log (q : ℝ)| / 4 := by
        apply div_le_div_of_nonneg_left (abs_nonneg _) <;> norm_num
      norm_num at hl ⊢
      linarith
    have h9 : (1 : ℚ) / 2 ^ 54 ≤ |lg q| := by
      apply (Rat.cast_le (K := ℝ)).1
      push_cast
      exact h6
    refine le_trans (le_of_eq ?_) h9
    rw [zpow_neg]; norm_num

/-- a return that is finite is on a grid and of moderate size -/
def Ret (r : F64) : Prop := ∀ x, r = .fin x → Grid 106 x ∧ |x| ≤ 2 ^ (8 : Int)

theorem log_eq' (lg : ℚ → ℚ) (x : F64) : ieee (F64.log lg x) = B64.log lg (ieee x) := by
  cases x with
  | nan => rfl
  | inf s => cases s <;> rfl
  | fin q =>
    by_cases h0 : q = 0
    · subst h0; simp [F64.log, ieee, B64.log]
    · by_cases h : q < 0
      · simp [F64.log, ieee, B64.log, h0, h]
      · by_cases hl : lg q = 0 <;> simp [F64.log, ieee, B64.log, h0, h, hl]

theorem return_eq' {lg : ℚ → ℚ} (hlg : LogUlp lg) (hr : Rounded lg) (a b : U256) :
    ieee (F64.log lg (F64.div (F64.ofNat b.toNat) (F64.ofNat a.toNat))) = B64.log lg (B64.div (B64.ofInt b.toNat) (B64.ofInt a.toNat)) ∧
    Ret (F64.log lg (F64.div (F64.ofNat b.toNat) (F64.ofNat a.toNat))) := by
  obtain ⟨a0, ag, ab, a1⟩ := word_range a
  obtain ⟨b0, bg, bb, b1⟩ := word_range b
  constructor
  · rw [log_eq', ofWord, ofWord]
    congr 1
    refine div_eq' (a := F64.ofNat b.toNat) (y := rnd (a.toNat : ℚ)) a0 ?_
    intro x hx hy
    have hx' : rnd (b.toNat : ℚ) = x := F64.fin.inj hx
    subst hx'
    rw [abs_of_nonneg a0] at ab
    exact div_tame (j := 256) bg bb (a1.resolve_left hy) ab (by norm_num) (by norm_num)
  · intro x hx
    rcases Nat.eq_zero_or_pos a.toNat with ha | ha
    · exfalso
      have : rnd (a.toNat : ℚ) = 0 := by rw [ha]; simp [rnd_zero]
      change F64.log lg (F64.div (.fin (rnd (b.toNat : ℚ))) (.fin (rnd (a.toNat : ℚ)))) = _ at hx
      rw [this] at hx
      by_cases hb : rnd (b.toNat : ℚ) = 0
      · rw [hb] at hx; simp [F64.div, F64.log] at hx
      · simp [F64.div, F64.log, hb, not_lt.2 b0] at hx
    · rcases Nat.eq_zero_or_pos b.toNat with hb | hb
      · exfalso
        have : rnd (b.toNat : ℚ) = 0 := by rw [hb]; simp [rnd_zero]
        have ha' : rnd (a.toNat : ℚ) ≠ 0 := by
          intro hc; rw [rnd_eq_zero] at hc
          have : a.toNat = 0 := by exact_mod_cast hc
          omega
        change F64.log lg (F64.div (.fin (rnd (b.toNat : ℚ))) (.fin (rnd (a.toNat : ℚ)))) = _ at hx
        rw [this] at hx
        simp [F64.div, F64.log, ha', rnd_zero] at hx
      · obtain ⟨q, hq, herr⟩ := return_err hlg ha hb
        have hqx : q = x := by rw [hq] at hx; exact F64.fin.inj hx
        subst hqx
        have ha' : rnd (a.toNat : ℚ) ≠ 0 := by
          intro hc; rw [rnd_eq_zero] at hc
          have : a.toNat = 0 := by exact_mod_cast hc
          omega
        have hap : 0 < rnd (a.toNat : ℚ) := lt_of_le_of_ne a0 (Ne.symm ha')
        have hb' : rnd (b.toNat : ℚ) ≠ 0 := by
          intro hc; rw [rnd_eq_zero] at hc
          have : b.toNat = 0 := by exact_mod_cast hc
          omega
        have hbp : 0 < rnd (b.toNat : ℚ) := lt_of_le_of_ne b0 (Ne.symm hb')
        have hdp : 0 < rnd (rnd (b.toNat : ℚ) / rnd (a.toNat : ℚ)) := rnd_pos (div_pos hbp hap)
        have hlq : q = lg (rnd (rnd (b.toNat : ℚ) / rnd (a.toNat : ℚ))) := by
          change F64.log lg (F64.div (.fin (rnd (b.toNat : ℚ))) (.fin (rnd (a.toNat : ℚ)))) = _ at hx
          rw [F64.div, if_neg ha', F64.log, if_neg (not_lt.2 (le_of_lt hdp)), if_neg (ne_of_gt hdp)] at hx
          exact (F64.fin.inj hx).symm
        constructor
        · rcases lg_ge hlg hdp (rnd_idem _) with h | h
          · rw [hlq, h]; exact grid_zero _
          · rw [hlq]
            exact grid_of_ge (rounded_rnd hr _) h
        · obtain ⟨u1, u2⟩ := log_range ha
          obtain ⟨v1, v2⟩ := log_range hb
          have haR : (0 : ℝ) < a.toNat := by exact_mod_cast ha
          have hbR : (0 : ℝ) < b.toNat := by exact_mod_cast hb
          rw [Real.log_div (ne_of_gt hbR) (ne_of_gt haR)] at herr
          have he : eps ≤ 1 := by unfold eps; norm_num
          have h := abs_le.1 (le_trans herr he)
          have hR : |(q : ℝ)| ≤ 256 := abs_le.2 ⟨by linarith, by linarith⟩
          have hQ : |q| ≤ 256 := by exact_mod_cast hR
          refine le_trans hQ (le_of_eq ?_); norm_num

theorem returns_eq' {lg : ℚ → ℚ} (hlg : LogUlp lg) (hr : Rounded lg) : ∀ vs : List U256,
    getReturnsB lg vs = (getReturns64 lg vs).map ieee ∧ ∀ r ∈ getReturns64 lg vs, Ret r
  | [] => ⟨rfl, by intro r hr; simp [getReturns64] at hr⟩
  | [_] => ⟨rfl, by intro r hr; simp [getReturns64] at hr⟩
  | a :: b :: rest => by
    obtain ⟨h1, h2⟩ := returns_eq' hlg hr (b :: rest)
    obtain ⟨g1, g2⟩ := return_eq' hlg hr a b
    refine ⟨?_, ?_⟩
    · rw [getReturnsB, getReturns64, List.map_cons, h1, g1]
    · intro r hm
      rw [getReturns64, List.mem_cons] at hm
      rcases hm with rfl | hm
      · exact g2
      · exact h2 r hm

theorem returns_length (lg : ℚ → ℚ) : ∀ vs : List U256, (getReturns64 lg vs).length = vs.length - 1
  | [] => rfl
  | [_] => rfl
  | a :: b :: rest => by
    rw [getReturns64, List.length_cons, returns_length lg (b :: rest)]; simp

/-! ### Sums -/

/-- a term of a sum -/
def Term (g : Nat) (r : F64) : Prop := ∀ x, r = .fin x → Grid g x ∧ |x| ≤ 2 ^ (17 : Int)

/-- a sum of at most `k` terms -/
def Part (g k : Nat) (s : F64) : Prop := ∀ x, s = .fin x → Grid g x ∧ |x| ≤ k * 2 ^ (17 : Int)

theorem term_ret {r : F64} (h : Ret r) : Term 106 r := fun x hx => ⟨(h x hx).1, pow_le (h x hx).2 (by norm_num)⟩

theorem sq_ret {r : F64} (h : Ret r) : ieee (F64.mul r r) = B64.mul (ieee r) (ieee r) ∧ Term 212 (F64.mul r r) := by
  constructor
  · refine sq_eq' ?_
    intro x hx
    obtain ⟨h1, h2⟩ := h x hx
    exact tame_of (k := 212) (by norm_num) (grid_mul h1 h1) (pow_le (pow2_mul h2 h2) (by norm_num))
  · intro y hy
    cases r with
    | nan => simp [F64.mul] at hy
    | inf s => simp [F64.mul] at hy
    | fin x =>
      have : rnd (x * x) = y := F64.fin.inj hy
      subst this
      obtain ⟨h1, h2⟩ := h x rfl
      exact ⟨grid_rnd (grid_mul h1 h1), abs_rnd_le (pow_le (pow2_mul h2 h2) (by norm_num))⟩

theorem step_eq {g k : Nat} (hg : g ≤ 1000) (hk : k + 1 ≤ 2 ^ 53) {s r : F64} (hs : Part g k s) (hr : Term g r) :
    ieee (F64.add s r) = B64.add (ieee s) (ieee r) ∧ Part g (k + 1) (F64.add s r) := by
  have hb : ∀ x y, s = .fin x → r = .fin y → |x + y| ≤ ((k + 1 : Nat) : ℚ) * 2 ^ (17 : Int) := by
    intro x y hx hy
    refine le_trans (abs_add_le _ _) ?_
    have := add_le_add (hs x hx).2 (hr y hy).2
    push_cast
    linarith
  constructor
  · refine add_eq' ?_
    intro x y hx hy
    refine tame_of hg (grid_add (hs x hx).1 (hr y hy).1) (le_trans (hb x y hx hy) ?_)
    have h1 : ((k + 1 : Nat) : ℚ) ≤ 2 ^ (53 : Int) := by exact_mod_cast hk
    have h2 : ((k + 1 : Nat) : ℚ) * 2 ^ (17 : Int) ≤ 2 ^ (53 : Int) * 2 ^ (17 : Int) :=
      mul_le_mul_of_nonneg_right h1 (le_of_lt (zpow_pos (by norm_num) _))
    rw [← zpow_add₀ (by norm_num : (2 : ℚ) ≠ 0)] at h2
    exact pow_le h2 (by norm_num)
  · intro z hz
    cases s with
    | nan => cases r <;> simp [F64.add] at hz
    | inf t =>
      cases r with
      | nan => simp [F64.add] at hz
      | inf t' => rw [F64.add] at hz; split at hz <;> simp at hz
      | fin y => simp [F64.add] at hz
    | fin x =>
      cases r with
      | nan => simp [F64.add] at hz
      | inf t' => simp [F64.add] at hz
      | fin y =>
        have : rnd (x + y) = z := F64.fin.inj hz
        subst this
        refine ⟨grid_rnd (grid_add (hs x rfl).1 (hr y rfl).1), ?_⟩
        have he : rnd (((k + 1 : Nat) : ℚ) * 2 ^ (17 : Int)) = ((k + 1 : Nat) : ℚ) * 2 ^ (17 : Int) := by
          have := rnd_exact (m := ((k + 1 : Nat) : Int)) (by rw [abs_of_nonneg (by positivity)]; exact_mod_cast hk) 17
          rwa [Int.cast_natCast] at this
        rw [abs_rnd, ← he]
        exact rnd_mono (hb x y rfl rfl)

theorem sum_eq' {g : Nat} (hg : g ≤ 1000) : ∀ (l : List F64) (k : Nat) (s : F64), (∀ r ∈ l, Term g r) → Part g k s → k + l.length ≤ 2 ^ 53 →
    ieee (l.foldl F64.add s) = (l.map ieee).foldl B64.add (ieee s) ∧ Part g (k + l.length) (l.foldl F64.add s)
  | [], k, s, _, hs, _ => ⟨rfl, hs⟩
  | r :: l, k, s, hl, hs, hk => by
    rw [List.length_cons] at hk
    obtain ⟨h1, h2⟩ := step_eq hg (by omega) hs (hl r (List.mem_cons_self ..))
    obtain ⟨h3, h4⟩ := sum_eq' hg l (k + 1) (F64.add s r) (fun x hx => hl x (List.mem_cons_of_mem _ hx)) h2 (by omega)
    refine ⟨?_, ?_⟩
    · rw [List.foldl_cons, h3, h1]; rfl
    · rw [List.foldl_cons, List.length_cons, show k + (l.length + 1) = k + 1 + l.length by omega]; exact h4

theorem part_zero (g : Nat) : Part g 0 (.fin 0) := by
  intro x hx
  cases F64.fin.inj hx
  exact ⟨grid_zero _, by simp⟩

/-- a sum of at most `2^31` terms is below `2^48` -/
theorem part_le {g k : Nat} {s : F64} (hk : k ≤ 2 ^ 31) (h : Part g k s) : ∀ x, s = .fin x → Grid g x ∧ |x| ≤ 2 ^ (48 : Int) := by
  intro x hx
  obtain ⟨h1, h2⟩ := h x hx
  refine ⟨h1, le_trans h2 ?_⟩
  have h3 : (k : ℚ) ≤ 2 ^ (31 : Int) := by exact_mod_cast hk
  rw [show (48 : Int) = 31 + 17 by norm_num, zpow_add₀ (by norm_num : (2 : ℚ) ≠ 0)]
  exact mul_le_mul_of_nonneg_right h3 (le_of_lt (zpow_pos (by norm_num) _))

theorem squares_eq (l : List F64) (hl : ∀ r ∈ l, Ret r) (hn : l.length ≤ 2 ^ 31) :
    ieee (l.foldl (fun sum r => F64.add sum (F64.mul r r)) (.fin 0)) = (l.map ieee).foldl (fun sum r => B64.add sum (B64.mul r r)) (.zero false) ∧
    ∀ x, l.foldl (fun sum r => F64.add sum (F64.mul r r)) (.fin 0) = .fin x → Grid 212 x ∧ |x| ≤ 2 ^ (48 : Int) := by
  have e1 : l.foldl (fun sum r => F64.add sum (F64.mul r r)) (.fin 0) = (l.map fun r => F64.mul r r).foldl F64.add (.fin 0) := by
    rw [List.foldl_map]
  have e2 : (l.map ieee).foldl (fun sum r => B64.add sum (B64.mul r r)) (.zero false) =
      ((l.map fun r => F64.mul r r).map ieee).foldl B64.add (ieee (.fin 0)) := by
    rw [List.map_map, ieee_zero, List.foldl_map, List.foldl_map]
    apply List.foldl_ext
    intro s r hr
    show _ = B64.add s (ieee (F64.mul r r))
    rw [(sq_ret (hl r hr)).1]
  have ht : ∀ r ∈ l.map (fun r => F64.mul r r), Term 212 r := by
    intro r hr
    obtain ⟨r', h1, rfl⟩ := List.mem_map.1 hr
    exact (sq_ret (hl r' h1)).2
  obtain ⟨h1, h2⟩ := sum_eq' (by norm_num) _ 0 _ ht (part_zero 212) (by rw [List.length_map]; omega)
  rw [e1, e2]
  exact ⟨h1, part_le (by rw [List.length_map]; omega) h2⟩

theorem total_eq (l : List F64) (hl : ∀ r ∈ l, Ret r) (hn : l.length ≤ 2 ^ 31) :
    ieee (l.foldl (fun sum r => F64.add sum r) (.fin 0)) = (l.map ieee).foldl (fun sum r => B64.add sum r) (.zero false) ∧
    ∀ x, l.foldl (fun sum r => F64.add sum r) (.fin 0) = .fin x → Grid 106 x ∧ |x| ≤ 2 ^ (48 : Int) := by
  obtain ⟨h1, h2⟩ := sum_eq' (by norm_num) l 0 _ (fun r hr => term_ret (hl r hr)) (part_zero 106) (by omega)
  refine ⟨?_, part_le (by omega) h2⟩
  rw [ieee_zero] at h1
  exact h1

theorem losses_eq (l : List F64) (hl : ∀ r ∈ l, Ret r) (hn : l.length ≤ 2 ^ 31) :
    ieee (l.foldl (fun sum r => if F64.lt r (.fin 0) then F64.add sum (F64.mul r r) else sum) (.fin 0)) =
      (l.map ieee).foldl (fun sum r => if B64.lt r (.zero false) then B64.add sum (B64.mul r r) else sum) (.zero false) ∧
    ∀ x, l.foldl (fun sum r => if F64.lt r (.fin 0) then F64.add sum (F64.mul r r) else sum) (.fin 0) = .fin x → Grid 212 x ∧ |x| ≤ 2 ^ (48 : Int) := by
  have e1 : l.foldl (fun sum r => if F64.lt r (.fin 0) then F64.add sum (F64.mul r r) else sum) (.fin 0) =
      (l.filter fun r => F64.lt r (.fin 0)).foldl (fun sum r => F64.add sum (F64.mul r r)) (.fin 0) := by
    rw [List.foldl_filter]
  have e2 : (l.map ieee).foldl (fun sum r => if B64.lt r (.zero false) then B64.add sum (B64.mul r r) else sum) (.zero false) =
      ((l.filter fun r => F64.lt r (.fin 0)).map ieee).foldl (fun sum r => B64.add sum (B64.mul r r)) (.zero false) := by
    have : (l.filter fun r => F64.lt r (.fin 0)).map ieee = (l.map ieee).filter fun r => B64.lt r (.zero false) := by
      rw [List.filter_map]
      congr 1
      apply List.filter_congr
      intro r _
      show _ = B64.lt (ieee r) (.zero false)
      rw [← ieee_zero, lt_eq']
    rw [this, List.foldl_filter]
  rw [e1, e2]
  refine squares_eq _ (fun r hr => hl r (List.mem_filter.1 hr).1) (le_trans (List.length_filter_le _ _) hn)

/-! ### Square roots -/

theorem sqrtRnd_ne {q : ℚ} (hq : 0 < q) : F64.sqrtRnd q ≠ 0 := by
  intro hc
  have h := (sqrtRnd_err hq).1
  have hs : 0 < Real.sqrt q := Real.sqrt_pos.2 (by exact_mod_cast hq)
  rw [hc, Rat.cast_zero, zero_sub, abs_neg, abs_of_pos hs] at h
  have : uu < 1 := by unfold uu; norm_num
  nlinarith

theorem sqrt_eq' (a : F64) : ieee (F64.sqrt a) = B64.sqrt (ieee a) := by
  cases a with
  | nan => rfl
  | inf s => cases s <;> rfl
  | fin q =>
    by_cases h0 : q = 0
    · subst h0; simp [F64.sqrt, ieee, B64.sqrt]
    · by_cases h : q < 0
      · simp [F64.sqrt, ieee, B64.sqrt, h0, h]
      · have := sqrtRnd_ne (lt_of_le_of_ne (not_lt.1 h) (Ne.symm h0))
        simp [F64.sqrt, ieee, B64.sqrt, h0, h, this]

theorem sqrt_normal {k : Nat} (hk : k ≤ 500) {a : F64} (h : ∀ x, a = .fin x → Grid k x ∧ |x| ≤ 2 ^ (400 : Int)) : Normal 300 (ieee (F64.sqrt a)) := by
  cases a with
  | nan => trivial
  | inf s => cases s <;> trivial
  | fin q =>
    by_cases h0 : q = 0
    · subst h0; simp [F64.sqrt, ieee, Normal]
    · by_cases hn : q < 0
      · simp [F64.sqrt, ieee, Normal, hn]
      · have hq : 0 < q := lt_of_le_of_ne (not_lt.1 hn) (Ne.symm h0)
        obtain ⟨h1, h2⟩ := h q rfl
        have hge := pow_ge (j := -500) (grid_ge h1 h0) (by omega)
        rw [abs_of_pos hq] at hge h2
        rw [F64.sqrt, if_neg hn, if_neg h0, ieee_num (sqrtRnd_ne hq)]
        obtain ⟨e1, e2⟩ := sqrtRnd_err hq
        have hu : uu ≤ 1 / 2 := by unfold uu; norm_num
        have hs0 : 0 ≤ Real.sqrt q := Real.sqrt_nonneg _
        have hb := abs_le.1 (le_trans e1 (mul_le_mul_of_nonneg_right hu hs0))
        have s1 : (2 : ℝ) ^ (-250 : Int) ≤ Real.sqrt q := by
          apply Real.le_sqrt_of_sq_le
          have h' := (Rat.cast_le (K := ℝ)).2 hge
          push_cast at h'
          rw [← zpow_natCast, ← zpow_mul]
          exact h'
        have s2 : Real.sqrt q ≤ (2 : ℝ) ^ (200 : Int) := by
          apply Real.sqrt_le_iff.2
          refine ⟨le_of_lt (zpow_pos (by norm_num) _), ?_⟩
          have h' := (Rat.cast_le (K := ℝ)).2 h2
          push_cast at h'
          rw [← zpow_natCast, ← zpow_mul]
          exact h'
        show 2 ^ (-300 : Int) ≤ |F64.sqrtRnd q| ∧ |F64.sqrtRnd q| ≤ 2 ^ (300 : Int)
        rw [abs_of_nonneg e2]
        constructor
        · have : (2 : ℝ) ^ (-300 : Int) ≤ (F64.sqrtRnd q : ℝ) := by
            have h3 : (2 : ℝ) ^ (-300 : Int) ≤ 2 ^ (-251 : Int) := zpow_le_zpow_right₀ (by norm_num) (by norm_num)
            have h4 : (2 : ℝ) ^ (-250 : Int) = 2 ^ (-251 : Int) * 2 := by
              rw [show (-250 : Int) = -251 + 1 by norm_num, zpow_add₀ (by norm_num : (2 : ℝ) ≠ 0), zpow_one]
            linarith [hb.1]
          apply (Rat.cast_le (K := ℝ)).1
          push_cast
          exact this
        · have : (F64.sqrtRnd q : ℝ) ≤ (2 : ℝ) ^ (300 : Int) := by
            have h3 : (2 : ℝ) ^ (201 : Int) ≤ 2 ^ (300 : Int) := zpow_le_zpow_right₀ (by norm_num) (by norm_num)
            have h4 : (2 : ℝ) ^ (201 : Int) = 2 ^ (200 : Int) * 2 := by
              rw [show (201 : Int) = 200 + 1 by norm_num, zpow_add₀ (by norm_num : (2 : ℝ) ≠ 0), zpow_one]
            refine le_trans ?_ h3
            rw [h4]
            generalize (2 : ℝ) ^ (200 : Int) = Z at s2
            linarith only [hb.2, s2, hs0]
          apply (Rat.cast_le (K := ℝ)).1
          push_cast
          exact this

/-! ### The statistics -/

theorem div_part {k : Nat} {b : Int} {s : F64} {y : ℚ} (h1 : 1 ≤ y) (j : Nat) (hj : y ≤ 2 ^ (j : Int))
    (hk : k + j ≤ 1000) (hb : b ≤ 400) (hs : ∀ x, s = .fin x → Grid k x ∧ |x| ≤ 2 ^ b) :
    ieee (F64.div s (.fin y)) = B64.div (ieee s) (ieee (.fin y)) ∧
    ∀ x, F64.div s (.fin y) = .fin x → Grid (k + j + 52) x ∧ |x| ≤ 2 ^ b := by
  constructor
  · refine div_eq' (by linarith) ?_
    intro x hx _
    exact div_tame (hs x hx).1 (hs x hx).2 h1 hj (by omega) (by omega)
  · intro x hx
    cases s with
    | nan => simp [F64.div] at hx
    | inf t => simp [F64.div] at hx
    | fin z =>
      rw [F64.div, if_neg (by linarith)] at hx
      rw [← F64.fin.inj hx]
      exact ⟨div_grid (hs z rfl).1 h1 hj, abs_rnd_le (div_le (hs z rfl).2 h1)⟩

/-- a count as a float64 -/
theorem count_eq {n : Nat} {j : Nat} (h1 : 1 ≤ n) (h2 : n ≤ 2 ^ j) (hj : j ≤ 100) :
    B64.ofInt (n : Int) = ieee (.fin (rnd n)) ∧ F64.ofInt (n : Int) = .fin (rnd n) ∧ 1 ≤ rnd (n : ℚ) ∧ rnd (n : ℚ) ≤ 2 ^ (j : Int) := by
  have a1 : (1 : ℚ) ≤ n := by exact_mod_cast h1
  have a2 : (n : ℚ) ≤ 2 ^ (j : Int) := by exact_mod_cast h2
  have e : F64.ofInt (n : Int) = .fin (rnd n) := by unfold F64.ofInt; rw [Int.cast_natCast]
  refine ⟨?_, e, ?_, ?_⟩
  · rw [← e]
    refine ofInt_eq' ?_
    rw [Int.cast_natCast, abs_of_nonneg (by linarith)]
    exact pow_le a2 (by omega)
  · rw [← rnd_one]; exact rnd_mono a1
  · rw [← rnd_two_pow]; exact rnd_mono a2

theorem down_eq' {lg : ℚ → ℚ} (hlg : LogUlp lg) (hr : Rounded lg) (vs : List U256) (hm : vs.length ≤ 2 ^ 31) :
    downDeviationB lg vs = ieee (downDeviation64 lg vs) ∧ Normal 300 (ieee (downDeviation64 lg vs)) := by
  unfold downDeviationB downDeviation64
  by_cases h : vs.length ≤ 2
  · rw [if_pos h, if_pos h, ieee_zero]; exact ⟨rfl, rfl⟩
  · rw [if_neg h, if_neg h]
    dsimp only
    obtain ⟨e, hret⟩ := returns_eq' hlg hr vs
    have hlen := returns_length lg vs
    rw [e, List.length_map]
    obtain ⟨h1, h2⟩ := losses_eq _ hret (by omega)
    obtain ⟨c1, c2, c3, c4⟩ := count_eq (n := (getReturns64 lg vs).length) (j := 31) (by omega) (by omega) (by norm_num)
    obtain ⟨h3, h4⟩ := div_part (b := 48) c3 31 c4 (by norm_num) (by norm_num) h2
    rw [c1, c2, sqrt_eq', h3, h1]
    refine ⟨rfl, ?_⟩
    rw [← h1, ← h3, ← sqrt_eq']
    exact sqrt_normal (k := 295) (by norm_num) (fun x hx => ⟨(h4 x hx).1, pow_le (h4 x hx).2 (by norm_num)⟩)

theorem std_eq' {lg : ℚ → ℚ} (hlg : LogUlp lg) (hr : Rounded lg) (vs : List U256) (hm : vs.length ≤ 2 ^ 31) :
    stdB lg vs = ieee (std64 lg vs) ∧ Normal 300 (ieee (std64 lg vs)) := by
  unfold stdB std64
  by_cases h : vs.length ≤ 2
  · rw [if_pos h, if_pos h, ieee_zero]; exact ⟨rfl, rfl⟩
  · rw [if_neg h, if_neg h]
    dsimp only
    obtain ⟨e, hret⟩ := returns_eq' hlg hr vs
    have hlen := returns_length lg vs
    rw [e, List.length_map]
    generalize hL : getReturns64 lg vs = L at *
    have hn2 : 2 ≤ L.length := by omega
    have hn31 : L.length ≤ 2 ^ 31 := by omega
    obtain ⟨p1, p2⟩ := squares_eq L hret hn31
    obtain ⟨q1, q2⟩ := total_eq L hret hn31
    have c1 : ((L.length : Int) - 1) = ((L.length - 1 : Nat) : Int) := by omega
    have hq62 : L.length * (L.length - 1) ≤ 2 ^ 62 := by
      calc L.length * (L.length - 1) ≤ 2 ^ 31 * 2 ^ 31 := Nat.mul_le_mul hn31 (by omega)
        _ = 2 ^ 62 := by norm_num
    have hmul : mulInt L.length ((L.length : Int) - 1) = ((L.length * (L.length - 1) : Nat) : Int) := by
      unfold mulInt
      rw [c1, ← Nat.cast_mul]
      exact Int.bmod_eq_of_le (by omega) (by omega)
    rw [hmul, c1]
    have hq0 : 1 ≤ L.length * (L.length - 1) := Nat.mul_pos (by omega) (by omega)
    obtain ⟨a1, a2, a3, a4⟩ := count_eq (n := L.length - 1) (j := 31) (by omega) (by omega) (by norm_num)
    obtain ⟨b1, b2, b3, b4⟩ := count_eq (j := 62) hq0 hq62 (by norm_num)
    rw [a1, a2, b1, b2, ← p1, ← q1]
    generalize L.foldl (fun sum r => F64.add sum (F64.mul r r)) (.fin 0) = S1 at *
    generalize L.foldl (fun sum r => F64.add sum r) (.fin 0) = S2 at *
    have sq : ieee (F64.mul S2 S2) = B64.mul (ieee S2) (ieee S2) :=
      sq_eq' fun x hx => tame_of (k := 212) (by norm_num) (grid_mul (q2 x hx).1 (q2 x hx).1) (pow_le (pow2_mul (q2 x hx).2 (q2 x hx).2) (by norm_num))
    have sqb : ∀ x, F64.mul S2 S2 = .fin x → Grid 212 x ∧ |x| ≤ 2 ^ (96 : Int) := by
      intro y hy
      cases S2 with
      | nan => simp [F64.mul] at hy
      | inf s => simp [F64.mul] at hy
      | fin x =>
        have : rnd (x * x) = y := F64.fin.inj hy
        subst this
        obtain ⟨g1, g2⟩ := q2 x rfl
        exact ⟨grid_rnd (grid_mul g1 g1), abs_rnd_le (pow2_mul g2 g2)⟩
    obtain ⟨d1, d2⟩ := div_part (b := 48) a3 31 a4 (by norm_num) (by norm_num) p2
    obtain ⟨f1, f2⟩ := div_part (b := 96) b3 62 b4 (by norm_num) (by norm_num) sqb
    rw [← sq, ← d1, ← f1]
    generalize F64.div S1 (.fin (rnd ((L.length - 1 : Nat) : ℚ))) = D1 at *
    generalize F64.div (F64.mul S2 S2) (.fin (rnd ((L.length * (L.length - 1) : Nat) : ℚ))) = D2 at *
    have hbd : ∀ x y, D1 = .fin x → D2 = .fin y → Grid 326 (x - y) ∧ |x - y| ≤ 2 ^ (97 : Int) := by
      intro x y hx hy
      refine ⟨grid_sub (grid_mono (by norm_num) (d2 x hx).1) (f2 y hy).1, le_trans (abs_sub _ _) ?_⟩
      have g1 := pow_le (d2 x hx).2 (show (48 : Int) ≤ 96 by norm_num)
      have g2 := (f2 y hy).2
      rw [show (97 : Int) = 96 + 1 by norm_num, zpow_add₀ (by norm_num : (2 : ℚ) ≠ 0), zpow_one]
      linarith
    have hsub := sub_eq'' (a := D1) (b := D2) fun x y hx hy => tame_of (k := 326) (by norm_num) (hbd x y hx hy).1 (pow_le (hbd x y hx hy).2 (by norm_num))
    rw [sqrt_eq', hsub]
    refine ⟨rfl, ?_⟩
    rw [← hsub, ← sqrt_eq']
    refine sqrt_normal (k := 326) (by norm_num) ?_
    intro z hz
    cases D1 with
    | nan => cases D2 <;> simp [F64.sub, F64.neg, F64.add] at hz
    | inf t =>
      cases D2 with
      | nan => simp [F64.sub, F64.neg, F64.add] at hz
      | inf t' => rw [F64.sub, F64.neg, F64.add] at hz; split at hz <;> simp at hz
      | fin y => simp [F64.sub, F64.neg, F64.add] at hz
    | fin x =>
      cases D2 with
      | nan => simp [F64.sub, F64.neg, F64.add] at hz
      | inf t' => simp [F64.sub, F64.neg, F64.add] at hz
      | fin y =>
        have : rnd (x + -y) = z := F64.fin.inj hz
        subst this
        obtain ⟨g1, g2⟩ := hbd x y rfl rfl
        rw [← sub_eq_add_neg]
        exact ⟨grid_rnd g1, pow_le (abs_rnd_le g2) (by norm_num)⟩

theorem idx_map {α β : Type} (f : α → β) (l : List α) (i : Int) : idx (l.map f) i = (idx l i).map f := by
  unfold idx
  by_cases h : 0 ≤ i
  · rw [if_pos h, if_pos h, List.getElem?_map]
    cases l[i.toNat]? <;> rfl
  · rw [if_neg h, if_neg h]; rfl

theorem idx_mem {α : Type} {l : List α} {i : Int} {a : α} (h : idx l i = .ok a) : a ∈ l := by
  unfold idx at h
  by_cases c : 0 ≤ i
  · rw [if_pos c] at h
    cases g : l[i.toNat]? with
    | none => rw [g] at h; cases h
    | some b => rw [g] at h; cases h; exact List.mem_of_getElem? g
  · rw [if_neg c] at h; cases h

theorem ret_normal {r : F64} (h : Ret r) : Normal 300 (ieee r) := by
  cases r with
  | nan => trivial
  | inf s => trivial
  | fin x =>
    obtain ⟨h1, h2⟩ := h x rfl
    exact normal_grid h1 h2 (by norm_num) (by norm_num)

theorem var_eq' {lg : ℚ → ℚ} (hlg : LogUlp lg) (hr : Rounded lg) (vs : List U256) :
    var95B lg vs = (var95of64 lg vs).map ieee ∧ ∀ v, var95of64 lg vs = .ok v → Normal 300 (ieee v) := by
  unfold var95B var95of64
  by_cases h : vs.length ≤ 2
  · rw [if_pos h, if_pos h]
    refine ⟨by rw [← ieee_zero]; rfl, ?_⟩
    intro v hv; cases hv; rw [ieee_zero]; rfl
  · rw [if_neg h, if_neg h]
    dsimp only
    obtain ⟨e, hret⟩ := returns_eq' hlg hr vs
    rw [e, List.length_map]
    constructor
    · rw [← List.map_insertionSort F64.before B64.before ieee _ (fun a _ b _ => (before_eq' a b).symm), idx_map]
    · intro v hv
      have := idx_mem hv
      rw [List.mem_insertionSort] at this
      exact ret_normal (hret v this)

/-! ### Rounding ticks -/

theorem toInt_ieee (z : ℚ) : (ieee (.fin z)).toInt = toIntTrunc z := by
  by_cases h : z = 0
  · subst h; rw [ieee_zero]; simp [B64.toInt, toIntTrunc]
  · rw [ieee_num h]; rfl

theorem whole_eq {f : ℚ → ℚ} (hf : ∀ q, ∃ m : Int, f q = m) (h0 : f 0 = 0) (hb : ∀ q, |f q| ≤ |q| + 1) {ix iunit : Int}
    (hx : |ix| ≤ 2 ^ 63) (hu : 0 < iunit) (hu2 : iunit ≤ 2 ^ 63) :
    (B64.mul (B64.toWhole f (B64.div (B64.ofInt ix) (B64.ofInt iunit))) (B64.ofInt iunit)).toInt =
      toIntTrunc (rnd (f (rnd (float64 ix / float64 iunit)) * float64 iunit)) := by
  have u1 : (1 : ℚ) ≤ iunit := by exact_mod_cast hu
  have u2 : (iunit : ℚ) ≤ 2 ^ (63 : Int) := by exact_mod_cast hu2
  have x1 : |(ix : ℚ)| ≤ 2 ^ (63 : Int) := by rw [← Int.cast_abs]; exact_mod_cast hx
  have eu : B64.ofInt iunit = ieee (.fin (float64 iunit)) := ofInt_eq' (by rw [abs_of_nonneg (by linarith)]; exact pow_le u2 (by norm_num))
  have ex : B64.ofInt ix = ieee (.fin (float64 ix)) := ofInt_eq' (pow_le x1 (by norm_num))
  have v1 : 1 ≤ float64 iunit := by rw [← rnd_one]; exact rnd_mono u1
  have v2 : float64 iunit ≤ 2 ^ (63 : Int) := by rw [← rnd_two_pow]; exact rnd_mono u2
  have vg : Grid 0 (float64 iunit) := grid_rnd (grid_int _)
  have y1 : |float64 ix| ≤ 2 ^ (63 : Int) := abs_rnd_le x1
  have yg : Grid 0 (float64 ix) := grid_rnd (grid_int _)
  generalize float64 iunit = u at *
  generalize float64 ix = x at *
  have hd : B64.div (ieee (.fin x)) (ieee (.fin u)) = ieee (.fin (rnd (x / u))) := by
    rw [← div_eq' (a := .fin x) (by linarith) ?_, F64.div, if_neg (by linarith)]
    intro z hz _
    cases F64.fin.inj hz
    exact div_tame (j := 63) yg y1 v1 v2 (by norm_num) (by norm_num)
  have hq : |rnd (x / u)| ≤ 2 ^ (63 : Int) := abs_rnd_le (div_le y1 v1)
  have hu0 : u ≠ 0 := by linarith
  rw [ex, eu, hd]
  generalize rnd (x / u) = q at *
  by_cases hq0 : q = 0
  · subst hq0
    rw [h0, zero_mul, rnd_zero, ieee_zero, ieee_num hu0]
    simp [B64.toWhole, B64.mul, B64.toInt, toIntTrunc]
  · rw [ieee_num hq0]
    unfold B64.toWhole
    dsimp only
    by_cases hf0 : f q = 0
    · rw [if_pos hf0, hf0, zero_mul, rnd_zero, ieee_num hu0]
      simp [B64.mul, B64.toInt, toIntTrunc]
    · rw [if_neg hf0, ieee_num hu0]
      show (B64.rd false (f q * u)).toInt = _
      rw [rd_tame, toInt_ieee]
      obtain ⟨m, hm⟩ := hf q
      have hg : Grid 0 (f q) := by rw [hm]; exact grid_int m
      have hfb : |f q| ≤ 2 ^ (64 : Int) := by
        refine le_trans (hb q) ?_
        rw [show (64 : Int) = 63 + 1 by norm_num, zpow_add₀ (by norm_num : (2 : ℚ) ≠ 0), zpow_one]
        have : (1 : ℚ) ≤ 2 ^ (63 : Int) := one_le_zpow₀ (by norm_num) (by norm_num)
        generalize (2 : ℚ) ^ (63 : Int) = Z at *
        linarith
      have hub : |u| ≤ 2 ^ (63 : Int) := by rwa [abs_of_nonneg (by linarith)]
      exact tame_of (k := 0) (by norm_num) (grid_mul hg vg) (pow_le (pow2_mul hfb hub) (by norm_num))

theorem round_eq' {ix iunit : Int} (hx : |ix| ≤ 2 ^ 63) (hu : 0 < iunit) (hu2 : iunit ≤ 2 ^ 63) : roundB ix iunit = round ix iunit := by
  refine whole_eq (f := mathRound) ?_ ?_ ?_ hx hu hu2
  · intro q; unfold mathRound; split
    · exact ⟨_, rfl⟩
    · exact ⟨-⌊-q + 1 / 2⌋, by push_cast; rfl⟩
  · unfold mathRound
    rw [if_pos (le_refl _)]
    norm_num
  · intro q
    unfold mathRound
    split
    · rename_i h
      have h1 := Int.floor_le (q + 1 / 2)
      have h2 := Int.lt_floor_add_one (q + 1 / 2)
      rw [abs_of_nonneg h, abs_le]; constructor <;> linarith
    · rename_i h
      have h1 := Int.floor_le (-q + 1 / 2)
      have h2 := Int.lt_floor_add_one (-q + 1 / 2)
      rw [abs_of_neg (not_le.1 h), abs_le]; constructor <;> linarith [not_le.1 h]

theorem ceil_eq' {ix iunit : Int} (hx : |ix| ≤ 2 ^ 63) (hu : 0 < iunit) (hu2 : iunit ≤ 2 ^ 63) : ceilB ix iunit = ceil ix iunit := by
  refine whole_eq (f := mathCeil) (fun q => ⟨_, rfl⟩) (by simp [mathCeil]) ?_ hx hu hu2
  intro q
  unfold mathCeil
  have h1 := Int.le_ceil q
  have h2 := Int.ceil_lt_add_one q
  rw [abs_le]; constructor <;> linarith [le_abs_self q, neg_abs_le q]

theorem floor_eq' {ix iunit : Int} (hx : |ix| ≤ 2 ^ 63) (hu : 0 < iunit) (hu2 : iunit ≤ 2 ^ 63) : floorB ix iunit = floor ix iunit := by
  refine whole_eq (f := mathFloor) (fun q => ⟨_, rfl⟩) (by simp [mathFloor]) ?_ hx hu hu2
  intro q
  unfold mathFloor
  have h1 := Int.floor_le q
  have h2 := Int.lt_floor_add_one q
  rw [abs_le]; constructor <;> linarith [le_abs_self q, neg_abs_le q]

end IEEE
end Uni
