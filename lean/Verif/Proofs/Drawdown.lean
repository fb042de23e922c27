import Verif.Model.Main
import Verif.Spec.Main
import Verif.Proofs.Float64
/-! # The drawdown loop with float64 rounding -/
namespace Uni
namespace Main
open TickRound Spec

/-- The rounded relative change computed by the code. -/
def ddOf (b a : ℚ) : ℚ := rnd (rnd (b + -a) / a)

theorem div_fin {x y : ℚ} (h : y ≠ 0) : F64.div (.fin x) (.fin y) = .fin (rnd (x / y)) := by
  show (if y = 0 then _ else _) = _
  rw [if_neg h]

theorem div_nan : F64.div (.fin 0) (.fin 0) = .nan := by simp [F64.div]

theorem sub_fin (x y : ℚ) : F64.sub (.fin x) (.fin y) = .fin (rnd (x + -y)) := rfl

theorem step_fin {p M : ℚ} (hm : max M p ≠ 0) :
    F64.div (F64.sub (.fin p) (F64.max (.fin M) (.fin p))) (F64.max (.fin M) (.fin p)) = .fin (ddOf p (max M p)) := by
  show F64.div (.fin (rnd (p + -(max M p)))) (.fin (max M p)) = _
  rw [div_fin hm]
  rfl

/-- The largest of a start value and the entries up to `j`. -/
def topTo (fs : List ℚ) (M : ℚ) (j : Nat) : ℚ := (fs.take (j + 1)).foldl max M

theorem topTo_cons (f : ℚ) (fs : List ℚ) (M : ℚ) (j : Nat) : topTo (f :: fs) M (j + 1) = topTo fs (max M f) j := rfl

theorem loop_fin (fs : List ℚ) : ∀ (M D : ℚ), 0 < M →
    ∃ q, (drawdownLoop (fs.map F64.fin) (.fin M, .fin D)).2 = .fin q ∧ q ≤ D ∧
      (∀ (j : Nat) (f : ℚ), fs[j]? = some f → q ≤ ddOf f (topTo fs M j)) ∧
      (q = D ∨ ∃ (j : Nat) (f : ℚ), fs[j]? = some f ∧ q = ddOf f (topTo fs M j)) := by
  induction fs with
  | nil =>
    intro M D hM
    exact ⟨D, rfl, le_rfl, (by intro j f h; simp at h), Or.inl rfl⟩
  | cons f fs ih =>
    intro M D hM
    have hpos : 0 < max M f := lt_of_lt_of_le hM (le_max_left _ _)
    have hd := step_fin (p := f) (M := M) hpos.ne'
    have e : drawdownLoop ((f :: fs).map F64.fin) (.fin M, .fin D) =
        drawdownLoop (fs.map F64.fin) (.fin (max M f), .fin (min D (ddOf f (max M f)))) := by
      show drawdownLoop (fs.map F64.fin) (F64.max (.fin M) (.fin f),
        F64.min (.fin D) (F64.div (F64.sub (.fin f) (F64.max (.fin M) (.fin f))) (F64.max (.fin M) (.fin f)))) = _
      rw [hd]
      rfl
    obtain ⟨q, h1, h2, h3, h4⟩ := ih (max M f) (min D (ddOf f (max M f))) hpos
    refine ⟨q, by rw [e]; exact h1, le_trans h2 (min_le_left _ _), ?_, ?_⟩
    · intro j g hj
      cases j with
      | zero =>
        obtain rfl : f = g := by simpa using hj
        exact le_trans h2 (min_le_right _ _)
      | succ j => exact h3 j g (by simpa using hj)
    · rcases h4 with h4 | ⟨j, g, hg, hq⟩
      · rcases le_total D (ddOf f (max M f)) with h | h
        · rw [min_eq_left h] at h4; exact Or.inl h4
        · rw [min_eq_right h] at h4; exact Or.inr ⟨0, f, rfl, h4⟩
      · exact Or.inr ⟨j + 1, g, by simpa using hg, hq⟩

/-- The running maximum of the rounded values is the rounded running maximum. -/
theorem topTo_rnd (vs : List Nat) : ∀ (m j : Nat), topTo (vs.map fun (v : Nat) => rnd v) (rnd (m : ℚ)) j =
    rnd (((vs.take (j + 1)).foldl max m : Nat) : ℚ) := by
  induction vs with
  | nil => intro m j; rfl
  | cons v vs ih =>
    intro m j
    have hmax : max (rnd (m : ℚ)) (rnd (v : ℚ)) = rnd ((max m v : Nat) : ℚ) := by
      rcases le_total m v with h | h
      · rw [max_eq_right h, max_eq_right (rnd_mono (by exact_mod_cast h))]
      · rw [max_eq_left h, max_eq_left (rnd_mono (by exact_mod_cast h))]
    cases j with
    | zero => exact hmax
    | succ j =>
      rw [List.map_cons, topTo_cons, hmax, ih]
      rfl

theorem foldl_max_mem (vs : List Nat) : ∀ m, vs.foldl max m = m ∨ vs.foldl max m ∈ vs := by
  induction vs with
  | nil => intro m; exact Or.inl rfl
  | cons v vs ih =>
    intro m
    rcases ih (max m v) with h | h
    · rcases le_total m v with h' | h'
      · rw [max_eq_right h'] at h
        exact Or.inr (by rw [List.foldl_cons, max_eq_right h', h]; exact List.mem_cons_self)
      · rw [max_eq_left h'] at h
        exact Or.inl (by rw [List.foldl_cons, max_eq_left h', h])
    · exact Or.inr (List.mem_cons_of_mem _ h)

theorem le_foldl_max (vs : List Nat) : ∀ m, m ≤ vs.foldl max m ∧ ∀ v ∈ vs, v ≤ vs.foldl max m := by
  induction vs with
  | nil => intro m; exact ⟨le_rfl, (by intro v h; simp at h)⟩
  | cons v vs ih =>
    intro m
    obtain ⟨h1, h2⟩ := ih (max m v)
    refine ⟨le_trans (le_max_left _ _) h1, ?_⟩
    intro w hw
    rcases List.mem_cons.1 hw with rfl | h
    · exact le_trans (le_max_right _ _) h1
    · exact h2 w h

/-- The running maximum up to `j` is an entry at or before `j` and bounds all of these. -/
theorem top_spec {v0 : Nat} {vs : List Nat} {j b : Nat} (hj : (v0 :: vs)[j]? = some b) :
    ∃ i a, i ≤ j ∧ (v0 :: vs)[i]? = some a ∧ ((v0 :: vs).take (j + 1)).foldl max v0 = a ∧ b ≤ a ∧
      ∀ (i' a' : Nat), i' ≤ j → (v0 :: vs)[i']? = some a' → a' ≤ a := by
  have hmem : ∀ (i' a' : Nat), i' ≤ j → (v0 :: vs)[i']? = some a' → a' ∈ (v0 :: vs).take (j + 1) := by
    intro i' a' hi h
    apply List.mem_of_getElem? (i := i')
    rw [List.getElem?_take_of_lt (by omega)]
    exact h
  obtain ⟨h1, h2⟩ := le_foldl_max ((v0 :: vs).take (j + 1)) v0
  rcases foldl_max_mem ((v0 :: vs).take (j + 1)) v0 with h | h
  · refine ⟨0, v0, by omega, rfl, h, ?_, ?_⟩
    · rw [← h]; exact h2 _ (hmem j b le_rfl hj)
    · intro i' a' hi ha; rw [← h]; exact h2 _ (hmem i' a' hi ha)
  · obtain ⟨i, hi⟩ := List.getElem?_of_mem h
    have hlt : i < j + 1 := by
      have := (List.getElem?_eq_some_iff.1 hi).1
      rw [List.length_take] at this
      omega
    rw [List.getElem?_take_of_lt hlt] at hi
    exact ⟨i, _, by omega, hi, rfl, h2 _ (hmem j b le_rfl hj), fun i' a' hi' ha => h2 _ (hmem i' a' hi' ha)⟩

/-- Quotients of rounded numbers. -/
theorem quot_err {b a : ℚ} (ha : 0 < a) (hb : 0 ≤ b) : |rnd b / rnd a - b / a| ≤ 3 / 2 ^ 53 * (b / a) := by
  have hfa := rnd_pos ha
  have e1 := rnd_err a
  have e2 := rnd_err b
  rw [abs_of_pos ha] at e1
  rw [abs_of_nonneg hb] at e2
  have hfa' : a * (1 - 1 / 2 ^ 53) ≤ rnd a := by
    have := (abs_le.1 e1).1
    linarith
  have : rnd b / rnd a - b / a = ((rnd b - b) * a - b * (rnd a - a)) / (a * rnd a) := by
    field_simp
    ring
  rw [this, abs_div, abs_of_pos (mul_pos ha hfa), div_le_iff₀ (mul_pos ha hfa)]
  have h1 : |(rnd b - b) * a - b * (rnd a - a)| ≤ 2 * (b * a / 2 ^ 53) := by
    calc _ ≤ |(rnd b - b) * a| + |b * (rnd a - a)| := abs_sub _ _
      _ = |rnd b - b| * a + b * |rnd a - a| := by rw [abs_mul, abs_mul, abs_of_pos ha, abs_of_nonneg hb]
      _ ≤ b / 2 ^ 53 * a + b * (a / 2 ^ 53) :=
          add_le_add (mul_le_mul_of_nonneg_right e2 ha.le) (mul_le_mul_of_nonneg_left e1 hb)
      _ = _ := by ring
  refine le_trans h1 ?_
  have h2 : 3 / 2 ^ 53 * (b / a) * (a * rnd a) = 3 / 2 ^ 53 * b * rnd a := by field_simp
  rw [h2]
  have h3 : 2 * a ≤ 3 * rnd a := by
    have : (2 : ℚ) * a ≤ 3 * (a * (1 - 1 / 2 ^ 53)) := by nlinarith
    linarith
  have : b * (2 * a) ≤ b * (3 * rnd a) := mul_le_mul_of_nonneg_left h3 hb
  calc 2 * (b * a / 2 ^ 53) = b * (2 * a) / 2 ^ 53 := by ring
    _ ≤ b * (3 * rnd a) / 2 ^ 53 := div_le_div_of_nonneg_right this (by positivity)
    _ = _ := by ring

theorem abs_sub_quot {f g : ℚ} (hg : 0 < g) : |(f + -g) / g| ≤ 1 + |f / g| := by
  have : (f + -g) / g = f / g - 1 := by field_simp; ring
  rw [this]
  calc |f / g - 1| ≤ |f / g| + |(1 : ℚ)| := abs_sub _ _
    _ = _ := by rw [abs_one]; ring

/-- The computed relative change is within 2^-50 of the true one, relative to the size of the quotient. -/
theorem ddOf_err {b a : ℚ} (ha : 0 < a) (hb : 0 ≤ b) :
    |ddOf (rnd b) (rnd a) - (b - a) / a| ≤ 1 / 2 ^ 50 * (1 + b / a) := by
  have hfa := rnd_pos ha
  have hr : 0 ≤ b / a := div_nonneg hb ha.le
  have hq := quot_err ha hb
  set x := rnd b + -rnd a with hx
  have hxq : x / rnd a - (b - a) / a = rnd b / rnd a - b / a := by rw [hx]; field_simp; ring
  have hxa : |x / rnd a| ≤ 1 + (b / a + 3 / 2 ^ 53 * (b / a)) := by
    have h1 := abs_sub_quot (f := rnd b) hfa
    have h2 : |rnd b / rnd a| ≤ b / a + 3 / 2 ^ 53 * (b / a) := by
      calc |rnd b / rnd a| = |(rnd b / rnd a - b / a) + b / a| := by ring_nf
        _ ≤ |rnd b / rnd a - b / a| + |b / a| := abs_add_le _ _
        _ ≤ _ := by rw [abs_of_nonneg hr]; linarith
    linarith
  have e1 := rnd_err x
  have hy : |rnd x / rnd a - x / rnd a| ≤ |x / rnd a| / 2 ^ 53 := by
    rw [← sub_div, abs_div, abs_div, abs_of_pos hfa, div_div, mul_comm, ← div_div]
    exact div_le_div_of_nonneg_right e1 hfa.le
  have hya : |rnd x / rnd a| ≤ |x / rnd a| + |x / rnd a| / 2 ^ 53 := by
    calc |rnd x / rnd a| = |(rnd x / rnd a - x / rnd a) + x / rnd a| := by ring_nf
      _ ≤ _ := by
        have := abs_add_le (rnd x / rnd a - x / rnd a) (x / rnd a)
        linarith
  have e2 := rnd_err (rnd x / rnd a)
  have tri : |ddOf (rnd b) (rnd a) - (b - a) / a| ≤
      |rnd (rnd x / rnd a) - rnd x / rnd a| + (|rnd x / rnd a - x / rnd a| + |x / rnd a - (b - a) / a|) := by
    have h1 : ddOf (rnd b) (rnd a) = rnd (rnd x / rnd a) := rfl
    rw [h1]
    calc _ = |(rnd (rnd x / rnd a) - rnd x / rnd a) + ((rnd x / rnd a - x / rnd a) + (x / rnd a - (b - a) / a))| := by
          congr 1; ring
      _ ≤ _ := le_trans (abs_add_le _ _) (by
          have := abs_add_le (rnd x / rnd a - x / rnd a) (x / rnd a - (b - a) / a)
          linarith)
  rw [hxq] at tri
  have hA : 0 ≤ |x / rnd a| := abs_nonneg _
  generalize |x / rnd a| = A at *
  generalize |rnd x / rnd a| = B at *
  generalize b / a = r at *
  have : B / 2 ^ 53 + (A / 2 ^ 53 + 3 / 2 ^ 53 * r) ≤ 1 / 2 ^ 50 * (1 + r) := by
    norm_num at *
    linarith
  linarith

theorem ddOf_range {f g : ℚ} (hg : 0 < g) (hgf : rnd g = g) (hf : 0 ≤ f) (h : f ≤ g) :
    -1 ≤ ddOf f g ∧ ddOf f g ≤ 0 := by
  have h1 : -g ≤ rnd (f + -g) := by
    have := rnd_mono (x := -g) (y := f + -g) (by linarith)
    rw [rnd_neg, hgf] at this
    exact this
  have h2 : rnd (f + -g) ≤ 0 := by
    have := rnd_mono (x := f + -g) (y := 0) (by linarith)
    rwa [rnd_zero] at this
  unfold ddOf
  constructor
  · have h3 : (-1 : ℚ) ≤ rnd (f + -g) / g := by rw [le_div_iff₀ hg]; linarith
    have := rnd_mono h3
    rwa [rnd_neg, rnd_one] at this
  · have h3 : rnd (f + -g) / g ≤ 0 := div_nonpos_of_nonpos_of_nonneg h2 hg.le
    have := rnd_mono h3
    rwa [rnd_zero] at this

theorem ddOf_zero {f g : ℚ} (hg : 0 < g) : ddOf f g = 0 ↔ f = g := by
  unfold ddOf
  rw [rnd_eq_zero, div_eq_zero_iff, rnd_eq_zero]
  constructor
  · rintro (h | h)
    · linarith
    · exact absurd h hg.ne'
  · rintro rfl; left; ring

/-- With a first value of zero every later state of the loop is NaN. -/
theorem loop_nan (fs : List ℚ) : ∀ (M : ℚ), 0 ≤ M → (∀ f ∈ fs, 0 ≤ f) →
    (drawdownLoop (fs.map F64.fin) (.fin M, .nan)).2 = .nan := by
  induction fs with
  | nil => intro M _ _; rfl
  | cons f fs ih =>
    intro M hM hf
    have hf0 : 0 ≤ f := hf f List.mem_cons_self
    have h0 : 0 ≤ max M f := le_trans hM (le_max_left _ _)
    have hmin : F64.min .nan (F64.div (F64.sub (.fin f) (F64.max (.fin M) (.fin f))) (F64.max (.fin M) (.fin f))) = .nan := by
      by_cases hm : max M f = 0
      · have hff : f = 0 := le_antisymm (hm ▸ le_max_right M f) hf0
        have e : F64.div (F64.sub (.fin f) (F64.max (.fin M) (.fin f))) (F64.max (.fin M) (.fin f)) = .nan := by
          show F64.div (.fin (rnd (f + -(max M f)))) (.fin (max M f)) = _
          rw [hm, hff, neg_zero, add_zero, rnd_zero, div_nan]
        rw [e]; rfl
      · rw [step_fin hm]; rfl
    show (drawdownLoop (fs.map F64.fin) (F64.max (.fin M) (.fin f), _)).2 = .nan
    rw [hmin]
    exact ih (max M f) h0 (fun g hg => hf g (List.mem_cons_of_mem _ hg))

theorem toFloats_eq (prices : List U256) :
    toFloats prices = ((prices.map U256.toNat).map fun (v : Nat) => rnd (v : ℚ)).map F64.fin := by
  unfold toFloats
  rw [List.map_map, List.map_map]
  rfl

theorem maximumDrawdown_eq {x : U256} {xs : List U256} (h : xs ≠ []) :
    maximumDrawdown (x :: xs) =
      .ok (drawdownLoop (toFloats (x :: xs)) (.fin (rnd (x.toNat : ℚ)), .fin 0)).2 := by
  unfold maximumDrawdown
  have : ¬ (x :: xs).length ≤ 1 := by
    have := List.length_pos_iff.2 h
    simp only [List.length_cons]; omega
  rw [if_neg this]
  rfl

/-- The drawdown of a series with a positive first value. -/
theorem drawdown_spec {x : U256} {xs : List U256} (h : xs ≠ []) (hx : 0 < x.toNat) :
    ∃ q, maximumDrawdown (x :: xs) = .ok (.fin q) ∧ -1 ≤ q ∧ q ≤ 0 ∧
      WorstLoss ((x :: xs).map U256.toNat) q (1 / 2 ^ 49) ∧
      (q = 0 ↔ ∀ (i j a b : Nat), i ≤ j → ((x :: xs).map U256.toNat)[i]? = some a →
        ((x :: xs).map U256.toNat)[j]? = some b → rnd (a : ℚ) ≤ rnd (b : ℚ)) := by
  rw [maximumDrawdown_eq h, toFloats_eq]
  set vs := (x :: xs).map U256.toNat with hvs
  have hvs' : vs = x.toNat :: xs.map U256.toNat := by rw [hvs]; rfl
  have hM : (0 : ℚ) < rnd (x.toNat : ℚ) := rnd_pos (by exact_mod_cast hx)
  obtain ⟨q, h1, h2, h3, h4⟩ := loop_fin (vs.map fun (v : Nat) => rnd (v : ℚ)) (rnd (x.toNat : ℚ)) 0 hM
  have top : ∀ (j b : Nat), vs[j]? = some b → ∃ i a, i ≤ j ∧ vs[i]? = some a ∧
      topTo (vs.map fun (v : Nat) => rnd (v : ℚ)) (rnd (x.toNat : ℚ)) j = rnd (a : ℚ) ∧ b ≤ a ∧ 0 < a ∧
      ∀ (i' a' : Nat), i' ≤ j → vs[i']? = some a' → a' ≤ a := by
    intro j b hj
    rw [hvs'] at hj
    obtain ⟨i, a, hi, ha, hf, hba, hall⟩ := top_spec hj
    rw [← hvs'] at ha hf hall
    refine ⟨i, a, hi, ha, ?_, hba, ?_, hall⟩
    · rw [topTo_rnd, hf]
    · have := hall 0 x.toNat (by omega) (by rw [hvs']; rfl)
      omega
  have get : ∀ (j : Nat) (b : Nat), vs[j]? = some b → (vs.map fun (v : Nat) => rnd (v : ℚ))[j]? = some (rnd (b : ℚ)) := by
    intro j b hb; rw [List.getElem?_map, hb]; rfl
  have getInv : ∀ (j : Nat) (f : ℚ), (vs.map fun (v : Nat) => rnd (v : ℚ))[j]? = some f →
      ∃ b : Nat, vs[j]? = some b ∧ f = rnd (b : ℚ) := by
    intro j f hf
    rw [List.getElem?_map] at hf
    cases hb : vs[j]? with
    | none => rw [hb] at hf; cases hf
    | some b => rw [hb] at hf; exact ⟨b, rfl, (Option.some.inj hf).symm⟩
  have range : ∀ (a b : Nat), b ≤ a → 0 < a → -1 ≤ ddOf (rnd (b : ℚ)) (rnd (a : ℚ)) ∧ ddOf (rnd (b : ℚ)) (rnd (a : ℚ)) ≤ 0 := by
    intro a b hba ha
    exact ddOf_range (rnd_pos (by exact_mod_cast ha)) (rnd_idem _) (rnd_nonneg (by positivity))
      (rnd_mono (by exact_mod_cast hba))
  have err : ∀ (a b : Nat), b ≤ a → 0 < a → |ddOf (rnd (b : ℚ)) (rnd (a : ℚ)) - change a b| ≤ 1 / 2 ^ 49 := by
    intro a b hba ha
    have haq : (0 : ℚ) < a := by exact_mod_cast ha
    have := ddOf_err (b := (b : ℚ)) haq (by positivity)
    have hle : (b : ℚ) / a ≤ 1 := by rw [div_le_one haq]; exact_mod_cast hba
    unfold change
    refine le_trans this ?_
    have : (1 : ℚ) / 2 ^ 50 * (1 + (b : ℚ) / a) ≤ 1 / 2 ^ 50 * (1 + 1) := by
      apply mul_le_mul_of_nonneg_left _ (by positivity); linarith
    refine le_trans this (le_of_eq (by norm_num))
  refine ⟨q, by rw [h1], ?_, h2, ⟨?_, ?_⟩, ?_⟩
  · rcases h4 with h4 | ⟨j, f, hf, hq⟩
    · rw [h4]; norm_num
    · obtain ⟨b, hb, rfl⟩ := getInv j f hf
      obtain ⟨i, a, hi, ha, ht, hba, hapos, _⟩ := top j b hb
      rw [hq, ht]
      exact (range a b hba hapos).1
  · intro i j a b hij ha hb hapos
    obtain ⟨i', a', hi', ha', ht, hba', hapos', hall⟩ := top j b hb
    have hq := h3 j _ (get j b hb)
    rw [ht] at hq
    have he := (abs_le.1 (err a' b hba' hapos')).2
    have haa : a ≤ a' := hall i a hij ha
    have hmono : change a' b ≤ change a b := by
      unfold change
      have e1 : ((b : ℚ) - a') / a' = b / a' - 1 := by
        have : (a' : ℚ) ≠ 0 := by positivity
        field_simp
      have e2 : ((b : ℚ) - a) / a = b / a - 1 := by
        have : (a : ℚ) ≠ 0 := by positivity
        field_simp
      rw [e1, e2]
      have haq : (0 : ℚ) < a := by exact_mod_cast hapos
      have : (b : ℚ) / a' ≤ b / a := div_le_div_of_nonneg_left (by positivity) haq (by exact_mod_cast haa)
      linarith
    linarith
  · rcases h4 with h4 | ⟨j, f, hf, hq⟩
    · refine ⟨0, 0, x.toNat, x.toNat, le_rfl, by rw [hvs']; rfl, by rw [hvs']; rfl, hx, ?_⟩
      rw [h4]; unfold change; simp
    · obtain ⟨b, hb, rfl⟩ := getInv j f hf
      obtain ⟨i, a, hi, ha, ht, hba, hapos, _⟩ := top j b hb
      refine ⟨i, j, a, b, hi, ha, hb, hapos, ?_⟩
      rw [hq, ht]
      exact err a b hba hapos
  · constructor
    · intro hq i j a b hij ha hb
      obtain ⟨i', a', hi', ha', ht, hba', hapos', hall⟩ := top j b hb
      have hle := h3 j _ (get j b hb)
      rw [ht, hq] at hle
      have h0 := le_antisymm (range a' b hba' hapos').2 hle
      have heq := (ddOf_zero (rnd_pos (by exact_mod_cast hapos'))).1 h0
      rw [heq]
      exact rnd_mono (by exact_mod_cast hall i a hij ha)
    · intro hmono
      rcases h4 with h4 | ⟨j, f, hf, hq⟩
      · exact h4
      · obtain ⟨b, hb, rfl⟩ := getInv j f hf
        obtain ⟨i, a, hi, ha, ht, hba, hapos, _⟩ := top j b hb
        rw [hq, ht]
        have h5 := hmono i j a b hi ha hb
        have h6 : rnd (b : ℚ) ≤ rnd (a : ℚ) := rnd_mono (by exact_mod_cast hba)
        exact (ddOf_zero (rnd_pos (by exact_mod_cast hapos))).2 (le_antisymm h6 h5)

theorem drawdown_nan {x : U256} {xs : List U256} (h : xs ≠ []) (hx : x.toNat = 0) :
    maximumDrawdown (x :: xs) = .ok .nan := by
  rw [maximumDrawdown_eq h, toFloats_eq]
  rw [List.map_cons, List.map_cons, List.map_cons, hx]
  rw [show ((0 : ℕ) : ℚ) = 0 by norm_num, rnd_zero]
  congr 1
  show (drawdownLoop _ (F64.max (.fin 0) (.fin 0),
    F64.min (.fin 0) (F64.div (F64.sub (.fin 0) (F64.max (.fin 0) (.fin 0))) (F64.max (.fin 0) (.fin 0))))).2 = .nan
  have e1 : F64.max (.fin 0) (.fin 0) = .fin 0 := by show F64.fin (max 0 0) = _; rw [max_self]
  have e2 : F64.div (F64.sub (.fin 0) (.fin 0)) (.fin 0) = .nan := by
    rw [sub_fin, neg_zero, add_zero, rnd_zero, div_nan]
  rw [e1, e2]
  apply loop_nan _ _ le_rfl
  intro f hf
  obtain ⟨v, _, rfl⟩ := List.mem_map.1 hf
  exact rnd_nonneg (by positivity)

end Main
end Uni
