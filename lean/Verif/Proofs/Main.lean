import Verif.Proofs.Drawdown
import Mathlib.Algebra.BigOperators.Group.List.Basic
import Mathlib.Tactic.LinearCombination
/-! # `main.go`: powers, sampling, statistics -/
namespace Uni
namespace Main
open TickRound Spec

/-! ## Powers -/

theorem mulInt_bmod (a b : Int) : mulInt (a.bmod (2 ^ 64)) b = (a * b).bmod (2 ^ 64) := by
  unfold mulInt
  exact Int.bmod_mul_bmod

theorem powLoop_ok (n m : Int) (hm : m < 2 ^ 63 - 1) : ∀ (fuel : Nat) (i : Int), 2 ≤ i → i ≤ m + 1 →
    m + 2 - i ≤ fuel →
    powLoop n m fuel i ((n ^ (i - 1).toNat).bmod (2 ^ 64)) = .ok ((n ^ m.toNat).bmod (2 ^ 64)) := by
  intro fuel
  induction fuel with
  | zero => intro i h1 h2 h3; simp only [Nat.cast_zero] at h3; omega
  | succ fuel ih =>
    intro i h1 h2 h3
    unfold powLoop
    by_cases h : i ≤ m
    · rw [if_pos h, mulInt_bmod]
      have hi : addInt i 1 = i + 1 := by
        unfold addInt
        apply Int.bmod_eq_of_le <;> omega
      rw [hi, ← pow_succ]
      have e : (i - 1).toNat + 1 = (i + 1 - 1).toNat := by omega
      rw [e]
      apply ih <;> omega
    · rw [if_neg h]
      have : i - 1 = m := by omega
      rw [this]

theorem powLoop_stuck (n : Int) : ∀ (fuel : Nat) (i r : Int), i ≤ 2 ^ 63 - 1 → powLoop n (2 ^ 63 - 1) fuel i r = .error .fuel := by
  intro fuel
  induction fuel with
  | zero => intro i r _; rfl
  | succ fuel ih =>
    intro i r hi
    unfold powLoop
    rw [if_pos hi]
    apply ih
    unfold addInt
    have := Int.bmod_lt (x := i + 1) (m := 2 ^ 64) (by norm_num)
    omega

theorem intPow_ok {n m : Int} (hn1 : -2 ^ 63 ≤ n) (hn2 : n < 2 ^ 63) (hm0 : 0 ≤ m) (hm : m < 2 ^ 63 - 1) {fuel : Nat}
    (hf : m ≤ fuel) : intPow fuel n m = .ok ((n ^ m.toNat).bmod (2 ^ 64)) := by
  unfold intPow
  have hnb : n.bmod (2 ^ 64) = n := by apply Int.bmod_eq_of_le <;> omega
  by_cases h0 : m = 0
  · rw [if_pos h0, h0]
    have : (n ^ Int.toNat 0).bmod (2 ^ 64) = 1 := by rw [Int.toNat_zero, pow_zero]; decide
    rw [this]
  · rw [if_neg h0]
    have := powLoop_ok n m hm fuel 2 (by omega) (by omega) (by omega)
    have e : ((2 : Int) - 1).toNat = 1 := rfl
    rw [e, pow_one, hnb] at this
    exact this

theorem intPow_neg {n m : Int} (hm : m < 0) {fuel : Nat} (hf : 0 < fuel) : intPow fuel n m = .ok n := by
  unfold intPow
  rw [if_neg (by omega)]
  cases fuel with
  | zero => omega
  | succ k =>
    unfold powLoop
    rw [if_neg (by omega)]

/-! ## Sampling -/

/-- Entries whose position is a multiple of `k`; the list starts at position `i`. -/
def pick (k : Nat) : Nat → List U256 → List U256
  | _, [] => []
  | i, x :: xs => if i % k = 0 then x :: pick k (i + 1) xs else pick k (i + 1) xs

theorem sampleLoop_eq (xs : List U256) : ∀ (i : Nat) (s : Series), sampleLoop i xs s =
    ⟨s.hourly ++ xs, s.daily ++ pick 24 i xs, s.weekly ++ pick 168 i xs⟩ := by
  induction xs with
  | nil => intro i s; simp [sampleLoop, pick]
  | cons x xs ih =>
    intro i s
    unfold sampleLoop
    rw [ih]
    have e1 : pick 24 i (x :: xs) = if i % 24 = 0 then x :: pick 24 (i + 1) xs else pick 24 (i + 1) xs := rfl
    have e2 : pick 168 i (x :: xs) = if i % 168 = 0 then x :: pick 168 (i + 1) xs else pick 168 (i + 1) xs := rfl
    rw [e1, e2, show 24 * 7 = 168 from rfl]
    split_ifs <;> simp

theorem pick24_get (xs : List U256) : ∀ (i j : Nat), (pick 24 i xs)[j]? = xs[((i + 23) / 24 + j) * 24 - i]? := by
  induction xs with
  | nil => intro i j; simp [pick]
  | cons x xs ih =>
    intro i j
    unfold pick
    split_ifs with h
    · cases j with
      | zero =>
        have : ((i + 23) / 24 + 0) * 24 - i = 0 := by omega
        rw [this]; rfl
      | succ j =>
        rw [List.getElem?_cons_succ, ih]
        have : ((i + 23) / 24 + (j + 1)) * 24 - i = (((i + 1) + 23) / 24 + j) * 24 - (i + 1) + 1 := by omega
        rw [this, List.getElem?_cons_succ]
    · rw [ih]
      have : ((i + 23) / 24 + j) * 24 - i = (((i + 1) + 23) / 24 + j) * 24 - (i + 1) + 1 := by omega
      rw [this, List.getElem?_cons_succ]

theorem pick24_length (xs : List U256) : ∀ (i : Nat), (pick 24 i xs).length = (xs.length + i + 23) / 24 - (i + 23) / 24 := by
  induction xs with
  | nil => intro i; simp [pick]
  | cons x xs ih =>
    intro i
    unfold pick
    split_ifs with h
    · rw [List.length_cons, List.length_cons, ih]; omega
    · rw [List.length_cons, ih]; omega

theorem pick168_get (xs : List U256) : ∀ (i j : Nat), (pick 168 i xs)[j]? = xs[((i + 167) / 168 + j) * 168 - i]? := by
  induction xs with
  | nil => intro i j; simp [pick]
  | cons x xs ih =>
    intro i j
    unfold pick
    split_ifs with h
    · cases j with
      | zero =>
        have : ((i + 167) / 168 + 0) * 168 - i = 0 := by omega
        rw [this]; rfl
      | succ j =>
        rw [List.getElem?_cons_succ, ih]
        have : ((i + 167) / 168 + (j + 1)) * 168 - i = (((i + 1) + 167) / 168 + j) * 168 - (i + 1) + 1 := by omega
        rw [this, List.getElem?_cons_succ]
    · rw [ih]
      have : ((i + 167) / 168 + j) * 168 - i = (((i + 1) + 167) / 168 + j) * 168 - (i + 1) + 1 := by omega
      rw [this, List.getElem?_cons_succ]

theorem pick168_length (xs : List U256) : ∀ (i : Nat), (pick 168 i xs).length = (xs.length + i + 167) / 168 - (i + 167) / 168 := by
  induction xs with
  | nil => intro i; simp [pick]
  | cons x xs ih =>
    intro i
    unfold pick
    split_ifs with h
    · rw [List.length_cons, List.length_cons, ih]; omega
    · rw [List.length_cons, ih]; omega

theorem sample_spec (xs : List U256) :
    (sample xs).hourly = xs ∧ EveryNth 24 xs (sample xs).daily ∧ EveryNth 168 xs (sample xs).weekly := by
  unfold sample
  rw [sampleLoop_eq]
  refine ⟨List.nil_append xs, ⟨?_, ?_⟩, ⟨?_, ?_⟩⟩
  · intro j
    show ([] ++ pick 24 0 xs)[j]? = _
    rw [List.nil_append, pick24_get]
    congr 1; omega
  · show ([] ++ pick 24 0 xs).length = _
    rw [List.nil_append, pick24_length]
    omega
  · intro j
    show ([] ++ pick 168 0 xs)[j]? = _
    rw [List.nil_append, pick168_get]
    congr 1; omega
  · show ([] ++ pick 168 0 xs).length = _
    rw [List.nil_append, pick168_length]
    omega

/-! ## Log returns -/

theorem getReturns_length (vs : List U256) : (getReturns vs).length = vs.length - 1 := by
  induction vs with
  | nil => rfl
  | cons a vs ih =>
    cases vs with
    | nil => rfl
    | cons b rest =>
      unfold getReturns
      rw [List.length_cons, ih]
      simp

theorem getReturns_get (vs : List U256) : ∀ (i : Nat) (a b : U256), vs[i]? = some a → vs[i + 1]? = some b →
    (getReturns vs)[i]? = some (Real.log ((b.toNat : ℝ) / (a.toNat : ℝ))) := by
  induction vs with
  | nil => intro i a b h; simp at h
  | cons x vs ih =>
    intro i a b h1 h2
    cases vs with
    | nil => simp at h2
    | cons y rest =>
      unfold getReturns
      cases i with
      | zero =>
        obtain rfl : x = a := by simpa using h1
        obtain rfl : y = b := by simpa using h2
        rfl
      | succ i => exact ih i a b (by simpa using h1) (by simpa using h2)

theorem getReturns_spec (vs : List U256) (hpos : ∀ v ∈ vs, 0 < v.toNat) : LogReturns (vs.map U256.toNat) (getReturns vs) := by
  refine ⟨by rw [getReturns_length, List.length_map], ?_⟩
  intro i a b ha hb
  rw [List.getElem?_map] at ha hb
  cases ha' : vs[i]? with
  | none => rw [ha'] at ha; cases ha
  | some x =>
    cases hb' : vs[i + 1]? with
    | none => rw [hb'] at hb; cases hb
    | some y =>
      rw [ha'] at ha
      rw [hb'] at hb
      obtain rfl : x.toNat = a := Option.some.inj ha
      obtain rfl : y.toNat = b := Option.some.inj hb
      have hx := hpos x (List.mem_of_getElem? ha')
      have hy := hpos y (List.mem_of_getElem? hb')
      rw [getReturns_get vs i x y ha' hb', Real.log_div (by positivity) (by positivity)]

/-! ## Sums -/

theorem foldl_add_map (rs : List ℝ) (f : ℝ → ℝ) : ∀ s, rs.foldl (fun s r => s + f r) s = s + (rs.map f).sum := by
  induction rs with
  | nil => intro s; simp
  | cons r rs ih => intro s; rw [List.foldl_cons, ih, List.map_cons, List.sum_cons]; ring

theorem foldl_losses (rs : List ℝ) : ∀ s, rs.foldl (fun s r => if r < 0 then s + r * r else s) s =
    s + (rs.map fun r => (min r 0) ^ 2).sum := by
  induction rs with
  | nil => intro s; simp
  | cons r rs ih =>
    intro s
    rw [List.foldl_cons, ih, List.map_cons, List.sum_cons]
    split_ifs with h
    · rw [min_eq_left h.le]; ring
    · rw [min_eq_right (not_lt.1 h)]; ring

theorem sum_sq_shift (rs : List ℝ) (c : ℝ) :
    (rs.map fun r => (r - c) ^ 2).sum = (rs.map fun r => r * r).sum - 2 * c * rs.sum + rs.length * c ^ 2 := by
  induction rs with
  | nil => simp
  | cons r rs ih =>
    rw [List.map_cons, List.sum_cons, List.map_cons, List.sum_cons, List.sum_cons, ih, List.length_cons]
    push_cast
    ring

theorem sum_nonneg_sq (rs : List ℝ) (f : ℝ → ℝ) : 0 ≤ (rs.map fun r => (f r) ^ 2).sum := by
  induction rs with
  | nil => simp
  | cons r rs ih => rw [List.map_cons, List.sum_cons]; positivity

theorem std_spec (vs : List U256) (h : 3 ≤ vs.length) : std vs = Real.sqrt (variance (getReturns vs)) := by
  unfold std
  rw [if_neg (by omega)]
  dsimp only
  congr 1
  set rs := getReturns vs with hrs
  have hl : rs.length = vs.length - 1 := getReturns_length vs
  have e1 : rs.foldl (fun sum r => sum + r * r) 0 = (rs.map fun r => r * r).sum := by
    rw [foldl_add_map rs (fun r => r * r)]; ring
  have e2 : rs.foldl (fun sum r => sum + r) 0 = rs.sum := by
    rw [foldl_add_map rs (fun r => r)]; simp
  rw [e1, e2]
  unfold variance mean
  rw [sum_sq_shift]
  have hn : (2 : ℝ) ≤ rs.length := by
    have : 2 ≤ rs.length := by omega
    exact_mod_cast this
  have hn0 : (rs.length : ℝ) ≠ 0 := by linarith
  have hn1 : (rs.length : ℝ) - 1 ≠ 0 := by linarith
  push_cast
  field_simp
  ring

theorem variance_nonneg (rs : List ℝ) (h : 1 ≤ rs.length) : 0 ≤ variance rs := by
  unfold variance
  apply div_nonneg (sum_nonneg_sq rs _)
  have : (1 : ℝ) ≤ rs.length := by exact_mod_cast h
  linarith

theorem down_spec (vs : List U256) (h : 3 ≤ vs.length) : downDeviation vs = Real.sqrt (lossSquare (getReturns vs)) := by
  unfold downDeviation
  rw [if_neg (by omega)]
  dsimp only
  rw [foldl_losses, zero_add]
  rfl

theorem lossSquare_zero (rs : List ℝ) (h : 1 ≤ rs.length) : lossSquare rs = 0 ↔ ∀ r ∈ rs, 0 ≤ r := by
  have hl : (0 : ℝ) < rs.length := by exact_mod_cast h
  unfold lossSquare
  rw [div_eq_zero_iff, or_iff_left hl.ne']
  clear hl h
  induction rs with
  | nil => simp
  | cons r rs ih =>
    rw [List.map_cons, List.sum_cons]
    have h1 : 0 ≤ (min r 0) ^ 2 := by positivity
    have h2 := sum_nonneg_sq rs (fun r => min r 0)
    constructor
    · intro h
      have h3 : (min r 0) ^ 2 = 0 := by linarith
      have h4 : (rs.map fun r => (min r 0) ^ 2).sum = 0 := by linarith
      intro x hx
      rcases List.mem_cons.1 hx with rfl | hx
      · have := pow_eq_zero_iff (two_ne_zero) |>.1 h3
        exact min_eq_right_iff.1 this
      · exact ih.1 h4 x hx
    · intro h
      rw [min_eq_right (h r List.mem_cons_self), ih.2 (fun x hx => h x (List.mem_cons_of_mem _ hx))]
      simp

/-! ## Value at risk -/

open Classical in
theorem rank_sorted (s : List ℝ) (hs : s.Pairwise (· ≤ ·)) (k : Nat) (v : ℝ) (hk : s[k]? = some v) :
    s.countP (fun r => decide (r < v)) ≤ k ∧ k < s.countP (fun r => decide (r ≤ v)) := by
  obtain ⟨hlt, hv⟩ := List.getElem?_eq_some_iff.1 hk
  have split : s = s.take k ++ v :: s.drop (k + 1) := by
    conv_lhs => rw [← List.take_append_drop k s, List.drop_eq_getElem_cons hlt, hv]
  have hp := hs
  rw [split, List.pairwise_append] at hp
  obtain ⟨_, hp2, hp3⟩ := hp
  rw [List.pairwise_cons] at hp2
  have hlen : (s.take k).length = k := by rw [List.length_take]; omega
  constructor
  · rw [split, List.countP_append]
    have h0 : (v :: s.drop (k + 1)).countP (fun r => decide (r < v)) = 0 := by
      rw [List.countP_eq_zero]
      intro r hr
      rcases List.mem_cons.1 hr with rfl | hr
      · simp
      · have := hp2.1 r hr
        simp [this]
    rw [h0, add_zero]
    calc _ ≤ (s.take k).length := List.countP_le_length
      _ = k := hlen
      _ ≤ k := le_rfl
  · rw [split, List.countP_append]
    have h1 : (s.take k).countP (fun r => decide (r ≤ v)) = k := by
      refine Eq.trans (List.countP_eq_length.2 ?_) hlen
      intro r hr
      have := hp3 r hr v List.mem_cons_self
      simp [this]
    rw [h1, List.countP_cons_of_pos (by simp)]
    omega

theorem entry95_spec (rs : List ℝ) (h : 0 < rs.length) : ∃ v, entry95 rs = .ok v ∧ AtRank rs (rs.length / 20) v := by
  unfold entry95 idx
  have e : Int.tdiv (rs.length : Int) 20 = ((rs.length / 20 : Nat) : Int) := rfl
  rw [e, if_pos (by omega), Int.toNat_natCast]
  have hperm := List.perm_insertionSort (· ≤ ·) rs
  have hsorted := List.pairwise_insertionSort (· ≤ ·) rs
  have hl : (rs.insertionSort (· ≤ ·)).length = rs.length := hperm.length_eq
  have hlt : rs.length / 20 < (rs.insertionSort (· ≤ ·)).length := by omega
  refine ⟨(rs.insertionSort (· ≤ ·))[rs.length / 20], ?_, ?_⟩
  · rw [List.getElem?_eq_getElem hlt]
  · obtain ⟨h1, h2⟩ := rank_sorted _ hsorted (rs.length / 20) _ (List.getElem?_eq_getElem hlt)
    refine ⟨hperm.mem_iff.1 (List.getElem_mem hlt), ?_, ?_⟩
    · rw [← hperm.countP_eq]; exact h1
    · rw [← hperm.countP_eq]; exact h2

/-! ## Return on investment -/

theorem roi_spec (last first : U256) (h : 0 < first.toNat) : ∃ q, roi last first = .fin q ∧
    |q - change first.toNat last.toNat| ≤ 1 / 2 ^ 50 * (1 + (last.toNat : ℚ) / first.toNat) ∧ -1 ≤ q ∧
    (first.toNat ≤ last.toNat → 0 ≤ q) ∧ (last.toNat ≤ first.toNat → q ≤ 0) := by
  have hq : (0 : ℚ) < first.toNat := by exact_mod_cast h
  have hf := rnd_pos hq
  refine ⟨ddOf (rnd last.toNat) (rnd first.toNat), ?_, ?_, ?_, ?_, ?_⟩
  · show F64.div (.fin (rnd (rnd (last.toNat : ℚ) + -rnd (first.toNat : ℚ)))) (.fin (rnd (first.toNat : ℚ))) = _
    rw [div_fin hf.ne']
    rfl
  · exact ddOf_err hq (by positivity)
  · have h1 : -rnd (first.toNat : ℚ) ≤ rnd (rnd (last.toNat : ℚ) + -rnd (first.toNat : ℚ)) := by
      have := rnd_mono (x := -rnd (first.toNat : ℚ)) (y := rnd (last.toNat : ℚ) + -rnd (first.toNat : ℚ)) (by
        have := rnd_nonneg (x := (last.toNat : ℚ)) (by positivity)
        linarith)
      rw [rnd_neg, rnd_idem] at this
      exact this
    have h3 : (-1 : ℚ) ≤ rnd (rnd (last.toNat : ℚ) + -rnd (first.toNat : ℚ)) / rnd (first.toNat : ℚ) := by
      rw [le_div_iff₀ hf]; linarith
    have := rnd_mono h3
    rwa [rnd_neg, rnd_one] at this
  · intro hle
    apply rnd_nonneg
    apply div_nonneg _ hf.le
    apply rnd_nonneg
    have := rnd_mono (x := (first.toNat : ℚ)) (y := (last.toNat : ℚ)) (by exact_mod_cast hle)
    linarith
  · intro hle
    exact (ddOf_range hf (rnd_idem _) (rnd_nonneg (by positivity)) (rnd_mono (by exact_mod_cast hle))).2

theorem roi_zero (last first : U256) (h : first.toNat = 0) :
    roi last first = if last.toNat = 0 then .nan else .inf false := by
  show F64.div (.fin (rnd (rnd (last.toNat : ℚ) + -rnd (first.toNat : ℚ)))) (.fin (rnd (first.toNat : ℚ))) = _
  rw [h, Nat.cast_zero, rnd_zero, neg_zero, add_zero, rnd_idem]
  split_ifs with hl
  · rw [hl, Nat.cast_zero, rnd_zero, div_nan]
  · have hp : 0 < rnd (last.toNat : ℚ) := rnd_pos (by exact_mod_cast Nat.pos_of_ne_zero hl)
    simp [F64.div, hp.ne', hp.le]

end Main
end Uni
