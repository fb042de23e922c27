import Verif.Model.TickMath
import Verif.Proofs.FullMath
import Verif.Proofs.Cmp
/-! Tick table: exact Nat-level value, strict monotonicity, binary search. -/
namespace Uni
namespace TickMath
open U256

/-- Nat-level mulShift. -/
def ms (x c : Nat) : Nat := x * c / 2 ^ 128

/-- Nat-level product chain (all factors, starting from 2^128). -/
def chainN : List Nat → Nat → Nat → Nat
  | [], _, x => x
  | c :: cs, n, x => chainN cs (n / 2) (if n % 2 ≠ 0 then ms x c else x)

theorem ms_mono {a b : Nat} (c : Nat) (h : a ≤ b) : ms a c ≤ ms b c :=
  Nat.div_le_div_right (Nat.mul_le_mul_right c h)

theorem ms_le {x c : Nat} (h : c ≤ 2 ^ 128) : ms x c ≤ x := by
  unfold ms
  apply Nat.div_le_of_le_mul
  rw [Nat.mul_comm]
  exact Nat.mul_le_mul_right x h

theorem toNat_mulShift (x : U256) (c : Nat) (hx : x.toNat ≤ 2 ^ 128) (hc : c < 2 ^ 128) :
    (mulShift x (ofNat c)).toNat = ms x.toNat c := by
  unfold mulShift ms
  have h : x.toNat * c < 2 ^ 256 := by
    calc x.toNat * c ≤ 2 ^ 128 * c := Nat.mul_le_mul_right c hx
      _ < 2 ^ 128 * 2 ^ 128 := (Nat.mul_lt_mul_left (by norm_num)).2 hc
      _ = 2 ^ 256 := by norm_num
  have hc' : c % 2 ^ 256 = c := Nat.mod_eq_of_lt (by omega)
  rw [toNat_rsh, toNat_mul, toNat_ofNat, hc', Nat.mod_eq_of_lt h]

theorem toNat_ratioChain (cs : List Nat) (hcs : ∀ c ∈ cs, c < 2 ^ 128) (n : Nat) (x : U256) (hx : x.toNat ≤ 2 ^ 128) :
    (ratioChain cs n x).toNat = chainN cs n x.toNat := by
  induction cs generalizing n x with
  | nil => rfl
  | cons c cs ih =>
    unfold ratioChain chainN
    have hc := hcs c (by simp)
    have hcs' : ∀ c ∈ cs, c < 2 ^ 128 := fun c h => hcs c (by simp [h])
    by_cases h : n % 2 ≠ 0
    · rw [if_pos h, if_pos h]
      have h1 := toNat_mulShift x c hx hc
      have h2 := ms_le (x := x.toNat) (c := c) (by omega)
      rw [ih hcs' _ _ (by omega), h1]
    · rw [if_neg h, if_neg h]
      exact ih hcs' _ _ hx

theorem factors_lt : ∀ c ∈ factors, c < 2 ^ 128 := by decide +kernel

theorem chainN_le (cs : List Nat) (hcs : ∀ c ∈ cs, c < 2 ^ 128) (n x : Nat) : chainN cs n x ≤ x := by
  induction cs generalizing n x with
  | nil => exact le_refl _
  | cons c cs ih =>
    unfold chainN
    have hc := hcs c (by simp)
    have hcs' : ∀ c ∈ cs, c < 2 ^ 128 := fun c h => hcs c (by simp [h])
    by_cases h : n % 2 ≠ 0
    · rw [if_pos h]
      exact le_trans (ih hcs' _ _) (ms_le (by omega))
    · rw [if_neg h]; exact ih hcs' _ _

theorem chainN_mono (cs : List Nat) (n : Nat) {x y : Nat} (h : x ≤ y) : chainN cs n x ≤ chainN cs n y := by
  induction cs generalizing n x y with
  | nil => exact h
  | cons c cs ih =>
    unfold chainN
    apply ih
    split
    · exact ms_mono c h
    · exact h

/-- All bits set gives the smallest value. -/
def chainAll : List Nat → Nat → Nat
  | [], x => x
  | c :: cs, x => chainAll cs (ms x c)

theorem chainAll_mono (cs : List Nat) {x y : Nat} (h : x ≤ y) : chainAll cs x ≤ chainAll cs y := by
  induction cs generalizing x y with
  | nil => exact h
  | cons c cs ih => exact ih (ms_mono c h)

theorem chainAll_le (cs : List Nat) (hcs : ∀ c ∈ cs, c < 2 ^ 128) (n x : Nat) : chainAll cs x ≤ chainN cs n x := by
  induction cs generalizing n x with
  | nil => exact le_refl _
  | cons c cs ih =>
    have hc := hcs c (by simp)
    have hcs' : ∀ c ∈ cs, c < 2 ^ 128 := fun c h => hcs c (by simp [h])
    unfold chainN chainAll
    by_cases h : n % 2 ≠ 0
    · rw [if_pos h]; exact ih hcs' _ _
    · rw [if_neg h]
      exact le_trans (chainAll_mono cs (ms_le (by omega))) (ih hcs' _ _)

theorem ms_gap {a b s D N c : Nat} (hc : c ≤ 2 ^ 128) (h : b * N ≤ a * D + s) : ms b c * N ≤ ms a c * D + (s + D) := by
  unfold ms
  have hQ : (0 : Nat) < 2 ^ 128 := by norm_num
  generalize (2 : Nat) ^ 128 = Q at *
  have h1 : a * c < (a * c / Q + 1) * Q := Nat.lt_mul_of_div_lt (Nat.lt_succ_self _) hQ
  have h2 : b * c / Q * Q ≤ b * c := Nat.div_mul_le_self _ _
  generalize a * c / Q = A at *
  generalize b * c / Q = B at *
  have h3 : B * Q * N ≤ b * c * N := Nat.mul_le_mul_right _ h2
  have h4 : b * N * c ≤ (a * D + s) * c := Nat.mul_le_mul_right _ h
  have h5 : a * c * D ≤ (A + 1) * Q * D := Nat.mul_le_mul_right _ (le_of_lt h1)
  have h6 : s * c ≤ s * Q := Nat.mul_le_mul_left _ hc
  have h7 : Q * (B * N) ≤ Q * (A * D + (s + D)) := by nlinarith
  exact Nat.le_of_mul_le_mul_left h7 hQ

theorem chainN_gap (cs : List Nat) (hcs : ∀ c ∈ cs, c < 2 ^ 128) (D N : Nat) (n : Nat) {a b s : Nat}
    (h : b * N ≤ a * D + s) : chainN cs n b * N ≤ chainN cs n a * D + (s + cs.length * D) := by
  induction cs generalizing n a b s with
  | nil => simpa [chainN] using h
  | cons c cs ih =>
    have hc := hcs c (by simp)
    have hcs' : ∀ c ∈ cs, c < 2 ^ 128 := fun c h => hcs c (by simp [h])
    unfold chainN
    rw [List.length_cons, Nat.add_mul, Nat.one_mul]
    by_cases h0 : n % 2 ≠ 0
    · rw [if_pos h0, if_pos h0]
      have := ih hcs' (n / 2) (ms_gap (c := c) (by omega) h)
      omega
    · rw [if_neg h0, if_neg h0]
      have := ih hcs' (n / 2) h
      omega

/-- Checker: with all lower bits set (`a`) the value still exceeds the value with the next bit alone by 4e-5. -/
def gapCheck : List Nat → Nat → Bool
  | [], _ => true
  | c :: cs, a => decide (ms (2 ^ 128) c * 100004 ≤ a * 100000) && gapCheck cs (ms a c)

theorem chainN_succ (cs : List Nat) (hcs : ∀ c ∈ cs, c < 2 ^ 128) (a : Nat) (hg : gapCheck cs a = true) (h : Nat)
    (hh : h + 1 < 2 ^ cs.length) :
    chainN cs (h + 1) (2 ^ 128) * 100004 ≤ chainN cs h a * 100000 + cs.length * 100000 := by
  induction cs generalizing h a with
  | nil => simp at hh
  | cons c cs ih =>
    have hc := hcs c (by simp)
    have hcs' : ∀ c ∈ cs, c < 2 ^ 128 := fun c h => hcs c (by simp [h])
    unfold gapCheck at hg
    rw [Bool.and_eq_true, decide_eq_true_eq] at hg
    rw [List.length_cons] at hh ⊢
    rw [pow_succ] at hh
    unfold chainN
    by_cases h0 : h % 2 = 0
    · rw [if_pos (show (h + 1) % 2 ≠ 0 by omega), if_neg (show ¬ h % 2 ≠ 0 by omega),
        show (h + 1) / 2 = h / 2 by omega]
      have := chainN_gap cs hcs' 100000 100004 (h / 2) (a := a) (b := ms (2 ^ 128) c) (s := 0) (by omega)
      generalize chainN cs (h / 2) (ms (2 ^ 128) c) = X at *
      generalize chainN cs (h / 2) a = Y at *
      omega
    · rw [if_neg (show ¬ (h + 1) % 2 ≠ 0 by omega), if_pos (show h % 2 ≠ 0 by omega),
        show (h + 1) / 2 = h / 2 + 1 by omega]
      have := ih hcs' (ms a c) hg.2 (h / 2) (by omega)
      refine le_trans this ?_
      exact Nat.add_le_add_left (Nat.mul_le_mul_right _ (Nat.le_succ _)) _

theorem gapCheck_factors : gapCheck factors (2 ^ 128) = true := by decide +kernel

/-- Nat-level chain of a tick magnitude. -/
def ch (n : Nat) : Nat := chainN factors n (2 ^ 128)

theorem ch_gap (n : Nat) (h : n + 1 < 2 ^ 20) : ch (n + 1) * 100004 ≤ ch n * 100000 + 2000000 := by
  have := chainN_succ factors factors_lt (2 ^ 128) gapCheck_factors n h
  exact this

theorem ch_ge (n : Nat) : 2 ^ 52 ≤ ch n :=
  le_trans (by decide +kernel : 2 ^ 52 ≤ chainAll factors (2 ^ 128)) (chainAll_le factors factors_lt n _)

theorem ch_le (n : Nat) : ch n ≤ 2 ^ 128 := chainN_le factors factors_lt n _

theorem ch_lt (n : Nat) (h : n + 1 < 2 ^ 20) : ch (n + 1) + 2 ^ 37 ≤ ch n := by
  have h1 := ch_gap n h
  have h2 := ch_ge (n + 1)
  omega

/-- Nat-level value of the table: `ceil (x / 2^32)` with `x` the chain or its reciprocal. -/
def ratioN (t : Int) : Nat :=
  if 0 < t then Spec.ceilDiv ((2 ^ 256 - 1) / ch t.toNat) (2 ^ 32) else Spec.ceilDiv (ch (-t).toNat) (2 ^ 32)

theorem toNat_q32 : q32.toNat = 2 ^ 32 := by decide

/-- Conversion back to Q96: ceiling division. -/
theorem toQ96 (x : U256) (hx : x.toNat < 2 ^ 255) : ∃ m q : U256, smod x q32 = .ok m ∧ div x q32 = .ok q ∧
    (if sign m > 0 then add q one else q).toNat = Spec.ceilDiv x.toNat (2 ^ 32) := by
  obtain ⟨m, hm, hmv⟩ := smod_spec x q32
  obtain ⟨q, hq, hqv⟩ := div_spec x q32
  refine ⟨m, q, hm, hq, ?_⟩
  have hxi : x.toInt = x.toNat := by unfold toInt; rw [if_pos hx]
  have hqi : q32.toInt = ((2 ^ 32 : Nat) : Int) := by decide
  rw [hxi, hqi, if_neg (by norm_num)] at hmv
  rw [toNat_q32] at hqv
  rw [sign_eq_toInt, hmv]
  have e : ((x.toNat : Nat) : Int).tmod ((2 ^ 32 : Nat) : Int) = ((x.toNat % 2 ^ 32 : Nat) : Int) := by
    rw [Int.ofNat_tmod]
  rw [e]
  unfold Spec.ceilDiv
  have hx' := x.toNat_lt
  by_cases h : x.toNat % 2 ^ 32 = 0
  · rw [if_neg (by rw [h]; decide), hqv]
    omega
  · rw [if_pos]
    · rw [toNat_add, hqv, toNat_one]
      omega
    · have : (0 : Int) < ((x.toNat % 2 ^ 32 : Nat) : Int) := by omega
      rw [Int.sign_eq_one_of_pos this]; norm_num

theorem toNat_maxUint256 : Cons.maxUint256.toNat = 2 ^ 256 - 1 := by decide

theorem getSqrtRatioAtTick'_spec (t : Int) (h1 : -887272 ≤ t) (h2 : t ≤ 887272) :
    ∃ r, getSqrtRatioAtTick' t = .ok r ∧ r.toNat = ratioN t := by
  unfold getSqrtRatioAtTick'
  dsimp only
  generalize habs : (if t < 0 then -t else t) = a
  have ha : a ≤ maxTick := by
    have : maxTick = 887272 := by decide
    rw [this, ← habs]; split <;> omega
  rw [show decide (a ≤ maxTick) = true from decide_eq_true ha]
  have hi : invariant true = .ok () := rfl
  rw [hi]
  simp only [Except_bind_ok]
  -- the chain
  generalize hr0 : (if a.toNat % 2 ≠ 0 then ofNat 0xfffcb933bd6fad37aa2d162d1a594001
    else ofNat 0x100000000000000000000000000000000) = ratio0
  have hr1 : ratio0.toNat = (if a.toNat % 2 ≠ 0 then ms (2 ^ 128) 0xfffcb933bd6fad37aa2d162d1a594001 else 2 ^ 128) := by
    rw [← hr0]
    by_cases h : a.toNat % 2 ≠ 0
    · rw [if_pos h, if_pos h]; decide +kernel
    · rw [if_neg h, if_neg h]; decide +kernel
  have hle : ratio0.toNat ≤ 2 ^ 128 := by
    rw [hr1]
    by_cases h : a.toNat % 2 ≠ 0
    · rw [if_pos h]; decide +kernel
    · rw [if_neg h]
  have hc : (ratioChain factors.tail (a.toNat / 2) ratio0).toNat = ch a.toNat := by
    rw [toNat_ratioChain _ (fun c h => factors_lt c (List.mem_of_mem_tail h)) _ _ hle, hr1]
    rfl
  generalize ratioChain factors.tail (a.toNat / 2) ratio0 = x at *
  have hge := ch_ge a.toNat
  have hlt := ch_le a.toNat
  have key : ∃ y : U256, invertIfPos t x = .ok y ∧ y.toNat < 2 ^ 255 ∧
      Spec.ceilDiv y.toNat (2 ^ 32) = ratioN t := by
    unfold invertIfPos
    by_cases ht : t > 0
    · rw [if_pos ht]
      obtain ⟨z, hz, hzv⟩ := div_spec Cons.maxUint256 x
      refine ⟨z, hz, ?_, ?_⟩
      · rw [hzv, hc, toNat_maxUint256]
        rw [Nat.div_lt_iff_lt_mul (by omega)]
        omega
      · unfold ratioN
        rw [if_pos ht, hzv, hc, toNat_maxUint256]
        have : a = t := by rw [← habs, if_neg (by omega)]
        rw [this]
    · rw [if_neg ht]
      refine ⟨x, rfl, by omega, ?_⟩
      unfold ratioN
      rw [if_neg ht, hc]
      have : a = -t := by
        rw [← habs]; split <;> omega
      rw [this]
  obtain ⟨y, hy, hylt, hyv⟩ := key
  rw [hy]
  simp only [Except_bind_ok]
  obtain ⟨m, q, hm, hq, hv⟩ := toQ96 y hylt
  rw [hm]
  simp only [Except_bind_ok]
  rw [hq]
  simp only [Except_bind_ok]
  exact ⟨_, rfl, by rw [hv, hyv]⟩

theorem ceilDiv_add_lt {x y d : Nat} (hd : 0 < d) (h : x + d ≤ y) : Spec.ceilDiv x d < Spec.ceilDiv y d := by
  have h1 := FullMath.le_ceilDiv_mul (n := y) hd
  rw [Nat.lt_iff_add_one_le]
  by_contra hc
  push Not at hc
  have h3 : y + d ≤ Spec.ceilDiv y d * d + d := by omega
  have : Spec.ceilDiv y d ≤ Spec.ceilDiv x d := by omega
  have h4 : x ≤ (Spec.ceilDiv y d - 1) * d := by
    rw [Nat.sub_mul, Nat.one_mul]; omega
  have h5 := (FullMath.ceilDiv_le_iff hd).2 h4
  have h6 : 0 < Spec.ceilDiv y d := by
    rw [FullMath.lt_ceilDiv_iff hd]; omega
  omega

/-- The table is strictly increasing. -/
theorem ratioN_succ (t : Int) (h1 : -887272 ≤ t) (h2 : t < 887272) : ratioN t < ratioN (t + 1) := by
  unfold ratioN
  by_cases ht : t < 0
  · rw [if_neg (by omega), if_neg (by omega)]
    apply ceilDiv_add_lt (by norm_num)
    have : (-t).toNat = (-(t + 1)).toNat + 1 := by omega
    rw [this]
    have := ch_lt (-(t + 1)).toNat (by omega)
    omega
  · rw [if_pos (show 0 < t + 1 by omega)]
    have e : (t + 1).toNat = t.toNat + 1 := by omega
    have hlt := ch_lt t.toNat (by omega)
    have hgap := ch_gap t.toNat (by omega)
    have h52 := ch_ge (t.toNat + 1)
    have h128 := ch_le t.toNat
    by_cases h0 : t = 0
    · subst h0
      decide +kernel
    · rw [if_pos (show 0 < t by omega), e]
      apply ceilDiv_add_lt (by norm_num)
      -- M / a + 2^32 ≤ M / b
      generalize ch t.toNat = a at *
      generalize ch (t.toNat + 1) = b at *
      rw [Nat.le_div_iff_mul_le (by omega)]
      have h3 : (2 ^ 256 - 1) / a * a ≤ 2 ^ 256 - 1 := Nat.div_mul_le_self _ _
      have h4 : 2 ^ 256 - 1 < ((2 ^ 256 - 1) / a + 1) * a := Nat.lt_mul_of_div_lt (Nat.lt_succ_self _) (by omega)
      generalize (2 ^ 256 - 1) / a = q at *
      -- q*b*100004 ≤ q*a*100000 + q*2000000
      have h5 : q * (b * 100004) ≤ q * (a * 100000 + 2000000) := Nat.mul_le_mul_left q hgap
      have h6 : 2 ^ 127 ≤ q := by
        by_contra hc
        push Not at hc
        have : (q + 1) * a ≤ 2 ^ 127 * 2 ^ 128 := Nat.mul_le_mul (by omega) h128
        omega
      have h7 : q * (2 ^ 52) ≤ q * b := Nat.mul_le_mul_left q h52
      have h8 : 2 ^ 32 * b ≤ 2 ^ 32 * 2 ^ 128 := Nat.mul_le_mul_left _ (by omega)
      have h9 : 2 ^ 127 * b ≤ q * b := Nat.mul_le_mul_right b h6
      rw [Nat.add_mul]
      rw [Nat.mul_add, ← Nat.mul_assoc, ← Nat.mul_assoc] at h5
      generalize q * a = qa at *
      generalize q * b = qb at *
      omega

theorem ratioN_lt {s t : Int} (h1 : -887272 ≤ s) (h2 : s < t) (h3 : t ≤ 887272) : ratioN s < ratioN t := by
  obtain ⟨n, hn⟩ : ∃ n : Nat, t = s + 1 + n := ⟨(t - s - 1).toNat, by omega⟩
  subst hn
  induction n with
  | zero => simpa using ratioN_succ s h1 (by omega)
  | succ n ih =>
    have := ih (by omega) (by omega)
    have h := ratioN_succ (s + 1 + n) (by omega) (by push_cast at h3; omega)
    rw [show s + 1 + ((n + 1 : Nat) : Int) = s + 1 + n + 1 by push_cast; ring]
    omega

theorem ratioN_le {s t : Int} (h1 : -887272 ≤ s) (h2 : s ≤ t) (h3 : t ≤ 887272) : ratioN s ≤ ratioN t := by
  rcases Int.lt_or_eq_of_le h2 with h | h
  · exact le_of_lt (ratioN_lt h1 h h3)
  · rw [h]

theorem ratioN_min : ratioN (-887272) = 4295128739 := by decide +kernel
theorem ratioN_max : ratioN 887272 = 1461446703485210103287273052203988822378723970342 := by decide +kernel
theorem ratioN_zero : ratioN 0 = 2 ^ 96 := by decide +kernel

theorem ratioN_ge {t : Int} (h1 : -887272 ≤ t) (h2 : t ≤ 887272) : 2 ^ 32 < ratioN t := by
  have := ratioN_le (le_refl _) h1 h2
  rw [ratioN_min] at this
  omega

theorem ratioN_lt160 {t : Int} (h1 : -887272 ≤ t) (h2 : t ≤ 887272) : ratioN t < 2 ^ 160 := by
  have := ratioN_le h1 h2 (le_refl _)
  rw [ratioN_max] at this
  omega

theorem getSqrtRatioAtTick_spec (t : Int) (h1 : -887272 ≤ t) (h2 : t ≤ 887272) :
    ∃ r, getSqrtRatioAtTick t = .ok r ∧ r.toNat = ratioN t := by
  unfold getSqrtRatioAtTick ticksAt
  have e1 : maxTick = 887272 := by decide
  have e2 : minTick = -887272 := by decide
  have e3 : totalTicks = 1774545 := by decide
  rw [e1, e2, e3, if_pos (by omega), show t + 887272 + -887272 = t by ring]
  exact getSqrtRatioAtTick'_spec t h1 h2

theorem getSqrtRatioAtTick_panic (t : Int) (h : t < -887272 ∨ 887272 < t) : getSqrtRatioAtTick t = .error .panic := by
  unfold getSqrtRatioAtTick ticksAt
  have e1 : maxTick = 887272 := by decide
  have e3 : totalTicks = 1774545 := by decide
  rw [e1, e3, if_neg (by omega)]

/-- Rewriting form. -/
theorem getSqrtRatioAtTick_eq (t : Int) (h1 : -887272 ≤ t) (h2 : t ≤ 887272) :
    getSqrtRatioAtTick t = .ok (ofNat (ratioN t)) := by
  obtain ⟨r, hr, hv⟩ := getSqrtRatioAtTick_spec t h1 h2
  rw [hr, ← hv, ofNat_toNat]

theorem getSqrtRatioAtTick_ok {t : Int} {r : U256} (h : getSqrtRatioAtTick t = .ok r) :
    -887272 ≤ t ∧ t ≤ 887272 ∧ r.toNat = ratioN t := by
  by_cases hr : t < -887272 ∨ 887272 < t
  · rw [getSqrtRatioAtTick_panic t hr] at h; cases h
  · push Not at hr
    obtain ⟨r', hr', hv⟩ := getSqrtRatioAtTick_spec t hr.1 hr.2
    rw [hr'] at h; cases h
    exact ⟨hr.1, hr.2, hv⟩

theorem tickSearch_spec (p : U256) (fuel : Nat) (l r : Int) (hl : 0 ≤ l) (hlr : l ≤ r) (hr : r ≤ 1774544)
    (hf : (r - l).toNat < fuel) (h1 : ratioN (l - 887272) ≤ p.toNat) (h2 : r < 1774544 → p.toNat < ratioN (r + 1 - 887272)) :
    ∃ i, tickSearch p fuel l r = .ok i ∧ l ≤ i ∧ i ≤ r ∧ ratioN (i - 887272) ≤ p.toNat ∧
      (i < 1774544 → p.toNat < ratioN (i + 1 - 887272)) := by
  induction fuel generalizing l r with
  | zero => omega
  | succ fuel ih =>
    unfold tickSearch
    by_cases h : l < r
    · rw [if_pos h]
      dsimp only
      have hmid : (l + r + 1).tdiv 2 = (l + r + 1) / 2 := Int.tdiv_eq_ediv_of_nonneg (by omega)
      rw [hmid]
      generalize hm : (l + r + 1) / 2 = mid
      have hm1 : l < mid := by omega
      have hm2 : mid ≤ r := by omega
      have ht : ∃ t, ticksAt mid = .ok t ∧ t.toNat = ratioN (mid - 887272) := by
        obtain ⟨t, h1, h2⟩ := getSqrtRatioAtTick_spec (mid - 887272) (by omega) (by omega)
        refine ⟨t, ?_, h2⟩
        rw [← h1]; unfold getSqrtRatioAtTick
        congr 1
        have e1 : maxTick = 887272 := by decide
        rw [e1]; ring
      obtain ⟨t, ht, htv⟩ := ht
      rw [ht]
      simp only [Except_bind_ok]
      by_cases hc : cmp t p > 0
      · rw [if_pos hc]
        rw [cmp_gt0] at hc
        obtain ⟨i, hi, a, b, c, d⟩ := ih l (mid - 1) hl (by omega) (by omega) (by omega) h1
          (fun _ => by rw [show mid - 1 + 1 - 887272 = mid - 887272 by ring, ← htv]; exact hc)
        exact ⟨i, hi, a, by omega, c, d⟩
      · rw [if_neg hc]
        rw [cmp_gt0] at hc
        obtain ⟨i, hi, a, b, c, d⟩ := ih mid r (by omega) hm2 hr (by omega) (by rw [← htv]; omega) h2
        exact ⟨i, hi, by omega, b, c, d⟩
    · rw [if_neg h]
      have : l = r := by omega
      subst this
      exact ⟨l, rfl, le_refl _, le_refl _, h1, h2⟩

theorem toNat_minSqrtRatio : minSqrtRatio.toNat = 4295128739 := by decide
theorem toNat_maxSqrtRatio : maxSqrtRatio.toNat = 1461446703485210103287273052203988822378723970342 := by decide +kernel

theorem getTickAtSqrtRatio_spec (p : U256) (h1 : 4295128739 ≤ p.toNat)
    (h2 : p.toNat < 1461446703485210103287273052203988822378723970342) :
    ∃ t, getTickAtSqrtRatio p = .ok t ∧ -887272 ≤ t ∧ t < 887272 ∧ ratioN t ≤ p.toNat ∧ p.toNat < ratioN (t + 1) := by
  unfold getTickAtSqrtRatio
  have c1 : cmp p minSqrtRatio ≥ 0 := by
    rw [cmp_ge0, toNat_minSqrtRatio]; omega
  have c2 : cmp p maxSqrtRatio < 0 := by
    rw [cmp_lt0, toNat_maxSqrtRatio]; omega
  rw [decide_eq_true c1, decide_eq_true c2]
  have hi : invariant (true && true) = .ok () := rfl
  rw [hi]
  simp only [Except_bind_ok]
  have e3 : totalTicks = 1774545 := by decide
  have e2 : minTick = -887272 := by decide
  rw [e3, e2]
  obtain ⟨i, hi, a, b, c, d⟩ := tickSearch_spec p (1774545 : Int).toNat 0 (1774545 - 1) (by omega) (by omega) (by omega)
    (by omega) (by rw [show (0 : Int) - 887272 = -887272 by norm_num, ratioN_min]; exact h1) (by omega)
  rw [hi]
  have hlt : i < 1774544 := by
    by_contra hc
    have : i = 1774544 := by omega
    rw [this, show (1774544 : Int) - 887272 = 887272 by norm_num, ratioN_max] at c
    omega
  refine ⟨i + -887272, rfl, by omega, by omega, ?_, ?_⟩
  · rw [show i + -887272 = i - 887272 by ring]; exact c
  · rw [show i + -887272 + 1 = i + 1 - 887272 by ring]; exact d hlt

theorem getTickAtSqrtRatio_panic (p : U256) (h : p.toNat < 4295128739 ∨
    1461446703485210103287273052203988822378723970342 ≤ p.toNat) : getTickAtSqrtRatio p = .error .panic := by
  unfold getTickAtSqrtRatio
  have : (decide (cmp p minSqrtRatio ≥ 0) && decide (cmp p maxSqrtRatio < 0)) = false := by
    rw [Bool.and_eq_false_iff]
    rcases h with h | h
    · left
      rw [decide_eq_false_iff_not, cmp_ge0, toNat_minSqrtRatio]; omega
    · right
      rw [decide_eq_false_iff_not, cmp_lt0, toNat_maxSqrtRatio]; omega
  rw [this]
  rfl

theorem getTickAtSqrtRatio_ok {p : U256} {t : Int} (h : getTickAtSqrtRatio p = .ok t) :
    -887272 ≤ t ∧ t < 887272 ∧ ratioN t ≤ p.toNat ∧ p.toNat < ratioN (t + 1) := by
  by_cases hp : p.toNat < 4295128739 ∨ 1461446703485210103287273052203988822378723970342 ≤ p.toNat
  · rw [getTickAtSqrtRatio_panic p hp] at h; cases h
  · push Not at hp
    obtain ⟨t', ht', r⟩ := getTickAtSqrtRatio_spec p hp.1 hp.2
    rw [ht'] at h; cases h
    exact r

/-- Uniqueness of the tick. -/
theorem tick_unique {p : Nat} {s t : Int} (hs : -887272 ≤ s ∧ s < 887272) (ht : -887272 ≤ t ∧ t < 887272)
    (s1 : ratioN s ≤ p) (s2 : p < ratioN (s + 1)) (t1 : ratioN t ≤ p) (t2 : p < ratioN (t + 1)) : s = t := by
  by_contra hne
  rcases lt_or_gt_of_ne hne with h | h
  · have := ratioN_le (s := s + 1) (t := t) (by omega) (by omega) (by omega)
    omega
  · have := ratioN_le (s := t + 1) (t := s) (by omega) (by omega) (by omega)
    omega

end TickMath
end Uni
