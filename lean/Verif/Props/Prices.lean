import Verif.Proofs.Prices
/-! # C43 - C46: the price history

`record n xs` is `NewPrices(n)` followed by `Add(x)` for each `x` of `xs`.  `Spec.window n vs` is the list of the last `n`
recorded values, with zeros before `n` values have been recorded. -/
namespace Uni
namespace Props
open U256 Spec

/-- `NewPrices(n)`, then `Add` for each element of `xs`. -/
def record (n : Nat) (xs : List U256) : Go Prices := do
  let p ← Prices.new n
  xs.foldlM Prices.add p

/-- What `Add` stores for a price: its square, reduced modulo 2^256. -/
def stored (xs : List U256) : List Nat := xs.map fun x => x.toNat ^ 2 % 2 ^ 256

theorem record_holds {n : Nat} (hn : 1 ≤ n) {xs : List U256} {p : Prices} (h : record n xs = .ok p) :
    Prices.Holds n (stored xs) p := by
  unfold record at h
  obtain ⟨p0, h0, hp0⟩ := Prices.new_ok n hn
  rw [h0, Except_bind_ok] at h
  obtain ⟨p', h1, hp'⟩ := Prices.addAll_ok xs hp0 (Prices.addAll_accepts xs p0 p h)
  rw [h] at h1
  rw [Except.ok.inj h1]
  exact hp'

/-! ## C43 -/

/-- The calls succeed exactly if each stored square passes the overflow check, and then the history, read from the slot
that is overwritten next, holds the last `n` stored squares in order. -/
theorem C43_window (n : Nat) (hn : 1 ≤ n) (xs : List U256) :
    ((∃ p, record n xs = .ok p) ↔ ∀ x ∈ xs, x.toNat ^ 2 % 2 ^ 256 < 2 ^ 230) ∧
    ∀ p, record n xs = .ok p →
      (p.prices.drop p.index.toNat ++ p.prices.take p.index.toNat).map U256.toNat = window n (stored xs) ∧
      0 ≤ p.index ∧ p.index < n ∧ p.prices.length = n := by
  refine ⟨⟨?_, ?_⟩, ?_⟩
  · rintro ⟨p, h⟩
    unfold record at h
    obtain ⟨p0, h0, -⟩ := Prices.new_ok n hn
    rw [h0, Except_bind_ok] at h
    exact Prices.addAll_accepts xs p0 p h
  · intro h
    obtain ⟨p0, h0, hp0⟩ := Prices.new_ok n hn
    obtain ⟨p', h1, -⟩ := Prices.addAll_ok xs hp0 h
    exact ⟨p', by unfold record; rw [h0, Except_bind_ok, h1]⟩
  · intro p h
    have hp := record_holds hn h
    exact ⟨hp.ring, hp.ge, hp.lt, hp.size⟩

/-- Prices below 2^115 are accepted and stored as their exact squares. -/
theorem C43_exact (n : Nat) (hn : 1 ≤ n) (xs : List U256) (hx : ∀ x ∈ xs, x.toNat < 2 ^ 115) :
    (∃ p, record n xs = .ok p) ∧ stored xs = xs.map fun x => x.toNat ^ 2 := by
  have hsq : ∀ x ∈ xs, x.toNat ^ 2 < 2 ^ 230 := by
    intro x h
    have := Nat.pow_lt_pow_left (hx x h) (show 2 ≠ 0 by norm_num)
    exact lt_of_lt_of_eq this (by norm_num)
  have hm : ∀ x ∈ xs, x.toNat ^ 2 % 2 ^ 256 = x.toNat ^ 2 := fun x h =>
    Nat.mod_eq_of_lt (lt_trans (hsq x h) (by norm_num))
  refine ⟨(C43_window n hn xs).1.2 fun x h => by rw [hm x h]; exact hsq x h, ?_⟩
  exact List.map_congr_left hm

example : ∃ p, record 3 [ofWord 2, ofWord 3, ofWord 4, ofWord 5, ofWord 6] = .ok p ∧
    p.prices = [ofWord 25, ofWord 36, ofWord 16] ∧ p.index = 2 ∧ window 3 [4, 9, 16, 25, 36] = [16, 25, 36] := by
  refine ⟨⟨[ofWord 25, ofWord 36, ofWord 16], 2, 3⟩, ?_, rfl, rfl, rfl⟩
  decide +kernel

/-! ## C44 -/

/-- `Average` is the floor of the mean of the last `n` stored values.  The sum cannot overflow for `n ≤ 2^26`; for longer
histories it is reduced modulo 2^256 first. -/
theorem C44_average (n : Nat) (hn : 1 ≤ n) (hn2 : n < 2 ^ 63) (xs : List U256) (p : Prices) (h : record n xs = .ok p) :
    ∃ a, p.average = .ok a ∧ a.toNat = (window n (stored xs)).sum % 2 ^ 256 / n ∧
      (n ≤ 2 ^ 26 → a.toNat = (window n (stored xs)).sum / n ∧
        ∀ lo hi, (∀ v ∈ window n (stored xs), lo ≤ v ∧ v ≤ hi) → lo ≤ a.toNat ∧ a.toNat ≤ hi) := by
  have hp := record_holds hn h
  obtain ⟨a, h1, h2⟩ := Prices.average_ok hn2 hp
  refine ⟨a, h1, h2, ?_⟩
  intro h26
  rw [Nat.mod_eq_of_lt (hp.no_overflow h26)] at h2
  refine ⟨h2, ?_⟩
  intro lo hi hb
  have s1 := Prices.le_sum _ lo fun v hv => (hb v hv).1
  have s2 := Prices.sum_le _ hi fun v hv => (hb v hv).2
  rw [Prices.window_length] at s1 s2
  rw [h2]
  refine ⟨?_, ?_⟩
  · rw [Nat.le_div_iff_mul_le (by omega), Nat.mul_comm]; exact s1
  · exact Nat.div_le_of_le_mul s2

theorem window_replicate (n v : Nat) : window n (List.replicate n v) = List.replicate n v := by
  unfold window
  rw [List.length_replicate, List.drop_left' List.length_replicate]

theorem long_history (N : Nat) (x : U256) (hN : N = 2 ^ 27) (hv : x.toNat = 2 ^ 115 - 1) : ∃ p a, record N (List.replicate N x) = .ok p ∧
    p.average = .ok a ∧ ∀ v ∈ window N (stored (List.replicate N x)), a.toNat < v := by
  have hs : (2 ^ 115 - 1) ^ 2 % 2 ^ 256 = (2 ^ 115 - 1) ^ 2 := Nat.mod_eq_of_lt (by norm_num)
  have hN1 : 1 ≤ N := by omega
  obtain ⟨p, hp⟩ := ((C43_window N hN1 (List.replicate N x)).1).2 (by
    intro y hy
    rw [List.eq_of_mem_replicate hy, hv, hs]; norm_num)
  obtain ⟨a, h1, h2, -⟩ := C44_average N hN1 (by omega) _ p hp
  refine ⟨p, a, hp, h1, ?_⟩
  unfold stored at h2 ⊢
  rw [List.map_replicate, window_replicate, hv, hs] at h2 ⊢
  intro v hmem
  rw [List.eq_of_mem_replicate hmem, h2, List.sum_replicate, smul_eq_mul, hN]
  norm_num

/-- The bound on `n` is needed: with 2^27 equal prices that all pass the check, the average is below every stored value. -/
theorem C44_long_history_wraps : ∃ (n : Nat) (x : U256) (p : Prices) (a : U256), n = 2 ^ 27 ∧
    record n (List.replicate n x) = .ok p ∧ p.average = .ok a ∧
    ∀ v ∈ window n (stored (List.replicate n x)), a.toNat < v := by
  obtain ⟨N, hN⟩ : ∃ N : Nat, N = 2 ^ 27 := ⟨_, rfl⟩
  obtain ⟨p, a, h⟩ := long_history N (ofNat (2 ^ 115 - 1)) hN (toNat_ofNat_of_lt (by norm_num))
  exact ⟨N, _, p, a, hN, h⟩

/-! ## C45 -/

/-- `Volatility` is the integer square root of the sample variance around `Average`, for every length from 2 up. -/
theorem C45_volatility (n : Nat) (hn : 2 ≤ n) (hn2 : n < 2 ^ 63) (xs : List U256) (p : Prices) (h : record n xs = .ok p) :
    ∃ a v, p.average = .ok a ∧ p.volatility = .ok v ∧
      v.toNat ^ 2 ≤ deviation a.toNat (window n (stored xs)) / (n - 1) ∧
      deviation a.toNat (window n (stored xs)) / (n - 1) < (v.toNat + 1) ^ 2 := by
  have hp := record_holds (by omega) h
  obtain ⟨v, a, h1, h2, h3⟩ := Prices.volatility_ok hn hn2 hp
  refine ⟨a, v, h1, h2, ?_, ?_⟩
  · rw [h3, pow_two]; exact Nat.sqrt_le _
  · rw [h3, pow_two]; exact Nat.lt_succ_sqrt _

/-- A constant history has volatility zero. -/
theorem C45_constant (n : Nat) (hn : 2 ≤ n) (hn2 : n ≤ 2 ^ 26) (xs : List U256) (p : Prices) (h : record n xs = .ok p)
    (c : Nat) (hc : ∀ v ∈ window n (stored xs), v = c) : ∃ v, p.volatility = .ok v ∧ v.toNat = 0 := by
  obtain ⟨a, v, h1, h2, h3, -⟩ := C45_volatility n hn (by omega) xs p h
  obtain ⟨a', h1', -, h4⟩ := C44_average n (by omega) (by omega) xs p h
  obtain ⟨-, h5⟩ := h4 hn2
  have h6 := h5 c c fun v hv => by rw [hc v hv]; exact ⟨le_refl _, le_refl _⟩
  rw [h1] at h1'
  rw [← Except.ok.inj h1'] at h6
  have ha : a.toNat = c := le_antisymm h6.2 h6.1
  have hd : deviation a.toNat (window n (stored xs)) = 0 := by
    unfold deviation
    apply List.sum_eq_zero
    intro y hy
    obtain ⟨v, hv, rfl⟩ := List.mem_map.1 hy
    rw [hc v hv, ha]
    simp
  rw [hd, Nat.zero_div] at h3
  refine ⟨v, h2, ?_⟩
  have := Nat.pow_eq_zero.1 (Nat.le_zero.1 h3)
  exact this.1

/-- A history of length one has no sample variance: `Volatility` panics (division by zero in math/big). -/
theorem C45_single (xs : List U256) (p : Prices) (h : record 1 xs = .ok p) : p.volatility = .error .panic := by
  have hp := record_holds (by omega) h
  obtain ⟨a, h1, h2⟩ := Prices.average_ok (by norm_num) hp
  have hm : ∃ x, p.prices = [x] := List.length_eq_one_iff.1 hp.size
  obtain ⟨x, hx⟩ := hm
  unfold Prices.volatility
  rw [h1, Except_bind_ok, hx]
  unfold Prices.squares
  dsimp only
  rw [show decide (0 ≤ toBig (U256.abs (sub x a))) = true by rw [toBig_eq]; simp, show invariant true = .ok () from rfl, Except_bind_ok]
  unfold Prices.squares
  rw [Except_bind_ok, if_pos (by rw [hp.len]; rfl)]

example : ∃ p, record 4 [ofWord 1, ofWord 2, ofWord 3, ofWord 4, ofWord 6] = .ok p ∧ p.average = .ok (ofWord 16) ∧
    p.volatility = .ok (ofWord 14) := by
  refine ⟨⟨[ofWord 36, ofWord 4, ofWord 9, ofWord 16], 1, 4⟩, by decide +kernel, by decide +kernel, ?_⟩
  obtain ⟨a, v, h1, h2, h3, h4⟩ := C45_volatility 4 (by norm_num) (by norm_num) [ofWord 1, ofWord 2, ofWord 3, ofWord 4, ofWord 6]
    ⟨[ofWord 36, ofWord 4, ofWord 9, ofWord 16], 1, 4⟩ (by decide +kernel)
  rw [h2]
  have ha : (⟨[ofWord 36, ofWord 4, ofWord 9, ofWord 16], 1, 4⟩ : Prices).average = .ok (ofWord 16) := by decide +kernel
  rw [ha] at h1
  rw [← Except.ok.inj h1] at h3 h4
  have hd : deviation (ofWord 16).toNat (window 4 (stored [ofWord 1, ofWord 2, ofWord 3, ofWord 4, ofWord 6])) / (4 - 1) = 197 := by
    decide +kernel
  rw [hd] at h3 h4
  have : v.toNat = 14 := by nlinarith
  exact congrArg Except.ok (toNat_inj.1 this)

/-! ## C46 -/

/-- The overflow check of `Add`: prices below 2^115 pass, prices from 2^115 up to 2^128 are rejected. -/
theorem C46_check (n : Nat) (xs : List U256) (p : Prices) (hn : 1 ≤ n) (h : record n xs = .ok p) (x : U256) :
    (x.toNat < 2 ^ 115 → ∃ p', p.add x = .ok p') ∧
    (2 ^ 115 ≤ x.toNat → x.toNat < 2 ^ 128 → p.add x = .error .panic) ∧
    ((∃ p', p.add x = .ok p') ↔ x.toNat ^ 2 % 2 ^ 256 < 2 ^ 230) := by
  have hp := record_holds hn h
  have key : (∃ p', p.add x = .ok p') ↔ x.toNat ^ 2 % 2 ^ 256 < 2 ^ 230 := by
    constructor
    · rintro ⟨p', h'⟩
      by_contra hc
      rw [Prices.add_panic p x (by omega)] at h'
      cases h'
    · intro hx
      obtain ⟨p', h', -⟩ := Prices.add_ok hp x hx
      exact ⟨p', h'⟩
  refine ⟨?_, ?_, key⟩
  · intro hx
    rw [key]
    have := Nat.pow_lt_pow_left hx (show 2 ≠ 0 by norm_num)
    exact lt_of_le_of_lt (Nat.mod_le _ _) (lt_of_lt_of_eq this (by norm_num))
  · intro h1 h2
    apply Prices.add_panic
    have h3 := Nat.pow_lt_pow_left h2 (show 2 ≠ 0 by norm_num)
    have h4 := Nat.pow_le_pow_left h1 2
    rw [Nat.mod_eq_of_lt (lt_of_lt_of_eq h3 (by norm_num))]
    exact le_trans (by norm_num) h4

/-- The check runs after the wrap-around: price 2^128 passes and is stored as 0. -/
theorem C46_wraps : ∃ p, record 2 [ofNat (2 ^ 128)] = .ok p ∧ p.prices = [ofWord 0, ofWord 0] ∧ (ofNat (2 ^ 128)).toNat ^ 2 = 2 ^ 256 := by
  refine ⟨⟨[ofWord 0, ofWord 0], 1, 2⟩, by decide +kernel, rfl, by decide +kernel⟩

end Props
end Uni
