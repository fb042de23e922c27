import Verif.Model.Prices
import Verif.Spec.Prices
import Verif.Proofs.Bytes
import Verif.Proofs.Mul
import Verif.Proofs.Div
import Mathlib.Data.List.Perm.Basic
import Mathlib.Algebra.BigOperators.Group.List.Basic
import Mathlib.Data.Nat.Sqrt
import Mathlib.Algebra.Order.Ring.Abs
/-! Price history. -/
namespace Uni
namespace Prices
open U256 Spec

/-- the state after recording `vs` in a history of length `n` -/
structure Holds (n : Nat) (vs : List Nat) (p : Prices) : Prop where
  len : p.length = n
  size : p.prices.length = n
  ge : 0 ≤ p.index
  lt : p.index < n
  ring : (p.prices.drop p.index.toNat ++ p.prices.take p.index.toNat).map U256.toNat = window n vs
  small : ∀ x ∈ p.prices, x.toNat < 2 ^ 230

theorem window_snoc (n : Nat) (hn : 1 ≤ n) (vs : List Nat) (v : Nat) : window n (vs ++ [v]) = (window n vs).tail ++ [v] := by
  unfold window
  rw [List.length_append, ← List.append_assoc, List.length_singleton, List.drop_append_of_le_length (by simp; omega),
    ← List.drop_drop, List.drop_one]

theorem new_ok (n : Nat) (hn : 1 ≤ n) : ∃ p, new n = .ok p ∧ Holds n [] p := by
  refine ⟨⟨List.replicate n (ofWord 0), 0, n⟩, ?_, ?_⟩
  · unfold new
    rw [if_neg (by omega)]
    rfl
  · refine ⟨rfl, List.length_replicate, le_refl _, by show (0 : Int) < n; omega, ?_, ?_⟩
    · show (List.replicate n (ofWord 0) ++ []).map U256.toNat = List.replicate n 0 ++ []
      rw [List.append_nil, List.append_nil, List.map_replicate]
      rfl
    · intro x hx
      rw [List.eq_of_mem_replicate hx]
      show 0 < _
      norm_num

theorem ring_step (L : List U256) (i n : Nat) (hL : L.length = n) (hi : i < n) (a : U256) :
    (L.set i a).drop ((i + 1) % n) ++ (L.set i a).take ((i + 1) % n) = (L.drop i ++ L.take i).tail ++ [a] := by
  have h1 : (L.drop i ++ L.take i).tail = L.drop (i + 1) ++ L.take i := by
    rw [List.drop_eq_getElem_cons (by omega)]; rfl
  rw [h1]
  by_cases hc : i + 1 = n
  · rw [hc, Nat.mod_self, List.drop_zero, List.take_zero, List.append_nil, ← hL, List.drop_length, List.nil_append,
      List.set_eq_take_append_cons_drop, if_pos (by omega), show i + 1 = L.length by omega, List.drop_length]
  · rw [Nat.mod_eq_of_lt (by omega), List.drop_set_of_lt (by omega), List.append_assoc]
    congr 1
    rw [List.set_eq_take_append_cons_drop, if_pos (by omega)]
    have : (List.take i L).length = i := by rw [List.length_take]; omega
    rw [List.take_append, this, show i + 1 - i = 1 by omega, List.take_of_length_le (by omega)]
    rfl

theorem toNat_sq (x : U256) : (mul x x).toNat = x.toNat ^ 2 % 2 ^ 256 := by
  rw [toNat_mul, pow_two]

theorem add_ok {n : Nat} {vs : List Nat} {p : Prices} (hp : Holds n vs p) (x : U256) (hx : x.toNat ^ 2 % 2 ^ 256 < 2 ^ 230) :
    ∃ p', add p x = .ok p' ∧ Holds n (vs ++ [x.toNat ^ 2 % 2 ^ 256]) p' := by
  have hn : 1 ≤ n := by have := hp.ge; have := hp.lt; omega
  have hz : (rsh (mul x x) 230).isZero = true := by
    rw [isZero_eq_decide, toNat_rsh, toNat_sq, decide_eq_true_iff]
    exact Nat.div_eq_of_lt hx
  obtain ⟨i, hi⟩ : ∃ i : Nat, p.index = i := ⟨p.index.toNat, by have := hp.ge; omega⟩
  have hin : i < n := by have := hp.lt; omega
  refine ⟨{ p with prices := p.prices.set i (mul x x), index := (p.index + 1).tmod p.length }, ?_, ?_⟩
  · unfold add
    dsimp only
    rw [hz, show invariant true = .ok () from rfl, Except_bind_ok]
    unfold setIdx
    rw [hi, if_pos ⟨by omega, by rw [hp.size]; simpa using hin⟩, Except_bind_ok, if_neg (by rw [hp.len]; omega)]
    rfl
  · have hm : (p.index + 1).tmod p.length = ((i + 1) % n : Nat) := by
      rw [hi, hp.len, Int.tmod_eq_emod_of_nonneg (by omega)]
      norm_cast
    refine ⟨hp.len, ?_, ?_, ?_, ?_, ?_⟩
    · rw [List.length_set]; exact hp.size
    · show 0 ≤ (p.index + 1).tmod p.length
      rw [hm]; omega
    · show (p.index + 1).tmod p.length < n
      rw [hm]
      have := Nat.mod_lt (i + 1) (show n > 0 by omega)
      omega
    · show ((p.prices.set i (mul x x)).drop ((p.index + 1).tmod p.length).toNat ++
        (p.prices.set i (mul x x)).take ((p.index + 1).tmod p.length).toNat).map U256.toNat = _
      rw [hm, Int.toNat_natCast, ring_step _ _ _ hp.size hin, List.map_append, List.map_tail, window_snoc n hn]
      have := hp.ring
      rw [hi, Int.toNat_natCast] at this
      rw [this, List.map_singleton, toNat_sq]
    · intro y hy
      rcases List.mem_or_eq_of_mem_set hy with h | h
      · exact hp.small y h
      · rw [h, toNat_sq]; exact hx

theorem add_panic (p : Prices) (x : U256) (hx : 2 ^ 230 ≤ x.toNat ^ 2 % 2 ^ 256) : add p x = .error .panic := by
  have hz : (rsh (mul x x) 230).isZero = false := by
    rw [isZero_eq_decide, toNat_rsh, toNat_sq, decide_eq_false_iff_not]
    have := Nat.div_pos hx (by norm_num)
    omega
  unfold add
  dsimp only
  rw [hz]
  rfl

/-- `p` after calling `Add` with each of `xs` -/
theorem addAll_ok {n : Nat} : ∀ (xs : List U256) {vs : List Nat} {p : Prices}, Holds n vs p →
    (∀ x ∈ xs, x.toNat ^ 2 % 2 ^ 256 < 2 ^ 230) →
    ∃ p', xs.foldlM add p = .ok p' ∧ Holds n (vs ++ xs.map fun x => x.toNat ^ 2 % 2 ^ 256) p'
  | [], vs, p, hp, _ => ⟨p, rfl, by simpa using hp⟩
  | x :: xs, vs, p, hp, h => by
    obtain ⟨p1, h1, hp1⟩ := add_ok hp x (h x (by simp))
    obtain ⟨p2, h2, hp2⟩ := addAll_ok xs hp1 fun y hy => h y (by simp [hy])
    refine ⟨p2, ?_, by simpa using hp2⟩
    rw [List.foldlM_cons, h1]
    exact h2

theorem addAll_accepts : ∀ (xs : List U256) (p p' : Prices), xs.foldlM add p = .ok p' →
    ∀ x ∈ xs, x.toNat ^ 2 % 2 ^ 256 < 2 ^ 230
  | [], _, _, _ => by simp
  | x :: xs, p, p', h => by
    rw [List.foldlM_cons] at h
    by_cases hx : x.toNat ^ 2 % 2 ^ 256 < 2 ^ 230
    · cases h1 : add p x with
      | error e => rw [h1] at h; cases h
      | ok p1 =>
        rw [h1] at h
        intro y hy
        rcases List.mem_cons.1 hy with rfl | hy
        · exact hx
        · exact addAll_accepts xs p1 p' h y hy
    · rw [add_panic p x (by omega)] at h; cases h

theorem Holds.perm {n : Nat} {vs : List Nat} {p : Prices} (h : Holds n vs p) : List.Perm (p.prices.map U256.toNat) (window n vs) := by
  rw [← h.ring]
  apply List.Perm.map
  conv_lhs => rw [← List.take_append_drop p.index.toNat p.prices]
  exact List.perm_append_comm

theorem window_length (n : Nat) (vs : List Nat) : (window n vs).length = n := by
  unfold window; simp

theorem sum_mod (l : List U256) (a : U256) :
    (l.foldl (fun sum price => U256.add sum price) a).toNat = (a.toNat + (l.map U256.toNat).sum) % 2 ^ 256 := by
  induction l generalizing a with
  | nil => simp only [List.foldl_nil, List.map_nil, List.sum_nil, Nat.add_zero]; rw [Nat.mod_eq_of_lt (toNat_lt a)]
  | cons x l ih =>
    rw [List.foldl_cons, ih, toNat_add, List.map_cons, List.sum_cons]
    omega

theorem ofWord_int (n : Nat) (hn : n < 2 ^ 63) : (ofWord (BitVec.ofInt 64 (n : Int))).toNat = n := by
  rw [toNat_ofWord, BitVec.toNat_ofInt]
  omega

theorem average_ok {n : Nat} (hn : n < 2 ^ 63) {vs : List Nat} {p : Prices} (h : Holds n vs p) :
    ∃ a, average p = .ok a ∧ a.toNat = (window n vs).sum % 2 ^ 256 / n := by
  unfold average
  dsimp only
  obtain ⟨z, h1, h2⟩ := div_spec (p.prices.foldl (fun sum price => U256.add sum price) zero) (ofWord (BitVec.ofInt 64 p.length))
  refine ⟨z, h1, ?_⟩
  rw [h2, sum_mod, h.len, ofWord_int n hn, h.perm.sum_eq]
  rw [show zero.toNat = 0 from rfl, Nat.zero_add]

theorem sum_le (l : List Nat) (B : Nat) (h : ∀ x ∈ l, x ≤ B) : l.sum ≤ l.length * B := by
  induction l with
  | nil => simp
  | cons x l ih =>
    have := h x (by simp)
    have := ih fun y hy => h y (by simp [hy])
    rw [List.sum_cons, List.length_cons, Nat.add_mul]
    omega

theorem le_sum (l : List Nat) (B : Nat) (h : ∀ x ∈ l, B ≤ x) : l.length * B ≤ l.sum := by
  induction l with
  | nil => simp
  | cons x l ih =>
    have := h x (by simp)
    have := ih fun y hy => h y (by simp [hy])
    rw [List.sum_cons, List.length_cons, Nat.add_mul]
    omega

theorem Holds.bound {n : Nat} {vs : List Nat} {p : Prices} (h : Holds n vs p) : ∀ v ∈ window n vs, v < 2 ^ 230 := by
  intro v hv
  obtain ⟨x, hx, rfl⟩ := List.mem_map.1 (h.perm.mem_iff.2 hv)
  exact h.small x hx

theorem Holds.no_overflow {n : Nat} (hn : n ≤ 2 ^ 26) {vs : List Nat} {p : Prices} (h : Holds n vs p) :
    (window n vs).sum < 2 ^ 256 := by
  have h1 := sum_le (window n vs) (2 ^ 230 - 1) fun v hv => by have := h.bound v hv; omega
  rw [window_length] at h1
  have h2 : n * (2 ^ 230 - 1) ≤ 2 ^ 26 * (2 ^ 230 - 1) := Nat.mul_le_mul_right _ hn
  have h3 : 2 ^ 26 * (2 ^ 230 - 1) < 2 ^ 256 := by norm_num
  omega

theorem diff_ok {x a : U256} (hx : x.toNat < 2 ^ 230) (ha : a.toNat < 2 ^ 255) :
    (U256.abs (sub x a)).toNat = ((x.toNat : Int) - a.toNat).natAbs := by
  rw [toNat_abs, toInt_sub_of, toInt_of_lt (by omega), toInt_of_lt ha] <;>
  · rw [toInt_of_lt (by omega), toInt_of_lt ha]; omega

theorem squares_ok (a : U256) (ha : a.toNat < 2 ^ 255) : ∀ (l : List U256) (s : Int), (∀ x ∈ l, x.toNat < 2 ^ 230) →
    squares a l s = .ok (s + (deviation a.toNat (l.map U256.toNat) : Nat))
  | [], s, _ => by
    show Except.ok s = _
    simp [deviation]
  | x :: l, s, h => by
    unfold squares
    dsimp only
    rw [toBig_eq, diff_ok (h x (by simp)) ha]
    have : decide (0 ≤ ((((x.toNat : Int) - a.toNat).natAbs : Nat) : Int)) = true := by simp
    rw [this, show invariant true = .ok () from rfl, Except_bind_ok, squares_ok a ha l _ fun y hy => h y (by simp [hy])]
    congr 1
    unfold deviation
    rw [List.map_cons, List.map_cons, List.sum_cons, Int.natAbs_mul_self', Nat.cast_add,
      Int.toNat_of_nonneg (mul_self_nonneg _)]
    ring

theorem deviation_perm {a : Nat} {l l' : List Nat} (h : List.Perm l l') : deviation a l = deviation a l' := by
  unfold deviation
  exact (h.map _).sum_eq

theorem deviation_le (a : Nat) (ha : a < 2 ^ 255) (l : List Nat) (h : ∀ v ∈ l, v < 2 ^ 230) : deviation a l ≤ l.length * 2 ^ 510 := by
  have := sum_le (l.map fun (v : Nat) => (((v : Int) - a) * ((v : Int) - a)).toNat) (2 ^ 510) (by
    intro y hy
    obtain ⟨v, hv, rfl⟩ := List.mem_map.1 hy
    have hv := h v hv
    have h1 : ((v : Int) - a) * ((v : Int) - a) ≤ 2 ^ 255 * 2 ^ 255 := by
      have h2 : |(v : Int) - a| ≤ 2 ^ 255 := by rw [abs_le]; constructor <;> omega
      calc ((v : Int) - a) * ((v : Int) - a) = |(v : Int) - a| * |(v : Int) - a| := (abs_mul_abs_self _).symm
        _ ≤ 2 ^ 255 * 2 ^ 255 := mul_le_mul h2 h2 (abs_nonneg _) (by norm_num)
    have h3 : (2 : Int) ^ 255 * 2 ^ 255 = 2 ^ 510 := (pow_add 2 255 255).symm
    omega)
  rw [List.length_map] at this
  exact this

theorem volatility_ok {n : Nat} (hn2 : 2 ≤ n) (hn : n < 2 ^ 63) {vs : List Nat} {p : Prices} (h : Holds n vs p) :
    ∃ v a, average p = .ok a ∧ volatility p = .ok v ∧ v.toNat = Nat.sqrt (deviation a.toNat (window n vs) / (n - 1)) := by
  obtain ⟨a, ha, hav⟩ := average_ok hn h
  have ha255 : a.toNat < 2 ^ 255 := by
    rw [hav, Nat.div_lt_iff_lt_mul (by omega)]
    have h1 : (window n vs).sum % 2 ^ 256 < 2 ^ 256 := Nat.mod_lt _ (by norm_num)
    have h2 : 2 ^ 255 * 2 ≤ 2 ^ 255 * n := Nat.mul_le_mul_left _ hn2
    have h3 : (2 : Nat) ^ 255 * 2 = 2 ^ 256 := by norm_num
    omega
  have hs : squares a p.prices 0 = .ok (deviation a.toNat (window n vs) : Nat) := by
    rw [squares_ok a ha255 p.prices 0 h.small, Int.zero_add, deviation_perm h.perm]
  have hd := deviation_le a.toNat ha255 (window n vs) h.bound
  rw [window_length] at hd
  have hvar : deviation a.toNat (window n vs) / (n - 1) < 2 ^ 512 := by
    rw [Nat.div_lt_iff_lt_mul (by omega)]
    have h1 : n * 2 ^ 510 ≤ (2 * (n - 1)) * 2 ^ 510 := Nat.mul_le_mul_right _ (by omega)
    have h2 : (2 * (n - 1)) * 2 ^ 510 < (4 * (n - 1)) * 2 ^ 510 := Nat.mul_lt_mul_of_pos_right (by omega) (by norm_num)
    have h3 : (4 * (n - 1)) * 2 ^ 510 = 2 ^ 512 * (n - 1) := by
      rw [show (2 : Nat) ^ 512 = 2 ^ 2 * 2 ^ 510 from pow_add 2 2 510]; ring
    rw [← h3]
    exact lt_of_le_of_lt hd (lt_of_le_of_lt h1 h2)
  have hsq : Nat.sqrt (deviation a.toNat (window n vs) / (n - 1)) < 2 ^ 256 := by
    rw [Nat.sqrt_lt]
    exact lt_of_lt_of_eq hvar (pow_add 2 256 256)
  have hcast : ((deviation a.toNat (window n vs) : Nat) : Int) / (p.length - 1) =
      ((deviation a.toNat (window n vs) / (n - 1) : Nat) : Int) := by
    rw [h.len, Int.natCast_ediv]
    congr 1
    omega
  generalize hV : deviation a.toNat (window n vs) / (n - 1) = V at hvar hsq hcast
  refine ⟨(fromBig (Nat.sqrt V : Nat)).1, a, ha, ?_, ?_⟩
  · unfold volatility
    rw [ha, Except_bind_ok, hs, Except_bind_ok]
    dsimp only
    rw [if_neg (by rw [h.len]; omega), hcast, Int.toNat_natCast]
    have e1 : decide (0 ≤ (V : Int)) = true := by simp
    have e2 : decide (0 ≤ ((Nat.sqrt V : Nat) : Int)) = true := by simp
    rw [e1, e2]
    rfl
  · rw [hV]
    have h1 := fromBig_value (Nat.sqrt V : Nat)
    have h2 : ((Nat.sqrt V : Nat) : Int) % 2 ^ 256 = Nat.sqrt V := by
      rw [Int.emod_eq_of_lt (by omega)]
      exact_mod_cast hsq
    rw [h2] at h1
    exact_mod_cast h1

end Prices
end Uni
