import Verif.Proofs.Bytes
/-! Hexadecimal text. -/
namespace Uni
namespace U256
open Spec

def digitOk (c : Byte) : Bool := match hexDigit c with
    | none => decide (bintable.getD c.toNat 0 = 0xff)
    | some d => decide (bintable.getD c.toNat 0 ≠ 0xff ∧ (bintable.getD c.toNat 0).toNat = d ∧ d < 16)

theorem digitOk_all : ∀ c : Byte, digitOk c = true := by decide +kernel

theorem bintable_spec (c : Byte) : match hexDigit c with
    | none => bintable.getD c.toNat 0 = 0xff
    | some d => bintable.getD c.toNat 0 ≠ 0xff ∧ (bintable.getD c.toNat 0).toNat = d ∧ d < 16 := by
  have h := digitOk_all c
  unfold digitOk at h
  split <;> rename_i hd <;> rw [hd] at h <;> exact of_decide_eq_true h

theorem hexVal_nil : hexVal [] = some 0 := rfl

theorem hexVal_none (ds : List Byte) :
    ds.foldl (fun (a : Option Nat) (c : Byte) => a.bind fun v => (hexDigit c).map fun d => 16 * v + d) none = none := by
  induction ds with
  | nil => rfl
  | cons c ds ih => exact ih

theorem hexVal_from (ds : List Byte) (a : Nat) :
    ds.foldl (fun (a : Option Nat) (c : Byte) => a.bind fun v => (hexDigit c).map fun d => 16 * v + d) (some a) =
      (hexVal ds).map fun v => a * 16 ^ ds.length + v := by
  induction ds generalizing a with
  | nil => simp [hexVal]
  | cons c ds ih =>
    unfold hexVal
    rw [List.foldl_cons, List.foldl_cons]
    cases hd : hexDigit c with
    | none =>
      show List.foldl _ none ds = Option.map _ (List.foldl _ none ds)
      rw [hexVal_none]; rfl
    | some d =>
      show List.foldl _ (some (16 * a + d)) ds = Option.map _ (List.foldl _ (some (16 * 0 + d)) ds)
      rw [ih, ih, Option.map_map, List.length_cons, pow_succ]
      congr 1
      funext v
      show _ = a * (16 ^ ds.length * 16) + ((16 * 0 + d) * 16 ^ ds.length + v)
      ring

theorem hexVal_append (a b : List Byte) :
    hexVal (a ++ b) = (hexVal a).bind fun x => (hexVal b).map fun y => x * 16 ^ b.length + y := by
  conv_lhs => unfold hexVal
  rw [List.foldl_append]
  change List.foldl _ (hexVal a) b = _
  cases hexVal a with
  | none => rw [hexVal_none]; rfl
  | some x => rw [hexVal_from]; rfl

theorem hexVal_cons (c : Byte) (ds : List Byte) :
    hexVal (c :: ds) = (hexDigit c).bind fun d => (hexVal ds).map fun y => d * 16 ^ ds.length + y := by
  rw [← List.singleton_append, hexVal_append]
  congr 1
  show (hexDigit c).map _ = _
  cases hexDigit c <;> simp

theorem hexVal_lt {ds : List Byte} {v : Nat} (h : hexVal ds = some v) : v < 16 ^ ds.length := by
  induction ds generalizing v with
  | nil => cases h; decide
  | cons c ds ih =>
    rw [hexVal_cons] at h
    have hb := bintable_spec c
    cases hd : hexDigit c with
    | none => rw [hd] at h; cases h
    | some d =>
      rw [hd] at h hb
      obtain ⟨-, -, h16⟩ := hb
      cases hy : hexVal ds with
      | none => rw [hy] at h; cases h
      | some y =>
        rw [hy] at h
        have e : d * 16 ^ ds.length + y = v := Option.some.inj h
        have h2 := ih hy
        rw [List.length_cons, pow_succ, ← e]
        have : d * 16 ^ ds.length ≤ 15 * 16 ^ ds.length := Nat.mul_le_mul_right _ (by omega)
        omega

theorem hexLimb_spec (w : Word) (ds : List Byte) : match hexVal ds with
    | none => (hexLimb w ds).2 = false
    | some v => (hexLimb w ds).2 = true ∧ (hexLimb w ds).1.toNat = (w.toNat * 16 ^ ds.length + v) % 2 ^ 64 := by
  induction ds generalizing w with
  | nil =>
    refine ⟨rfl, ?_⟩
    show w.toNat = _
    rw [List.length_nil, pow_zero, Nat.mul_one, Nat.add_zero, Nat.mod_eq_of_lt w.isLt]
  | cons c ds ih =>
    rw [hexVal_cons]
    unfold hexLimb
    dsimp only
    have hb := bintable_spec c
    cases hd : hexDigit c with
    | none =>
      rw [hd] at hb
      dsimp only at hb
      rw [if_pos hb]; rfl
    | some d =>
      rw [hd] at hb
      obtain ⟨h1, h2, h3⟩ := hb
      rw [if_neg h1]
      have hi := ih ((w <<< 4) + zext (bintable.getD c.toNat 0))
      show match Option.map (fun y => d * 16 ^ ds.length + y) (hexVal ds) with
        | none => _
        | some v => _
      cases hy : hexVal ds with
      | none => rw [hy] at hi; exact hi
      | some y =>
        rw [hy] at hi
        refine ⟨hi.1, ?_⟩
        rw [hi.2, BitVec.toNat_add, toNat_zext, h2, BitVec.toNat_shiftLeft, Nat.shiftLeft_eq]
        dsimp only
        have e : ((w.toNat * 2 ^ 4 % 2 ^ 64 + d) % 2 ^ 64) % 2 ^ 64 = (w.toNat * 16 + d) % 2 ^ 64 := by
          norm_num
        rw [Nat.add_mod, Nat.mul_mod, e, ← Nat.mul_mod, ← Nat.add_mod, List.length_cons, pow_succ]
        congr 1
        ring

theorem hexSlice_eq (a b : Byte) (ds : List Byte) (p q : Nat) : hexSlice (a :: b :: ds) (p + 2) (q + 2) = (ds.drop p).take (q - p) := by
  unfold hexSlice
  rw [show q + 2 - (p + 2) = q - p by omega]
  rfl

theorem hexStart_eq (n : Nat) : hexStart (n + 2) = (n - 16) + 2 := by
  unfold hexStart
  split <;> omega

/-- digits of limb `i`: positions `n - 16(i+1)` up to `n - 16 i` -/
def chunk (ds : List Byte) (i : Nat) : List Byte :=
  (ds.drop (ds.length - 16 * (i + 1))).take (ds.length - 16 * i - (ds.length - 16 * (i + 1)))

theorem chunk_length (ds : List Byte) (i : Nat) : (chunk ds i).length = min 16 (ds.length - 16 * i) := by
  unfold chunk
  rw [List.length_take, List.length_drop]
  omega

theorem chunks_aux (ds : List Byte) (i : Nat) :
    ds.take (ds.length - 16 * i) = ds.take (ds.length - 16 * (i + 1)) ++ chunk ds i := by
  unfold chunk
  conv_lhs => rw [show ds.length - 16 * i = (ds.length - 16 * (i + 1)) + (ds.length - 16 * i - (ds.length - 16 * (i + 1))) by omega]
  rw [List.take_add]

theorem map_bind_some {a : Option Nat} {f : Nat → Option Nat} {v : Nat} (h : a.bind f = some v) : ∃ x, a = some x ∧ f x = some v := by
  cases a with
  | none => cases h
  | some x => exact ⟨x, rfl, h⟩

theorem map_some' {a : Option Nat} {f : Nat → Nat} {v : Nat} (h : a.map f = some v) : ∃ x, a = some x ∧ f x = v := by
  cases a with
  | none => cases h
  | some x => exact ⟨x, rfl, Option.some.inj h⟩

/-- dividing off the low chunk -/
theorem chunk_val {ds : List Byte} {i v : Nat} (h : hexVal (ds.take (ds.length - 16 * i)) = some v) :
    hexVal (chunk ds i) = some (v % 2 ^ 64) ∧ hexVal (ds.take (ds.length - 16 * (i + 1))) = some (v / 2 ^ 64) := by
  rw [chunks_aux, hexVal_append] at h
  obtain ⟨x, hx, h⟩ := map_bind_some h
  obtain ⟨y, hy, h⟩ := map_some' h
  have hyl := hexVal_lt hy
  rw [chunk_length] at h hyl
  by_cases hc : 16 ≤ ds.length - 16 * i
  · rw [min_eq_left hc] at h hyl
    have e : (16 : Nat) ^ 16 = 2 ^ 64 := by norm_num
    rw [e] at h hyl
    rw [hx, hy]
    constructor <;> congr 1 <;> omega
  · have hx0 : x = 0 := by
      rw [show ds.length - 16 * (i + 1) = 0 by omega, List.take_zero] at hx
      exact (Option.some.inj hx).symm
    have hl : (16 : Nat) ^ (min 16 (ds.length - 16 * i)) ≤ 2 ^ 64 := by
      calc (16 : Nat) ^ (min 16 (ds.length - 16 * i)) ≤ 16 ^ 16 := Nat.pow_le_pow_right (by norm_num) (min_le_left _ _)
        _ = 2 ^ 64 := by norm_num
    rw [hx, hy]
    rw [hx0, Nat.zero_mul, Nat.zero_add] at h
    constructor <;> congr 1 <;> omega

theorem chunk_none {ds : List Byte} {i : Nat} (h : hexVal (ds.take (ds.length - 16 * i)) = none)
    (hc : hexVal (chunk ds i) ≠ none) : hexVal (ds.take (ds.length - 16 * (i + 1))) = none := by
  rw [chunks_aux, hexVal_append] at h
  cases hx : hexVal (ds.take (ds.length - 16 * (i + 1))) with
  | none => rfl
  | some x =>
    rw [hx] at h
    cases hy : hexVal (chunk ds i) with
    | none => exact absurd hy hc
    | some y => rw [hy] at h; cases h

theorem fromHex_unfold (z : U256) (a b : Byte) (ds : List Byte) (hc : checkNumberS (a :: b :: ds) = none) (hl : ds.length ≤ 64) :
    fromHex z (a :: b :: ds) =
      (let r0 := hexLimb z.w0 (chunk ds 0)
       if r0.2 = false then ({ z with w0 := r0.1 }, some .syntax)
       else
        let r1 := hexLimb z.w1 (chunk ds 1)
        if r1.2 = false then ({ z with w0 := r0.1, w1 := r1.1 }, some .syntax)
        else
          let r2 := hexLimb z.w2 (chunk ds 2)
          if r2.2 = false then ({ z with w0 := r0.1, w1 := r1.1, w2 := r2.1 }, some .syntax)
          else
            let r3 := hexLimb z.w3 (chunk ds 3)
            if r3.2 = false then (⟨r0.1, r1.1, r2.1, r3.1⟩, some .syntax)
            else (⟨r0.1, r1.1, r2.1, r3.1⟩, none)) := by
  unfold fromHex
  rw [hc]
  dsimp only
  have hn : (a :: b :: ds).length = ds.length + 2 := rfl
  rw [if_neg (by rw [hn]; omega), hn, hexStart_eq, hexStart_eq, hexStart_eq, hexStart_eq, hexSlice_eq, hexSlice_eq, hexSlice_eq, hexSlice_eq]
  unfold chunk
  simp only [Nat.sub_sub, Nat.reduceMul, Nat.reduceAdd, Nat.sub_zero]

theorem fromHex_ok (z : U256) (a b : Byte) (ds : List Byte) (v : Nat) (hc : checkNumberS (a :: b :: ds) = none) (hl : ds.length ≤ 64)
    (hv : hexVal ds = some v) : ∃ z', fromHex z (a :: b :: ds) = (z', none) ∧
      ∀ i < 4, (limb z' i).toNat = ((limb z i).toNat * 16 ^ min 16 (ds.length - 16 * i) + v / 2 ^ (64 * i) % 2 ^ 64) % 2 ^ 64 := by
  have h0 : hexVal (ds.take (ds.length - 16 * 0)) = some v := by
    rw [Nat.mul_zero, Nat.sub_zero, List.take_length]; exact hv
  obtain ⟨c0, h1⟩ := chunk_val h0
  obtain ⟨c1, h2⟩ := chunk_val h1
  obtain ⟨c2, h3⟩ := chunk_val h2
  obtain ⟨c3, -⟩ := chunk_val h3
  have l0 := hexLimb_spec z.w0 (chunk ds 0)
  have l1 := hexLimb_spec z.w1 (chunk ds 1)
  have l2 := hexLimb_spec z.w2 (chunk ds 2)
  have l3 := hexLimb_spec z.w3 (chunk ds 3)
  rw [c0, chunk_length] at l0
  rw [c1, chunk_length] at l1
  rw [c2, chunk_length] at l2
  rw [c3, chunk_length] at l3
  dsimp only at l0 l1 l2 l3
  rw [fromHex_unfold z a b ds hc hl]
  dsimp only
  rw [if_neg (by rw [l0.1]; decide), if_neg (by rw [l1.1]; decide), if_neg (by rw [l2.1]; decide), if_neg (by rw [l3.1]; decide)]
  refine ⟨_, rfl, ?_⟩
  intro i hi
  match i, hi with
  | 0, _ =>
    show (hexLimb z.w0 (chunk ds 0)).1.toNat = _
    rw [l0.2, Nat.mul_zero 64, pow_zero, Nat.div_one]; rfl
  | 1, _ =>
    show (hexLimb z.w1 (chunk ds 1)).1.toNat = _
    rw [l1.2]; rfl
  | 2, _ =>
    show (hexLimb z.w2 (chunk ds 2)).1.toNat = _
    rw [l2.2, Nat.div_div_eq_div_mul, ← pow_add]; rfl
  | 3, _ =>
    show (hexLimb z.w3 (chunk ds 3)).1.toNat = _
    rw [l3.2, Nat.div_div_eq_div_mul, Nat.div_div_eq_div_mul, ← pow_add, ← pow_add]; rfl

theorem fromHex_bad (z : U256) (a b : Byte) (ds : List Byte) (hc : checkNumberS (a :: b :: ds) = none) (hl : ds.length ≤ 64)
    (hv : hexVal ds = none) : (fromHex z (a :: b :: ds)).2 = some .syntax := by
  have h0 : hexVal (ds.take (ds.length - 16 * 0)) = none := by
    rw [Nat.mul_zero, Nat.sub_zero, List.take_length]; exact hv
  have l0 := hexLimb_spec z.w0 (chunk ds 0)
  have l1 := hexLimb_spec z.w1 (chunk ds 1)
  have l2 := hexLimb_spec z.w2 (chunk ds 2)
  have l3 := hexLimb_spec z.w3 (chunk ds 3)
  have nz : ∀ {o : Option Nat}, o ≠ none → ∃ v, o = some v := fun h => Option.ne_none_iff_exists'.1 h
  rw [fromHex_unfold z a b ds hc hl]
  dsimp only
  by_cases c0 : hexVal (chunk ds 0) = none
  · rw [c0] at l0; rw [if_pos l0]
  obtain ⟨v0, e0⟩ := nz c0
  rw [e0] at l0; rw [if_neg (by rw [l0.1]; decide)]
  have h1 := chunk_none h0 c0
  by_cases c1 : hexVal (chunk ds 1) = none
  · rw [c1] at l1; rw [if_pos l1]
  obtain ⟨v1, e1⟩ := nz c1
  rw [e1] at l1; rw [if_neg (by rw [l1.1]; decide)]
  have h2 := chunk_none h1 c1
  by_cases c2 : hexVal (chunk ds 2) = none
  · rw [c2] at l2; rw [if_pos l2]
  obtain ⟨v2, e2⟩ := nz c2
  rw [e2] at l2; rw [if_neg (by rw [l2.1]; decide)]
  have h3 := chunk_none h2 c2
  by_cases c3 : hexVal (chunk ds 3) = none
  · rw [c3] at l3; rw [if_pos l3]
  have h4 := chunk_none h3 c3
  rw [show ds.length - 16 * (3 + 1) = 0 by omega, List.take_zero] at h4
  cases h4

theorem checkNumberS_ok (s : List Byte) : checkNumberS s = none ↔ ∃ x ds, s = 48 :: x :: ds ∧ (x = 120 ∨ x = 88) ∧ 1 ≤ ds.length ∧
    (1 < ds.length → ds.head? ≠ some 48) := by
  constructor
  · intro h
    unfold checkNumberS at h
    dsimp only at h
    split at h
    · cases h
    split at h
    · cases h
    split at h
    · cases h
    split at h
    · cases h
    rename_i h1 h2 h3 h4
    match s with
    | [] => exact absurd rfl h1
    | [a] => exact absurd (Or.inl (by simp)) h2
    | [a, b] => exact absurd rfl h3
    | a :: x :: d :: ds =>
      simp only [List.getD_cons_zero, List.getD_cons_succ, not_or, not_and, not_not] at h2
      refine ⟨x, d :: ds, by rw [h2.2.1], ?_, by simp, ?_⟩
      · by_cases hx : x = 120
        · exact Or.inl hx
        · exact Or.inr (h2.2.2 hx)
      · intro hl hc
        apply h4
        simp only [List.length_cons] at hl ⊢
        refine ⟨by omega, Option.some.inj hc⟩
  · rintro ⟨x, ds, rfl, hx, hl, hh⟩
    unfold checkNumberS
    dsimp only
    rw [if_neg (by simp), if_neg, if_neg, if_neg]
    · rintro ⟨h1, h2⟩
      match ds, hl with
      | d :: ds, _ =>
        refine hh ?_ ?_
        · simp only [List.length_cons] at h1 ⊢; omega
        · exact congrArg some h2
    · simp only [List.length_cons]; omega
    · rintro (h1 | h1 | h1)
      · simp only [List.length_cons] at h1; omega
      · exact h1 rfl
      · rcases hx with hx | hx
        · exact h1.1 hx
        · exact h1.2 hx

/-! ### Hex -/

/-- digit `i` (of 64, least significant first) as written by `Hex` -/
def nibOf (z : U256) (i : Nat) : Byte := hextable.getD (((limb z (i / 16) >>> (4 * (i % 16))).setWidth 8 &&& 0xf : Byte).toNat) 0

theorem hextable_spec : ∀ d < 16, hextable.getD d 0 = digitChar d ∧ hexDigit (digitChar d) = some d := by decide +kernel

theorem div_mod_nib (x r : Nat) (hr : r < 16) : x % 2 ^ 64 / 2 ^ (4 * r) % 16 = x / 2 ^ (4 * r) % 16 := by
  have hd : 2 ^ (4 * r) * 16 ∣ 2 ^ 64 := by
    rw [show (16 : Nat) = 2 ^ 4 by norm_num, ← pow_add]
    exact Nat.pow_dvd_pow 2 (by omega)
  rw [← Nat.mod_mul_right_div_self, Nat.mod_mod_of_dvd _ hd, Nat.mod_mul_right_div_self]

theorem nibOf_eq (z : U256) (i : Nat) (hi : i < 64) : nibOf z i = digitChar (z.toNat / 16 ^ i % 16) := by
  unfold nibOf
  have e : ((limb z (i / 16) >>> (4 * (i % 16))).setWidth 8 &&& 0xf : Byte).toNat = z.toNat / 16 ^ i % 16 := by
    rw [BitVec.toNat_and, BitVec.toNat_setWidth, BitVec.toNat_ushiftRight, Nat.shiftRight_eq_div_pow, limb_toNat z (i / 16) (by omega),
      show (0xf : Byte).toNat = 2 ^ 4 - 1 from rfl, Nat.and_two_pow_sub_one_eq_mod]
    rw [show (2 : Nat) ^ 8 = 16 * 16 by norm_num, show (2 : Nat) ^ 4 = 16 by norm_num, Nat.mod_mul_right_mod, div_mod_nib _ _ (by omega),
      Nat.div_div_eq_div_mul, ← pow_add, show 64 * (i / 16) + 4 * (i % 16) = 4 * i by omega, pow_mul,
      show (2 : Nat) ^ 4 = 16 by norm_num]
  rw [e, (hextable_spec _ (Nat.mod_lt _ (by norm_num))).1]

theorem hexWords_eq (z : U256) : hexWord z.w3 ++ hexWord z.w2 ++ hexWord z.w1 ++ hexWord z.w0 = hexDigits 64 z.toNat := by
  have : hexWord z.w3 ++ hexWord z.w2 ++ hexWord z.w1 ++ hexWord z.w0 = (List.range 64).map fun j => nibOf z (63 - j) := rfl
  rw [this]
  unfold hexDigits
  apply List.map_congr_left
  intro j hj
  rw [nibOf_eq z _ (by omega)]

theorem hexDigits_length (n v : Nat) : (hexDigits n v).length = n := by
  unfold hexDigits; rw [List.length_map, List.length_range]

theorem hexDigits_succ (n v : Nat) : hexDigits (n + 1) v = digitChar (v / 16 ^ n % 16) :: hexDigits n v := by
  unfold hexDigits
  rw [List.range_succ_eq_map, List.map_cons, List.map_map]
  congr 1
  apply List.map_congr_left
  intro j hj
  rw [List.mem_range] at hj
  show digitChar (v / 16 ^ (n + 1 - 1 - (j + 1)) % 16) = _
  rw [show n + 1 - 1 - (j + 1) = n - 1 - j by omega]

theorem hexDigits_drop (n k v : Nat) : (hexDigits (k + n) v).drop k = hexDigits n v := by
  induction k with
  | zero => rw [Nat.zero_add, List.drop_zero]
  | succ k ih => rw [show k + 1 + n = (k + n) + 1 by omega, hexDigits_succ, List.drop_succ_cons, ih]

theorem hexVal_hexDigits (n v : Nat) : hexVal (hexDigits n v) = some (v % 16 ^ n) := by
  induction n with
  | zero => simp [hexDigits, hexVal, Nat.mod_one]
  | succ n ih =>
    rw [hexDigits_succ, hexVal_cons, ih, hexDigits_length, (hextable_spec _ (Nat.mod_lt _ (by norm_num))).2]
    show some _ = some _
    rw [pow_succ, Nat.mod_mul]
    congr 1
    ring

theorem hexLoop_drop (z : U256) (i : Nat) (hi : i < 4) :
    (hexLoop z i (List.replicate 66 0)).drop ((3 - i) * 16 + 2) = hexDigits (16 * (i + 1)) z.toNat ∧
    (hexLoop z i (List.replicate 66 0)).length = 66 := by
  have h := hexWords_eq z
  match i, hi with
  | 0, _ =>
    refine ⟨?_, rfl⟩
    rw [← hexDigits_drop _ 48, ← h]; rfl
  | 1, _ =>
    refine ⟨?_, rfl⟩
    rw [← hexDigits_drop _ 32, ← h]; rfl
  | 2, _ =>
    refine ⟨?_, rfl⟩
    rw [← hexDigits_drop _ 16, ← h]; rfl
  | 3, _ =>
    refine ⟨?_, rfl⟩
    rw [← hexDigits_drop _ 0, ← h]; rfl

theorem nibbles_spec (z : U256) : 1 ≤ nibbles z ∧ nibbles z ≤ 64 ∧ z.toNat < 16 ^ nibbles z ∧ (1 < nibbles z → 16 ^ (nibbles z - 1) ≤ z.toNat) := by
  obtain ⟨h1, h2, h3, h4⟩ := bitLen_spec z
  unfold nibbles
  have hz : z.toNat = 0 → bitLen z = 0 := by
    intro h
    rw [toNat_inj.1 (h.trans (by rfl : (0 : Nat) = zero.toNat))]; rfl
  split
  · rename_i h
    have h0 : bitLen z = 0 := by omega
    rw [h0] at h1
    refine ⟨le_refl _, by norm_num, ?_, by omega⟩
    omega
  · rename_i h
    have hne : z.toNat ≠ 0 := by intro hc; have := hz hc; omega
    refine ⟨by omega, by omega, ?_, ?_⟩
    · rw [show (16 : Nat) = 2 ^ 4 by norm_num, ← pow_mul]
      exact lt_of_lt_of_le h1 (Nat.pow_le_pow_right (by norm_num) (by omega))
    · intro _
      rw [show (16 : Nat) = 2 ^ 4 by norm_num, ← pow_mul]
      exact le_trans (Nat.pow_le_pow_right (by norm_num) (by omega)) (h2 hne)

theorem set_set_drop (l : List Byte) (k : Nat) (x y : Byte) (h : k + 2 ≤ l.length) :
    ((l.set k x).set (k + 1) y).drop k = x :: y :: l.drop (k + 2) := by
  induction k generalizing l with
  | zero =>
    match l, h with
    | a :: b :: l, _ => rfl
  | succ k ih =>
    match l, h with
    | a :: l, h => exact ih l (by simp only [List.length_cons] at h; omega)

theorem hex_eq (z : U256) : hex z = 48 :: 120 :: hexDigits (nibbles z) z.toNat := by
  obtain ⟨h1, h2, -, -⟩ := nibbles_spec z
  unfold hex
  dsimp only
  generalize nibbles z = n at *
  obtain ⟨h3, h4⟩ := hexLoop_drop z ((n - 1) / 16) (by omega)
  rw [show 65 - n = (64 - n) + 1 by omega, set_set_drop _ _ _ _ (by rw [h4]; omega)]
  congr 2
  have e : 64 - n + 2 = ((3 - (n - 1) / 16) * 16 + 2) + (16 * ((n - 1) / 16 + 1) - n) := by omega
  rw [e, ← List.drop_drop, h3]
  conv_lhs => rw [show 16 * ((n - 1) / 16 + 1) = (16 * ((n - 1) / 16 + 1) - n) + n by omega, Nat.add_sub_cancel]
  rw [hexDigits_drop]

theorem hex_text (z : U256) : HexText (hex z) z.toNat := by
  obtain ⟨h1, h2, h3, h4⟩ := nibbles_spec z
  refine ⟨120, hexDigits (nibbles z) z.toNat, hex_eq z, Or.inl rfl, ?_, ?_, ?_, ?_⟩
  · rw [hexDigits_length]; exact h1
  · rw [hexDigits_length]; exact h2
  · rw [hexDigits_length]
    intro h5 hc
    have h6 := h4 h5
    obtain ⟨n, hn⟩ : ∃ n, nibbles z = n + 1 := ⟨nibbles z - 1, by omega⟩
    rw [hn] at hc h3 h6
    rw [hexDigits_succ, List.head?_cons, Nat.mod_eq_of_lt] at hc
    · have h7 : z.toNat / 16 ^ n < 16 := by
        rw [Nat.div_lt_iff_lt_mul (Nat.pow_pos (by norm_num)), Nat.mul_comm, ← pow_succ]; exact h3
      have h8 := (hextable_spec _ h7).2
      rw [Option.some.inj hc] at h8
      have h9 : (0 : Nat) = z.toNat / 16 ^ n := Option.some.inj h8
      have := Nat.div_pos h6 (Nat.pow_pos (by norm_num))
      rw [Nat.add_sub_cancel] at this
      omega
    · rw [Nat.div_lt_iff_lt_mul (Nat.pow_pos (by norm_num)), Nat.mul_comm, ← pow_succ]; exact h3
  · rw [hexVal_hexDigits, Nat.mod_eq_of_lt h3]

end U256
end Uni
