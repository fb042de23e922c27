import Verif.Proofs.Conversion
import Mathlib.Tactic.IntervalCases
/-! The length-specific decoders of `SetBytes`. -/
namespace Uni
namespace U256
open Spec

theorem be_take8 (b : List Byte) (i : Nat) (h : i + 8 ≤ b.length) :
    beVal (b.take (i + 8)) = beVal (b.take i) * 2 ^ 64 + beVal ((b.drop i).take 8) := by
  have e : ((b.drop i).take 8).length = 8 := by rw [List.length_take, List.length_drop]; omega
  rw [List.take_add, beVal_append, e, show (256 : Nat) ^ 8 = 2 ^ 64 from rfl]

theorem be_first (b : List Byte) (h : 1 ≤ b.length) : beVal (b.take 1) = (b.getD 0 0).toNat := by
  match b, h with
  | x :: xs, _ => simp [beVal]

theorem be_three (b : List Byte) (h : 3 ≤ b.length) :
    (be ((b.drop 1).take 2) ||| zext (b.getD 0 0) <<< 16).toNat = beVal (b.take 3) := by
  match b, h with
  | x :: y :: z :: xs, _ =>
    have e : (be [y, z]).toNat = beVal [y, z] := toNat_be (by simp)
    have h1 : beVal [y, z] < 2 ^ 16 := by have := beVal_lt [y, z]; simpa using this
    have hx := x.isLt
    show (be [y, z] ||| zext x <<< 16).toNat = beVal [x, y, z]
    have hz : (zext x).toNat * 2 ^ 16 < 2 ^ 64 := by
      rw [toNat_zext]
      calc x.toNat * 2 ^ 16 < 2 ^ 8 * 2 ^ 16 := Nat.mul_lt_mul_of_pos_right hx (by norm_num)
        _ < 2 ^ 64 := by norm_num
    rw [BitVec.or_comm, shl_or _ _ _ hz (by rw [e]; exact h1), toNat_zext, e, beVal_cons x, show [y, z].length = 2 from List.length_cons ..,
      show (256 : Nat) ^ 2 = 2 ^ 16 by norm_num]

theorem be_slice (b : List Byte) (i j : Nat) (_ : j ≤ b.length) (h2 : j - i ≤ 8) :
    (be ((b.drop i).take (j - i))).toNat = beVal ((b.drop i).take (j - i)) :=
  toNat_be (by rw [List.length_take]; omega)

theorem need_ok {b : List Byte} {k : Nat} (h : k < b.length) : need b k = .ok () := if_pos h
theorem sl_ok {b : List Byte} {i j : Nat} (h : j ≤ b.length) : sl b i j = .ok ((b.drop i).take (j - i)) := if_pos h
theorem sl_panic {b : List Byte} {i j : Nat} (h : b.length < j) : sl b i j = .error .panic := if_neg (by omega)
theorem byteAtIdx_ok {b : List Byte} {i : Nat} (h : i < b.length) : byteAtIdx b i = .ok (b.getD i 0) := if_pos h
theorem byteAtIdx_panic {b : List Byte} {i : Nat} (h : b.length ≤ i) : byteAtIdx b i = .error .panic := if_neg (by omega)
theorem need_panic {b : List Byte} {k : Nat} (h : b.length ≤ k) : need b k = .error .panic := if_neg (by omega)

theorem setBytes1_ok (b : List Byte) (h : 1 ≤ b.length) : ∃ z, setBytes1 b = .ok z ∧ z.toNat = beVal (b.take 1) := by
  unfold setBytes1
  rw [byteAtIdx_ok (by omega), Except_bind_ok]
  refine ⟨_, rfl, ?_⟩
  have v0 : (zext (b.getD 0 0)).toNat = beVal (b.take 1) := by rw [toNat_zext, be_first b (by omega)]
  simp only [toNat, word_toNat_zero]
  rw [v0]
  omega

theorem setBytes1_panic (b : List Byte) (h : b.length < 1) : setBytes1 b = .error .panic := by
  unfold setBytes1
  rw [byteAtIdx_panic (by omega)]; rfl

theorem setBytes2_ok (b : List Byte) (h : 2 ≤ b.length) : ∃ z, setBytes2 b = .ok z ∧ z.toNat = beVal (b.take 2) := by
  unfold setBytes2
  rw [need_ok (by omega), Except_bind_ok, sl_ok (by omega), Except_bind_ok]
  refine ⟨_, rfl, ?_⟩
  have v0 : (be ((b.drop 0).take (2 - 0))).toNat = beVal (b.take 2) := be_slice b 0 2 (by omega) (by omega)
  simp only [toNat, word_toNat_zero]
  rw [v0]
  omega

theorem setBytes2_panic (b : List Byte) (h : b.length < 2) : setBytes2 b = .error .panic := by
  unfold setBytes2
  rw [need_panic (by omega)]; rfl

theorem setBytes3_ok (b : List Byte) (h : 3 ≤ b.length) : ∃ z, setBytes3 b = .ok z ∧ z.toNat = beVal (b.take 3) := by
  unfold setBytes3
  rw [need_ok (by omega), Except_bind_ok, sl_ok (by omega), Except_bind_ok, byteAtIdx_ok (by omega), Except_bind_ok]
  refine ⟨_, rfl, ?_⟩
  have v0 := be_three b (by omega)
  simp only [toNat, word_toNat_zero]
  rw [show (3 - 1 : Nat) = 2 from rfl, v0]
  omega

theorem setBytes3_panic (b : List Byte) (h : b.length < 3) : setBytes3 b = .error .panic := by
  unfold setBytes3
  rw [need_panic (by omega)]; rfl

theorem setBytes4_ok (b : List Byte) (h : 4 ≤ b.length) : ∃ z, setBytes4 b = .ok z ∧ z.toNat = beVal (b.take 4) := by
  unfold setBytes4
  rw [need_ok (by omega), Except_bind_ok, sl_ok (by omega), Except_bind_ok]
  refine ⟨_, rfl, ?_⟩
  have v0 : (be ((b.drop 0).take (4 - 0))).toNat = beVal (b.take 4) := be_slice b 0 4 (by omega) (by omega)
  simp only [toNat, word_toNat_zero]
  rw [v0]
  omega

theorem setBytes4_panic (b : List Byte) (h : b.length < 4) : setBytes4 b = .error .panic := by
  unfold setBytes4
  rw [need_panic (by omega)]; rfl

theorem setBytes5_ok (b : List Byte) (h : 5 ≤ b.length) : ∃ z, setBytes5 b = .ok z ∧ z.toNat = beVal (b.take 5) := by
  unfold setBytes5
  rw [need_ok (by omega), Except_bind_ok, sl_ok (by omega), Except_bind_ok]
  refine ⟨_, rfl, ?_⟩
  have v0 : (be40 ((b.drop 0).take (5 - 0))).toNat = beVal (b.take 5) := by
    rw [be40_eq (by rw [List.length_take, List.length_drop]; omega)]; exact be_slice b 0 5 (by omega) (by omega)
  simp only [toNat, word_toNat_zero]
  rw [v0]
  omega

theorem setBytes5_panic (b : List Byte) (h : b.length < 5) : setBytes5 b = .error .panic := by
  unfold setBytes5
  rw [need_panic (by omega)]; rfl

theorem setBytes6_ok (b : List Byte) (h : 6 ≤ b.length) : ∃ z, setBytes6 b = .ok z ∧ z.toNat = beVal (b.take 6) := by
  unfold setBytes6
  rw [need_ok (by omega), Except_bind_ok, sl_ok (by omega), Except_bind_ok]
  refine ⟨_, rfl, ?_⟩
  have v0 : (be48 ((b.drop 0).take (6 - 0))).toNat = beVal (b.take 6) := by
    rw [be48_eq (by rw [List.length_take, List.length_drop]; omega)]; exact be_slice b 0 6 (by omega) (by omega)
  simp only [toNat, word_toNat_zero]
  rw [v0]
  omega

theorem setBytes6_panic (b : List Byte) (h : b.length < 6) : setBytes6 b = .error .panic := by
  unfold setBytes6
  rw [need_panic (by omega)]; rfl

theorem setBytes7_ok (b : List Byte) (h : 7 ≤ b.length) : ∃ z, setBytes7 b = .ok z ∧ z.toNat = beVal (b.take 7) := by
  unfold setBytes7
  rw [need_ok (by omega), Except_bind_ok, sl_ok (by omega), Except_bind_ok]
  refine ⟨_, rfl, ?_⟩
  have v0 : (be56 ((b.drop 0).take (7 - 0))).toNat = beVal (b.take 7) := by
    rw [be56_eq (by rw [List.length_take, List.length_drop]; omega)]; exact be_slice b 0 7 (by omega) (by omega)
  simp only [toNat, word_toNat_zero]
  rw [v0]
  omega

theorem setBytes7_panic (b : List Byte) (h : b.length < 7) : setBytes7 b = .error .panic := by
  unfold setBytes7
  rw [need_panic (by omega)]; rfl

theorem setBytes8_ok (b : List Byte) (h : 8 ≤ b.length) : ∃ z, setBytes8 b = .ok z ∧ z.toNat = beVal (b.take 8) := by
  unfold setBytes8
  rw [need_ok (by omega), Except_bind_ok, sl_ok (by omega), Except_bind_ok]
  refine ⟨_, rfl, ?_⟩
  have v0 : (be ((b.drop 0).take (8 - 0))).toNat = beVal (b.take 8) := be_slice b 0 8 (by omega) (by omega)
  simp only [toNat, word_toNat_zero]
  rw [v0]
  omega

theorem setBytes8_panic (b : List Byte) (h : b.length < 8) : setBytes8 b = .error .panic := by
  unfold setBytes8
  rw [need_panic (by omega)]; rfl

theorem setBytes9_ok (b : List Byte) (h : 9 ≤ b.length) : ∃ z, setBytes9 b = .ok z ∧ z.toNat = beVal (b.take 9) := by
  unfold setBytes9
  rw [need_ok (by omega), Except_bind_ok, byteAtIdx_ok (by omega), Except_bind_ok, sl_ok (by omega), Except_bind_ok]
  refine ⟨_, rfl, ?_⟩
  have v0 : (be ((b.drop 1).take (9 - 1))).toNat = beVal ((b.drop 1).take 8) := be_slice b 1 9 (by omega) (by omega)
  have t0 : beVal (b.take 9) = beVal (b.take 1) * 2 ^ 64 + beVal ((b.drop 1).take 8) := be_take8 b 1 (by omega)
  have v1 : (zext (b.getD 0 0)).toNat = beVal (b.take 1) := by rw [toNat_zext, be_first b (by omega)]
  simp only [toNat, word_toNat_zero]
  rw [v0, v1]
  omega

theorem setBytes9_panic (b : List Byte) (h : b.length < 9) : setBytes9 b = .error .panic := by
  unfold setBytes9
  rw [need_panic (by omega)]; rfl

theorem setBytes10_ok (b : List Byte) (h : 10 ≤ b.length) : ∃ z, setBytes10 b = .ok z ∧ z.toNat = beVal (b.take 10) := by
  unfold setBytes10
  rw [need_ok (by omega), Except_bind_ok, sl_ok (by omega), Except_bind_ok, sl_ok (by omega), Except_bind_ok]
  refine ⟨_, rfl, ?_⟩
  have v0 : (be ((b.drop 2).take (10 - 2))).toNat = beVal ((b.drop 2).take 8) := be_slice b 2 10 (by omega) (by omega)
  have t0 : beVal (b.take 10) = beVal (b.take 2) * 2 ^ 64 + beVal ((b.drop 2).take 8) := be_take8 b 2 (by omega)
  have v1 : (be ((b.drop 0).take (2 - 0))).toNat = beVal (b.take 2) := be_slice b 0 2 (by omega) (by omega)
  simp only [toNat, word_toNat_zero]
  rw [v0, v1]
  omega

theorem setBytes10_panic (b : List Byte) (h : b.length < 10) : setBytes10 b = .error .panic := by
  unfold setBytes10
  rw [need_panic (by omega)]; rfl

theorem setBytes11_ok (b : List Byte) (h : 11 ≤ b.length) : ∃ z, setBytes11 b = .ok z ∧ z.toNat = beVal (b.take 11) := by
  unfold setBytes11
  rw [need_ok (by omega), Except_bind_ok, sl_ok (by omega), Except_bind_ok, byteAtIdx_ok (by omega), Except_bind_ok, sl_ok (by omega), Except_bind_ok]
  refine ⟨_, rfl, ?_⟩
  have v0 : (be ((b.drop 3).take (11 - 3))).toNat = beVal ((b.drop 3).take 8) := be_slice b 3 11 (by omega) (by omega)
  have t0 : beVal (b.take 11) = beVal (b.take 3) * 2 ^ 64 + beVal ((b.drop 3).take 8) := be_take8 b 3 (by omega)
  have v1 := be_three b (by omega)
  simp only [toNat, word_toNat_zero]
  rw [show (3 - 1 : Nat) = 2 from rfl, v0, v1]
  omega

theorem setBytes11_panic (b : List Byte) (h : b.length < 11) : setBytes11 b = .error .panic := by
  unfold setBytes11
  rw [need_panic (by omega)]; rfl

theorem setBytes12_ok (b : List Byte) (h : 12 ≤ b.length) : ∃ z, setBytes12 b = .ok z ∧ z.toNat = beVal (b.take 12) := by
  unfold setBytes12
  rw [need_ok (by omega), Except_bind_ok, sl_ok (by omega), Except_bind_ok, sl_ok (by omega), Except_bind_ok]
  refine ⟨_, rfl, ?_⟩
  have v0 : (be ((b.drop 4).take (12 - 4))).toNat = beVal ((b.drop 4).take 8) := be_slice b 4 12 (by omega) (by omega)
  have t0 : beVal (b.take 12) = beVal (b.take 4) * 2 ^ 64 + beVal ((b.drop 4).take 8) := be_take8 b 4 (by omega)
  have v1 : (be ((b.drop 0).take (4 - 0))).toNat = beVal (b.take 4) := be_slice b 0 4 (by omega) (by omega)
  simp only [toNat, word_toNat_zero]
  rw [v0, v1]
  omega

theorem setBytes12_panic (b : List Byte) (h : b.length < 12) : setBytes12 b = .error .panic := by
  unfold setBytes12
  rw [need_panic (by omega)]; rfl

theorem setBytes13_ok (b : List Byte) (h : 13 ≤ b.length) : ∃ z, setBytes13 b = .ok z ∧ z.toNat = beVal (b.take 13) := by
  unfold setBytes13
  rw [need_ok (by omega), Except_bind_ok, sl_ok (by omega), Except_bind_ok, sl_ok (by omega), Except_bind_ok]
  refine ⟨_, rfl, ?_⟩
  have v0 : (be ((b.drop 5).take (13 - 5))).toNat = beVal ((b.drop 5).take 8) := be_slice b 5 13 (by omega) (by omega)
  have t0 : beVal (b.take 13) = beVal (b.take 5) * 2 ^ 64 + beVal ((b.drop 5).take 8) := be_take8 b 5 (by omega)
  have v1 : (be40 ((b.drop 0).take (5 - 0))).toNat = beVal (b.take 5) := by
    rw [be40_eq (by rw [List.length_take, List.length_drop]; omega)]; exact be_slice b 0 5 (by omega) (by omega)
  simp only [toNat, word_toNat_zero]
  rw [v0, v1]
  omega

theorem setBytes13_panic (b : List Byte) (h : b.length < 13) : setBytes13 b = .error .panic := by
  unfold setBytes13
  rw [need_panic (by omega)]; rfl

theorem setBytes14_ok (b : List Byte) (h : 14 ≤ b.length) : ∃ z, setBytes14 b = .ok z ∧ z.toNat = beVal (b.take 14) := by
  unfold setBytes14
  rw [need_ok (by omega), Except_bind_ok, sl_ok (by omega), Except_bind_ok, sl_ok (by omega), Except_bind_ok]
  refine ⟨_, rfl, ?_⟩
  have v0 : (be ((b.drop 6).take (14 - 6))).toNat = beVal ((b.drop 6).take 8) := be_slice b 6 14 (by omega) (by omega)
  have t0 : beVal (b.take 14) = beVal (b.take 6) * 2 ^ 64 + beVal ((b.drop 6).take 8) := be_take8 b 6 (by omega)
  have v1 : (be48 ((b.drop 0).take (6 - 0))).toNat = beVal (b.take 6) := by
    rw [be48_eq (by rw [List.length_take, List.length_drop]; omega)]; exact be_slice b 0 6 (by omega) (by omega)
  simp only [toNat, word_toNat_zero]
  rw [v0, v1]
  omega

theorem setBytes14_panic (b : List Byte) (h : b.length < 14) : setBytes14 b = .error .panic := by
  unfold setBytes14
  rw [need_panic (by omega)]; rfl

theorem setBytes15_ok (b : List Byte) (h : 15 ≤ b.length) : ∃ z, setBytes15 b = .ok z ∧ z.toNat = beVal (b.take 15) := by
  unfold setBytes15
  rw [need_ok (by omega), Except_bind_ok, sl_ok (by omega), Except_bind_ok, sl_ok (by omega), Except_bind_ok]
  refine ⟨_, rfl, ?_⟩
  have v0 : (be ((b.drop 7).take (15 - 7))).toNat = beVal ((b.drop 7).take 8) := be_slice b 7 15 (by omega) (by omega)
  have t0 : beVal (b.take 15) = beVal (b.take 7) * 2 ^ 64 + beVal ((b.drop 7).take 8) := be_take8 b 7 (by omega)
  have v1 : (be56 ((b.drop 0).take (7 - 0))).toNat = beVal (b.take 7) := by
    rw [be56_eq (by rw [List.length_take, List.length_drop]; omega)]; exact be_slice b 0 7 (by omega) (by omega)
  simp only [toNat, word_toNat_zero]
  rw [v0, v1]
  omega

theorem setBytes15_panic (b : List Byte) (h : b.length < 15) : setBytes15 b = .error .panic := by
  unfold setBytes15
  rw [need_panic (by omega)]; rfl

theorem setBytes16_ok (b : List Byte) (h : 16 ≤ b.length) : ∃ z, setBytes16 b = .ok z ∧ z.toNat = beVal (b.take 16) := by
  unfold setBytes16
  rw [need_ok (by omega), Except_bind_ok, sl_ok (by omega), Except_bind_ok, sl_ok (by omega), Except_bind_ok]
  refine ⟨_, rfl, ?_⟩
  have v0 : (be ((b.drop 8).take (16 - 8))).toNat = beVal ((b.drop 8).take 8) := be_slice b 8 16 (by omega) (by omega)
  have t0 : beVal (b.take 16) = beVal (b.take 8) * 2 ^ 64 + beVal ((b.drop 8).take 8) := be_take8 b 8 (by omega)
  have v1 : (be ((b.drop 0).take (8 - 0))).toNat = beVal (b.take 8) := be_slice b 0 8 (by omega) (by omega)
  simp only [toNat, word_toNat_zero]
  rw [v0, v1]
  omega

theorem setBytes16_panic (b : List Byte) (h : b.length < 16) : setBytes16 b = .error .panic := by
  unfold setBytes16
  rw [need_panic (by omega)]; rfl

theorem setBytes17_ok (b : List Byte) (h : 17 ≤ b.length) : ∃ z, setBytes17 b = .ok z ∧ z.toNat = beVal (b.take 17) := by
  unfold setBytes17
  rw [need_ok (by omega), Except_bind_ok, byteAtIdx_ok (by omega), Except_bind_ok, sl_ok (by omega), Except_bind_ok, sl_ok (by omega), Except_bind_ok]
  refine ⟨_, rfl, ?_⟩
  have v0 : (be ((b.drop 9).take (17 - 9))).toNat = beVal ((b.drop 9).take 8) := be_slice b 9 17 (by omega) (by omega)
  have t0 : beVal (b.take 17) = beVal (b.take 9) * 2 ^ 64 + beVal ((b.drop 9).take 8) := be_take8 b 9 (by omega)
  have v1 : (be ((b.drop 1).take (9 - 1))).toNat = beVal ((b.drop 1).take 8) := be_slice b 1 9 (by omega) (by omega)
  have t1 : beVal (b.take 9) = beVal (b.take 1) * 2 ^ 64 + beVal ((b.drop 1).take 8) := be_take8 b 1 (by omega)
  have v2 : (zext (b.getD 0 0)).toNat = beVal (b.take 1) := by rw [toNat_zext, be_first b (by omega)]
  simp only [toNat, word_toNat_zero]
  rw [v0, v1, v2]
  omega

theorem setBytes17_panic (b : List Byte) (h : b.length < 17) : setBytes17 b = .error .panic := by
  unfold setBytes17
  rw [need_panic (by omega)]; rfl

theorem setBytes18_ok (b : List Byte) (h : 18 ≤ b.length) : ∃ z, setBytes18 b = .ok z ∧ z.toNat = beVal (b.take 18) := by
  unfold setBytes18
  rw [need_ok (by omega), Except_bind_ok, sl_ok (by omega), Except_bind_ok, sl_ok (by omega), Except_bind_ok, sl_ok (by omega), Except_bind_ok]
  refine ⟨_, rfl, ?_⟩
  have v0 : (be ((b.drop 10).take (18 - 10))).toNat = beVal ((b.drop 10).take 8) := be_slice b 10 18 (by omega) (by omega)
  have t0 : beVal (b.take 18) = beVal (b.take 10) * 2 ^ 64 + beVal ((b.drop 10).take 8) := be_take8 b 10 (by omega)
  have v1 : (be ((b.drop 2).take (10 - 2))).toNat = beVal ((b.drop 2).take 8) := be_slice b 2 10 (by omega) (by omega)
  have t1 : beVal (b.take 10) = beVal (b.take 2) * 2 ^ 64 + beVal ((b.drop 2).take 8) := be_take8 b 2 (by omega)
  have v2 : (be ((b.drop 0).take (2 - 0))).toNat = beVal (b.take 2) := be_slice b 0 2 (by omega) (by omega)
  simp only [toNat, word_toNat_zero]
  rw [v0, v1, v2]
  omega

theorem setBytes18_panic (b : List Byte) (h : b.length < 18) : setBytes18 b = .error .panic := by
  unfold setBytes18
  rw [need_panic (by omega)]; rfl

theorem setBytes19_ok (b : List Byte) (h : 19 ≤ b.length) : ∃ z, setBytes19 b = .ok z ∧ z.toNat = beVal (b.take 19) := by
  unfold setBytes19
  rw [need_ok (by omega), Except_bind_ok, sl_ok (by omega), Except_bind_ok, byteAtIdx_ok (by omega), Except_bind_ok, sl_ok (by omega), Except_bind_ok, sl_ok (by omega), Except_bind_ok]
  refine ⟨_, rfl, ?_⟩
  have v0 : (be ((b.drop 11).take (19 - 11))).toNat = beVal ((b.drop 11).take 8) := be_slice b 11 19 (by omega) (by omega)
  have t0 : beVal (b.take 19) = beVal (b.take 11) * 2 ^ 64 + beVal ((b.drop 11).take 8) := be_take8 b 11 (by omega)
  have v1 : (be ((b.drop 3).take (11 - 3))).toNat = beVal ((b.drop 3).take 8) := be_slice b 3 11 (by omega) (by omega)
  have t1 : beVal (b.take 11) = beVal (b.take 3) * 2 ^ 64 + beVal ((b.drop 3).take 8) := be_take8 b 3 (by omega)
  have v2 := be_three b (by omega)
  simp only [toNat, word_toNat_zero]
  rw [show (3 - 1 : Nat) = 2 from rfl, v0, v1, v2]
  omega

theorem setBytes19_panic (b : List Byte) (h : b.length < 19) : setBytes19 b = .error .panic := by
  unfold setBytes19
  rw [need_panic (by omega)]; rfl

theorem setBytes20_ok (b : List Byte) (h : 20 ≤ b.length) : ∃ z, setBytes20 b = .ok z ∧ z.toNat = beVal (b.take 20) := by
  unfold setBytes20
  rw [need_ok (by omega), Except_bind_ok, sl_ok (by omega), Except_bind_ok, sl_ok (by omega), Except_bind_ok, sl_ok (by omega), Except_bind_ok]
  refine ⟨_, rfl, ?_⟩
  have v0 : (be ((b.drop 12).take (20 - 12))).toNat = beVal ((b.drop 12).take 8) := be_slice b 12 20 (by omega) (by omega)
  have t0 : beVal (b.take 20) = beVal (b.take 12) * 2 ^ 64 + beVal ((b.drop 12).take 8) := be_take8 b 12 (by omega)
  have v1 : (be ((b.drop 4).take (12 - 4))).toNat = beVal ((b.drop 4).take 8) := be_slice b 4 12 (by omega) (by omega)
  have t1 : beVal (b.take 12) = beVal (b.take 4) * 2 ^ 64 + beVal ((b.drop 4).take 8) := be_take8 b 4 (by omega)
  have v2 : (be ((b.drop 0).take (4 - 0))).toNat = beVal (b.take 4) := be_slice b 0 4 (by omega) (by omega)
  simp only [toNat, word_toNat_zero]
  rw [v0, v1, v2]
  omega

theorem setBytes20_panic (b : List Byte) (h : b.length < 20) : setBytes20 b = .error .panic := by
  unfold setBytes20
  rw [need_panic (by omega)]; rfl

theorem setBytes21_ok (b : List Byte) (h : 21 ≤ b.length) : ∃ z, setBytes21 b = .ok z ∧ z.toNat = beVal (b.take 21) := by
  unfold setBytes21
  rw [need_ok (by omega), Except_bind_ok, sl_ok (by omega), Except_bind_ok, sl_ok (by omega), Except_bind_ok, sl_ok (by omega), Except_bind_ok]
  refine ⟨_, rfl, ?_⟩
  have v0 : (be ((b.drop 13).take (21 - 13))).toNat = beVal ((b.drop 13).take 8) := be_slice b 13 21 (by omega) (by omega)
  have t0 : beVal (b.take 21) = beVal (b.take 13) * 2 ^ 64 + beVal ((b.drop 13).take 8) := be_take8 b 13 (by omega)
  have v1 : (be ((b.drop 5).take (13 - 5))).toNat = beVal ((b.drop 5).take 8) := be_slice b 5 13 (by omega) (by omega)
  have t1 : beVal (b.take 13) = beVal (b.take 5) * 2 ^ 64 + beVal ((b.drop 5).take 8) := be_take8 b 5 (by omega)
  have v2 : (be40 ((b.drop 0).take (5 - 0))).toNat = beVal (b.take 5) := by
    rw [be40_eq (by rw [List.length_take, List.length_drop]; omega)]; exact be_slice b 0 5 (by omega) (by omega)
  simp only [toNat, word_toNat_zero]
  rw [v0, v1, v2]
  omega

theorem setBytes21_panic (b : List Byte) (h : b.length < 21) : setBytes21 b = .error .panic := by
  unfold setBytes21
  rw [need_panic (by omega)]; rfl

theorem setBytes22_ok (b : List Byte) (h : 22 ≤ b.length) : ∃ z, setBytes22 b = .ok z ∧ z.toNat = beVal (b.take 22) := by
  unfold setBytes22
  rw [need_ok (by omega), Except_bind_ok, sl_ok (by omega), Except_bind_ok, sl_ok (by omega), Except_bind_ok, sl_ok (by omega), Except_bind_ok]
  refine ⟨_, rfl, ?_⟩
  have v0 : (be ((b.drop 14).take (22 - 14))).toNat = beVal ((b.drop 14).take 8) := be_slice b 14 22 (by omega) (by omega)
  have t0 : beVal (b.take 22) = beVal (b.take 14) * 2 ^ 64 + beVal ((b.drop 14).take 8) := be_take8 b 14 (by omega)
  have v1 : (be ((b.drop 6).take (14 - 6))).toNat = beVal ((b.drop 6).take 8) := be_slice b 6 14 (by omega) (by omega)
  have t1 : beVal (b.take 14) = beVal (b.take 6) * 2 ^ 64 + beVal ((b.drop 6).take 8) := be_take8 b 6 (by omega)
  have v2 : (be48 ((b.drop 0).take (6 - 0))).toNat = beVal (b.take 6) := by
    rw [be48_eq (by rw [List.length_take, List.length_drop]; omega)]; exact be_slice b 0 6 (by omega) (by omega)
  simp only [toNat, word_toNat_zero]
  rw [v0, v1, v2]
  omega

theorem setBytes22_panic (b : List Byte) (h : b.length < 22) : setBytes22 b = .error .panic := by
  unfold setBytes22
  rw [need_panic (by omega)]; rfl

theorem setBytes23_ok (b : List Byte) (h : 23 ≤ b.length) : ∃ z, setBytes23 b = .ok z ∧ z.toNat = beVal (b.take 23) := by
  unfold setBytes23
  rw [need_ok (by omega), Except_bind_ok, sl_ok (by omega), Except_bind_ok, sl_ok (by omega), Except_bind_ok, sl_ok (by omega), Except_bind_ok]
  refine ⟨_, rfl, ?_⟩
  have v0 : (be ((b.drop 15).take (23 - 15))).toNat = beVal ((b.drop 15).take 8) := be_slice b 15 23 (by omega) (by omega)
  have t0 : beVal (b.take 23) = beVal (b.take 15) * 2 ^ 64 + beVal ((b.drop 15).take 8) := be_take8 b 15 (by omega)
  have v1 : (be ((b.drop 7).take (15 - 7))).toNat = beVal ((b.drop 7).take 8) := be_slice b 7 15 (by omega) (by omega)
  have t1 : beVal (b.take 15) = beVal (b.take 7) * 2 ^ 64 + beVal ((b.drop 7).take 8) := be_take8 b 7 (by omega)
  have v2 : (be56 ((b.drop 0).take (7 - 0))).toNat = beVal (b.take 7) := by
    rw [be56_eq (by rw [List.length_take, List.length_drop]; omega)]; exact be_slice b 0 7 (by omega) (by omega)
  simp only [toNat, word_toNat_zero]
  rw [v0, v1, v2]
  omega

theorem setBytes23_panic (b : List Byte) (h : b.length < 23) : setBytes23 b = .error .panic := by
  unfold setBytes23
  rw [need_panic (by omega)]; rfl

theorem setBytes24_ok (b : List Byte) (h : 24 ≤ b.length) : ∃ z, setBytes24 b = .ok z ∧ z.toNat = beVal (b.take 24) := by
  unfold setBytes24
  rw [need_ok (by omega), Except_bind_ok, sl_ok (by omega), Except_bind_ok, sl_ok (by omega), Except_bind_ok, sl_ok (by omega), Except_bind_ok]
  refine ⟨_, rfl, ?_⟩
  have v0 : (be ((b.drop 16).take (24 - 16))).toNat = beVal ((b.drop 16).take 8) := be_slice b 16 24 (by omega) (by omega)
  have t0 : beVal (b.take 24) = beVal (b.take 16) * 2 ^ 64 + beVal ((b.drop 16).take 8) := be_take8 b 16 (by omega)
  have v1 : (be ((b.drop 8).take (16 - 8))).toNat = beVal ((b.drop 8).take 8) := be_slice b 8 16 (by omega) (by omega)
  have t1 : beVal (b.take 16) = beVal (b.take 8) * 2 ^ 64 + beVal ((b.drop 8).take 8) := be_take8 b 8 (by omega)
  have v2 : (be ((b.drop 0).take (8 - 0))).toNat = beVal (b.take 8) := be_slice b 0 8 (by omega) (by omega)
  simp only [toNat, word_toNat_zero]
  rw [v0, v1, v2]
  omega

theorem setBytes24_panic (b : List Byte) (h : b.length < 24) : setBytes24 b = .error .panic := by
  unfold setBytes24
  rw [need_panic (by omega)]; rfl

theorem setBytes25_ok (b : List Byte) (h : 25 ≤ b.length) : ∃ z, setBytes25 b = .ok z ∧ z.toNat = beVal (b.take 25) := by
  unfold setBytes25
  rw [need_ok (by omega), Except_bind_ok, byteAtIdx_ok (by omega), Except_bind_ok, sl_ok (by omega), Except_bind_ok, sl_ok (by omega), Except_bind_ok, sl_ok (by omega), Except_bind_ok]
  refine ⟨_, rfl, ?_⟩
  have v0 : (be ((b.drop 17).take (25 - 17))).toNat = beVal ((b.drop 17).take 8) := be_slice b 17 25 (by omega) (by omega)
  have t0 : beVal (b.take 25) = beVal (b.take 17) * 2 ^ 64 + beVal ((b.drop 17).take 8) := be_take8 b 17 (by omega)
  have v1 : (be ((b.drop 9).take (17 - 9))).toNat = beVal ((b.drop 9).take 8) := be_slice b 9 17 (by omega) (by omega)
  have t1 : beVal (b.take 17) = beVal (b.take 9) * 2 ^ 64 + beVal ((b.drop 9).take 8) := be_take8 b 9 (by omega)
  have v2 : (be ((b.drop 1).take (9 - 1))).toNat = beVal ((b.drop 1).take 8) := be_slice b 1 9 (by omega) (by omega)
  have t2 : beVal (b.take 9) = beVal (b.take 1) * 2 ^ 64 + beVal ((b.drop 1).take 8) := be_take8 b 1 (by omega)
  have v3 : (zext (b.getD 0 0)).toNat = beVal (b.take 1) := by rw [toNat_zext, be_first b (by omega)]
  simp only [toNat]
  rw [v0, v1, v2, v3]
  omega

theorem setBytes25_panic (b : List Byte) (h : b.length < 25) : setBytes25 b = .error .panic := by
  unfold setBytes25
  rw [need_panic (by omega)]; rfl

theorem setBytes26_ok (b : List Byte) (h : 26 ≤ b.length) : ∃ z, setBytes26 b = .ok z ∧ z.toNat = beVal (b.take 26) := by
  unfold setBytes26
  rw [need_ok (by omega), Except_bind_ok, sl_ok (by omega), Except_bind_ok, sl_ok (by omega), Except_bind_ok, sl_ok (by omega), Except_bind_ok, sl_ok (by omega), Except_bind_ok]
  refine ⟨_, rfl, ?_⟩
  have v0 : (be ((b.drop 18).take (26 - 18))).toNat = beVal ((b.drop 18).take 8) := be_slice b 18 26 (by omega) (by omega)
  have t0 : beVal (b.take 26) = beVal (b.take 18) * 2 ^ 64 + beVal ((b.drop 18).take 8) := be_take8 b 18 (by omega)
  have v1 : (be ((b.drop 10).take (18 - 10))).toNat = beVal ((b.drop 10).take 8) := be_slice b 10 18 (by omega) (by omega)
  have t1 : beVal (b.take 18) = beVal (b.take 10) * 2 ^ 64 + beVal ((b.drop 10).take 8) := be_take8 b 10 (by omega)
  have v2 : (be ((b.drop 2).take (10 - 2))).toNat = beVal ((b.drop 2).take 8) := be_slice b 2 10 (by omega) (by omega)
  have t2 : beVal (b.take 10) = beVal (b.take 2) * 2 ^ 64 + beVal ((b.drop 2).take 8) := be_take8 b 2 (by omega)
  have v3 : (be ((b.drop 0).take (2 - 0))).toNat = beVal (b.take 2) := be_slice b 0 2 (by omega) (by omega)
  simp only [toNat]
  rw [v0, v1, v2, v3]
  omega

theorem setBytes26_panic (b : List Byte) (h : b.length < 26) : setBytes26 b = .error .panic := by
  unfold setBytes26
  rw [need_panic (by omega)]; rfl

theorem setBytes27_ok (b : List Byte) (h : 27 ≤ b.length) : ∃ z, setBytes27 b = .ok z ∧ z.toNat = beVal (b.take 27) := by
  unfold setBytes27
  rw [need_ok (by omega), Except_bind_ok, sl_ok (by omega), Except_bind_ok, byteAtIdx_ok (by omega), Except_bind_ok, sl_ok (by omega), Except_bind_ok, sl_ok (by omega), Except_bind_ok, sl_ok (by omega), Except_bind_ok]
  refine ⟨_, rfl, ?_⟩
  have v0 : (be ((b.drop 19).take (27 - 19))).toNat = beVal ((b.drop 19).take 8) := be_slice b 19 27 (by omega) (by omega)
  have t0 : beVal (b.take 27) = beVal (b.take 19) * 2 ^ 64 + beVal ((b.drop 19).take 8) := be_take8 b 19 (by omega)
  have v1 : (be ((b.drop 11).take (19 - 11))).toNat = beVal ((b.drop 11).take 8) := be_slice b 11 19 (by omega) (by omega)
  have t1 : beVal (b.take 19) = beVal (b.take 11) * 2 ^ 64 + beVal ((b.drop 11).take 8) := be_take8 b 11 (by omega)
  have v2 : (be ((b.drop 3).take (11 - 3))).toNat = beVal ((b.drop 3).take 8) := be_slice b 3 11 (by omega) (by omega)
  have t2 : beVal (b.take 11) = beVal (b.take 3) * 2 ^ 64 + beVal ((b.drop 3).take 8) := be_take8 b 3 (by omega)
  have v3 := be_three b (by omega)
  simp only [toNat]
  rw [show (3 - 1 : Nat) = 2 from rfl, v0, v1, v2, v3]
  omega

theorem setBytes27_panic (b : List Byte) (h : b.length < 27) : setBytes27 b = .error .panic := by
  unfold setBytes27
  rw [need_panic (by omega)]; rfl

theorem setBytes28_ok (b : List Byte) (h : 28 ≤ b.length) : ∃ z, setBytes28 b = .ok z ∧ z.toNat = beVal (b.take 28) := by
  unfold setBytes28
  rw [need_ok (by omega), Except_bind_ok, sl_ok (by omega), Except_bind_ok, sl_ok (by omega), Except_bind_ok, sl_ok (by omega), Except_bind_ok, sl_ok (by omega), Except_bind_ok]
  refine ⟨_, rfl, ?_⟩
  have v0 : (be ((b.drop 20).take (28 - 20))).toNat = beVal ((b.drop 20).take 8) := be_slice b 20 28 (by omega) (by omega)
  have t0 : beVal (b.take 28) = beVal (b.take 20) * 2 ^ 64 + beVal ((b.drop 20).take 8) := be_take8 b 20 (by omega)
  have v1 : (be ((b.drop 12).take (20 - 12))).toNat = beVal ((b.drop 12).take 8) := be_slice b 12 20 (by omega) (by omega)
  have t1 : beVal (b.take 20) = beVal (b.take 12) * 2 ^ 64 + beVal ((b.drop 12).take 8) := be_take8 b 12 (by omega)
  have v2 : (be ((b.drop 4).take (12 - 4))).toNat = beVal ((b.drop 4).take 8) := be_slice b 4 12 (by omega) (by omega)
  have t2 : beVal (b.take 12) = beVal (b.take 4) * 2 ^ 64 + beVal ((b.drop 4).take 8) := be_take8 b 4 (by omega)
  have v3 : (be ((b.drop 0).take (4 - 0))).toNat = beVal (b.take 4) := be_slice b 0 4 (by omega) (by omega)
  simp only [toNat]
  rw [v0, v1, v2, v3]
  omega

theorem setBytes28_panic (b : List Byte) (h : b.length < 28) : setBytes28 b = .error .panic := by
  unfold setBytes28
  rw [need_panic (by omega)]; rfl

theorem setBytes29_ok (b : List Byte) (h : 29 ≤ b.length) : ∃ z, setBytes29 b = .ok z ∧ z.toNat = beVal (b.take 29) := by
  unfold setBytes29
  rw [need_ok (by omega), Except_bind_ok, sl_ok (by omega), Except_bind_ok, sl_ok (by omega), Except_bind_ok, sl_ok (by omega), Except_bind_ok, sl_ok (by omega), Except_bind_ok]
  refine ⟨_, rfl, ?_⟩
  have v0 : (be ((b.drop 21).take (29 - 21))).toNat = beVal ((b.drop 21).take 8) := be_slice b 21 29 (by omega) (by omega)
  have t0 : beVal (b.take 29) = beVal (b.take 21) * 2 ^ 64 + beVal ((b.drop 21).take 8) := be_take8 b 21 (by omega)
  have v1 : (be ((b.drop 13).take (21 - 13))).toNat = beVal ((b.drop 13).take 8) := be_slice b 13 21 (by omega) (by omega)
  have t1 : beVal (b.take 21) = beVal (b.take 13) * 2 ^ 64 + beVal ((b.drop 13).take 8) := be_take8 b 13 (by omega)
  have v2 : (be ((b.drop 5).take (13 - 5))).toNat = beVal ((b.drop 5).take 8) := be_slice b 5 13 (by omega) (by omega)
  have t2 : beVal (b.take 13) = beVal (b.take 5) * 2 ^ 64 + beVal ((b.drop 5).take 8) := be_take8 b 5 (by omega)
  have v3 : (be40 ((b.drop 0).take (5 - 0))).toNat = beVal (b.take 5) := by
    rw [be40_eq (by rw [List.length_take, List.length_drop]; omega)]; exact be_slice b 0 5 (by omega) (by omega)
  simp only [toNat]
  rw [v0, v1, v2, v3]
  omega

theorem setBytes29_panic (b : List Byte) (h : b.length < 29) : setBytes29 b = .error .panic := by
  unfold setBytes29
  by_cases h1 : b.length ≤ 23
  · rw [need_panic h1]; rfl
  · rw [need_ok (by omega), Except_bind_ok, sl_ok (by omega), Except_bind_ok, sl_ok (by omega), Except_bind_ok, sl_ok (by omega), Except_bind_ok, sl_panic (by omega)]; rfl

theorem setBytes30_ok (b : List Byte) (h : 30 ≤ b.length) : ∃ z, setBytes30 b = .ok z ∧ z.toNat = beVal (b.take 30) := by
  unfold setBytes30
  rw [need_ok (by omega), Except_bind_ok, sl_ok (by omega), Except_bind_ok, sl_ok (by omega), Except_bind_ok, sl_ok (by omega), Except_bind_ok, sl_ok (by omega), Except_bind_ok]
  refine ⟨_, rfl, ?_⟩
  have v0 : (be ((b.drop 22).take (30 - 22))).toNat = beVal ((b.drop 22).take 8) := be_slice b 22 30 (by omega) (by omega)
  have t0 : beVal (b.take 30) = beVal (b.take 22) * 2 ^ 64 + beVal ((b.drop 22).take 8) := be_take8 b 22 (by omega)
  have v1 : (be ((b.drop 14).take (22 - 14))).toNat = beVal ((b.drop 14).take 8) := be_slice b 14 22 (by omega) (by omega)
  have t1 : beVal (b.take 22) = beVal (b.take 14) * 2 ^ 64 + beVal ((b.drop 14).take 8) := be_take8 b 14 (by omega)
  have v2 : (be ((b.drop 6).take (14 - 6))).toNat = beVal ((b.drop 6).take 8) := be_slice b 6 14 (by omega) (by omega)
  have t2 : beVal (b.take 14) = beVal (b.take 6) * 2 ^ 64 + beVal ((b.drop 6).take 8) := be_take8 b 6 (by omega)
  have v3 : (be48 ((b.drop 0).take (6 - 0))).toNat = beVal (b.take 6) := by
    rw [be48_eq (by rw [List.length_take, List.length_drop]; omega)]; exact be_slice b 0 6 (by omega) (by omega)
  simp only [toNat]
  rw [v0, v1, v2, v3]
  omega

theorem setBytes30_panic (b : List Byte) (h : b.length < 30) : setBytes30 b = .error .panic := by
  unfold setBytes30
  rw [need_panic (by omega)]; rfl

theorem setBytes31_ok (b : List Byte) (h : 31 ≤ b.length) : ∃ z, setBytes31 b = .ok z ∧ z.toNat = beVal (b.take 31) := by
  unfold setBytes31
  rw [need_ok (by omega), Except_bind_ok, sl_ok (by omega), Except_bind_ok, sl_ok (by omega), Except_bind_ok, sl_ok (by omega), Except_bind_ok, sl_ok (by omega), Except_bind_ok]
  refine ⟨_, rfl, ?_⟩
  have v0 : (be ((b.drop 23).take (31 - 23))).toNat = beVal ((b.drop 23).take 8) := be_slice b 23 31 (by omega) (by omega)
  have t0 : beVal (b.take 31) = beVal (b.take 23) * 2 ^ 64 + beVal ((b.drop 23).take 8) := be_take8 b 23 (by omega)
  have v1 : (be ((b.drop 15).take (23 - 15))).toNat = beVal ((b.drop 15).take 8) := be_slice b 15 23 (by omega) (by omega)
  have t1 : beVal (b.take 23) = beVal (b.take 15) * 2 ^ 64 + beVal ((b.drop 15).take 8) := be_take8 b 15 (by omega)
  have v2 : (be ((b.drop 7).take (15 - 7))).toNat = beVal ((b.drop 7).take 8) := be_slice b 7 15 (by omega) (by omega)
  have t2 : beVal (b.take 15) = beVal (b.take 7) * 2 ^ 64 + beVal ((b.drop 7).take 8) := be_take8 b 7 (by omega)
  have v3 : (be56 ((b.drop 0).take (7 - 0))).toNat = beVal (b.take 7) := by
    rw [be56_eq (by rw [List.length_take, List.length_drop]; omega)]; exact be_slice b 0 7 (by omega) (by omega)
  simp only [toNat]
  rw [v0, v1, v2, v3]
  omega

theorem setBytes31_panic (b : List Byte) (h : b.length < 31) : setBytes31 b = .error .panic := by
  unfold setBytes31
  rw [need_panic (by omega)]; rfl

theorem setBytes32_ok (b : List Byte) (h : 32 ≤ b.length) : ∃ z, setBytes32 b = .ok z ∧ z.toNat = beVal (b.take 32) := by
  unfold setBytes32
  rw [need_ok (by omega), Except_bind_ok, sl_ok (by omega), Except_bind_ok, sl_ok (by omega), Except_bind_ok, sl_ok (by omega), Except_bind_ok, sl_ok (by omega), Except_bind_ok]
  refine ⟨_, rfl, ?_⟩
  have v0 : (be ((b.drop 24).take (32 - 24))).toNat = beVal ((b.drop 24).take 8) := be_slice b 24 32 (by omega) (by omega)
  have t0 : beVal (b.take 32) = beVal (b.take 24) * 2 ^ 64 + beVal ((b.drop 24).take 8) := be_take8 b 24 (by omega)
  have v1 : (be ((b.drop 16).take (24 - 16))).toNat = beVal ((b.drop 16).take 8) := be_slice b 16 24 (by omega) (by omega)
  have t1 : beVal (b.take 24) = beVal (b.take 16) * 2 ^ 64 + beVal ((b.drop 16).take 8) := be_take8 b 16 (by omega)
  have v2 : (be ((b.drop 8).take (16 - 8))).toNat = beVal ((b.drop 8).take 8) := be_slice b 8 16 (by omega) (by omega)
  have t2 : beVal (b.take 16) = beVal (b.take 8) * 2 ^ 64 + beVal ((b.drop 8).take 8) := be_take8 b 8 (by omega)
  have v3 : (be ((b.drop 0).take (8 - 0))).toNat = beVal (b.take 8) := be_slice b 0 8 (by omega) (by omega)
  simp only [toNat]
  rw [v0, v1, v2, v3]
  omega

theorem setBytes32_panic (b : List Byte) (h : b.length < 32) : setBytes32 b = .error .panic := by
  unfold setBytes32
  rw [need_panic (by omega)]; rfl

theorem take_all {b : List Byte} {n : Nat} (h : b.length = n) (h2 : n ≤ 32) : b.take n = b.drop (b.length - 32) := by
  rw [List.take_of_length_le (by omega), show b.length - 32 = 0 by omega, List.drop_zero]

theorem setBytes_spec (b : List Byte) : ∃ z, setBytes b = .ok z ∧ z.toNat = beVal (b.drop (b.length - 32)) := by
  unfold setBytes
  split
  · rename_i h
    refine ⟨zero, rfl, ?_⟩
    rw [← take_all h (by omega)]
    rfl
  · rename_i h; obtain ⟨z, h1, h2⟩ := setBytes1_ok b (by omega); exact ⟨z, h1, by rw [h2, take_all h (by omega)]⟩
  · rename_i h; obtain ⟨z, h1, h2⟩ := setBytes2_ok b (by omega); exact ⟨z, h1, by rw [h2, take_all h (by omega)]⟩
  · rename_i h; obtain ⟨z, h1, h2⟩ := setBytes3_ok b (by omega); exact ⟨z, h1, by rw [h2, take_all h (by omega)]⟩
  · rename_i h; obtain ⟨z, h1, h2⟩ := setBytes4_ok b (by omega); exact ⟨z, h1, by rw [h2, take_all h (by omega)]⟩
  · rename_i h; obtain ⟨z, h1, h2⟩ := setBytes5_ok b (by omega); exact ⟨z, h1, by rw [h2, take_all h (by omega)]⟩
  · rename_i h; obtain ⟨z, h1, h2⟩ := setBytes6_ok b (by omega); exact ⟨z, h1, by rw [h2, take_all h (by omega)]⟩
  · rename_i h; obtain ⟨z, h1, h2⟩ := setBytes7_ok b (by omega); exact ⟨z, h1, by rw [h2, take_all h (by omega)]⟩
  · rename_i h; obtain ⟨z, h1, h2⟩ := setBytes8_ok b (by omega); exact ⟨z, h1, by rw [h2, take_all h (by omega)]⟩
  · rename_i h; obtain ⟨z, h1, h2⟩ := setBytes9_ok b (by omega); exact ⟨z, h1, by rw [h2, take_all h (by omega)]⟩
  · rename_i h; obtain ⟨z, h1, h2⟩ := setBytes10_ok b (by omega); exact ⟨z, h1, by rw [h2, take_all h (by omega)]⟩
  · rename_i h; obtain ⟨z, h1, h2⟩ := setBytes11_ok b (by omega); exact ⟨z, h1, by rw [h2, take_all h (by omega)]⟩
  · rename_i h; obtain ⟨z, h1, h2⟩ := setBytes12_ok b (by omega); exact ⟨z, h1, by rw [h2, take_all h (by omega)]⟩
  · rename_i h; obtain ⟨z, h1, h2⟩ := setBytes13_ok b (by omega); exact ⟨z, h1, by rw [h2, take_all h (by omega)]⟩
  · rename_i h; obtain ⟨z, h1, h2⟩ := setBytes14_ok b (by omega); exact ⟨z, h1, by rw [h2, take_all h (by omega)]⟩
  · rename_i h; obtain ⟨z, h1, h2⟩ := setBytes15_ok b (by omega); exact ⟨z, h1, by rw [h2, take_all h (by omega)]⟩
  · rename_i h; obtain ⟨z, h1, h2⟩ := setBytes16_ok b (by omega); exact ⟨z, h1, by rw [h2, take_all h (by omega)]⟩
  · rename_i h; obtain ⟨z, h1, h2⟩ := setBytes17_ok b (by omega); exact ⟨z, h1, by rw [h2, take_all h (by omega)]⟩
  · rename_i h; obtain ⟨z, h1, h2⟩ := setBytes18_ok b (by omega); exact ⟨z, h1, by rw [h2, take_all h (by omega)]⟩
  · rename_i h; obtain ⟨z, h1, h2⟩ := setBytes19_ok b (by omega); exact ⟨z, h1, by rw [h2, take_all h (by omega)]⟩
  · rename_i h; obtain ⟨z, h1, h2⟩ := setBytes20_ok b (by omega); exact ⟨z, h1, by rw [h2, take_all h (by omega)]⟩
  · rename_i h; obtain ⟨z, h1, h2⟩ := setBytes21_ok b (by omega); exact ⟨z, h1, by rw [h2, take_all h (by omega)]⟩
  · rename_i h; obtain ⟨z, h1, h2⟩ := setBytes22_ok b (by omega); exact ⟨z, h1, by rw [h2, take_all h (by omega)]⟩
  · rename_i h; obtain ⟨z, h1, h2⟩ := setBytes23_ok b (by omega); exact ⟨z, h1, by rw [h2, take_all h (by omega)]⟩
  · rename_i h; obtain ⟨z, h1, h2⟩ := setBytes24_ok b (by omega); exact ⟨z, h1, by rw [h2, take_all h (by omega)]⟩
  · rename_i h; obtain ⟨z, h1, h2⟩ := setBytes25_ok b (by omega); exact ⟨z, h1, by rw [h2, take_all h (by omega)]⟩
  · rename_i h; obtain ⟨z, h1, h2⟩ := setBytes26_ok b (by omega); exact ⟨z, h1, by rw [h2, take_all h (by omega)]⟩
  · rename_i h; obtain ⟨z, h1, h2⟩ := setBytes27_ok b (by omega); exact ⟨z, h1, by rw [h2, take_all h (by omega)]⟩
  · rename_i h; obtain ⟨z, h1, h2⟩ := setBytes28_ok b (by omega); exact ⟨z, h1, by rw [h2, take_all h (by omega)]⟩
  · rename_i h; obtain ⟨z, h1, h2⟩ := setBytes29_ok b (by omega); exact ⟨z, h1, by rw [h2, take_all h (by omega)]⟩
  · rename_i h; obtain ⟨z, h1, h2⟩ := setBytes30_ok b (by omega); exact ⟨z, h1, by rw [h2, take_all h (by omega)]⟩
  · rename_i h; obtain ⟨z, h1, h2⟩ := setBytes31_ok b (by omega); exact ⟨z, h1, by rw [h2, take_all h (by omega)]⟩
  · have hl : 32 ≤ b.length := by
      by_contra hc
      have h3 : b.length < 32 := by omega
      interval_cases b.length <;> simp_all
    obtain ⟨z, h1, h2⟩ := setBytes32_ok (b.drop (b.length - 32)) (by rw [List.length_drop]; omega)
    refine ⟨z, h1, ?_⟩
    rw [h2, List.take_of_length_le (by rw [List.length_drop]; omega)]

end U256
end Uni
