import Verif.Proofs.Hex
import Verif.Model.TickMath
/-! # C09, C10, C11, C59: text, byte string, math/big and RLP conversions

`Spec.HexText s v` (Spec/Text.lean) lists the accepted texts and their values, `Spec.beVal`/`Spec.beBytes` are the value
and the encoding of big-endian byte strings. -/
namespace Uni
namespace Props
open U256 Spec

/-! ## C09 -/

theorem limbs_value (z : U256) (v : Nat) (hv : v < 2 ^ 256) (h : ∀ i < 4, (limb z i).toNat = v / 2 ^ (64 * i) % 2 ^ 64) :
    z.toNat = v := by
  have h0 := h 0 (by omega); have h1 := h 1 (by omega); have h2 := h 2 (by omega); have h3 := h 3 (by omega)
  change z.w0.toNat = _ at h0
  change z.w1.toNat = _ at h1
  change z.w2.toNat = _ at h2
  change z.w3.toNat = _ at h3
  unfold toNat
  rw [h0, h1, h2, h3]
  norm_num
  omega

theorem HexText_lt {s : List Byte} {v : Nat} (h : HexText s v) : v < 2 ^ 256 := by
  obtain ⟨x, ds, -, -, -, hl, -, hv⟩ := h
  calc v < 16 ^ ds.length := hexVal_lt hv
    _ ≤ 16 ^ 64 := Nat.pow_le_pow_right (by norm_num) hl
    _ = 2 ^ 256 := by norm_num

/-- Decoding a text into a variable that already holds `z` succeeds exactly on the accepted texts. The variable is not
cleared: limb `i` keeps its old contents, shifted left by the number of digits that belong to limb `i`. -/
theorem C09_receiver (z : U256) (s : List Byte) :
    ((unmarshalText z s).2 = none ↔ ∃ v, HexText s v) ∧
    (∀ v, HexText s v → ∀ i < 4, (limb (unmarshalText z s).1 i).toNat =
      ((limb z i).toNat * 16 ^ min 16 (s.length - 2 - 16 * i) + v / 2 ^ (64 * i) % 2 ^ 64) % 2 ^ 64) := by
  unfold unmarshalText
  refine ⟨⟨?_, ?_⟩, ?_⟩
  · intro h
    by_cases hc : checkNumberS s = none
    · obtain ⟨x, ds, rfl, hx, hl, hh⟩ := (checkNumberS_ok s).1 hc
      by_cases h64 : ds.length ≤ 64
      · cases hv : hexVal ds with
        | none => rw [fromHex_bad z _ _ ds hc h64 hv] at h; cases h
        | some v => exact ⟨v, x, ds, rfl, hx, hl, h64, hh, hv⟩
      · unfold fromHex at h
        rw [hc] at h
        dsimp only at h
        rw [if_pos (by simp only [List.length_cons]; omega)] at h
        cases h
    · obtain ⟨e, he⟩ := Option.ne_none_iff_exists'.1 hc
      unfold fromHex at h
      rw [he] at h
      cases h
  · rintro ⟨v, x, ds, rfl, hx, hl, h64, hh, hv⟩
    obtain ⟨z', hz, -⟩ := fromHex_ok z 48 x ds v ((checkNumberS_ok _).2 ⟨x, ds, rfl, hx, hl, hh⟩) h64 hv
    rw [hz]
  · rintro v ⟨x, ds, rfl, hx, hl, h64, hh, hv⟩
    obtain ⟨z', hz, h⟩ := fromHex_ok z 48 x ds v ((checkNumberS_ok _).2 ⟨x, ds, rfl, hx, hl, hh⟩) h64 hv
    rw [hz]
    exact h

/-- So the value of the text is what the variable holds afterwards if it was zero before, or if the text has all 64 digits. -/
theorem C09_clean (z : U256) (s : List Byte) (v : Nat) (hs : HexText s v) (h : z = zero ∨ s.length = 66) :
    (unmarshalText z s).1.toNat = v ∧ (unmarshalText z s).2 = none := by
  refine ⟨?_, (C09_receiver z s).1.2 ⟨v, hs⟩⟩
  refine limbs_value _ _ (HexText_lt hs) ?_
  intro i hi
  rw [(C09_receiver z s).2 v hs i hi]
  rcases h with rfl | h
  · have : (limb zero i).toNat = 0 := by
      match i, hi with
      | 0, _ => rfl
      | 1, _ => rfl
      | 2, _ => rfl
      | 3, _ => rfl
    rw [this, Nat.zero_mul, Nat.zero_add, Nat.mod_mod]
  · rw [h, show min 16 (66 - 2 - 16 * i) = 16 by omega, show (16 : Nat) ^ 16 = 2 ^ 64 by norm_num, Nat.add_comm,
      Nat.add_mul_mod_self_right, Nat.mod_mod]

/-- Otherwise it need not be: decoding `0x1` into a variable that holds 1 gives 17. -/
theorem C09_dirty : unmarshalText one (ascii "0x1") = (ofWord 17, none) ∧ HexText (ascii "0x1") 1 :=
  ⟨by decide +kernel, 120, [49], by decide, Or.inl rfl, by decide, by decide, by decide, by decide⟩

/-- `FromHex` accepts exactly the documented texts and returns their value. -/
theorem C09_fromHex (s : List Byte) (z : U256) : fromHexNew s = .ok z ↔ HexText s z.toNat := by
  constructor
  · intro h
    unfold fromHexNew at h
    split at h
    · rename_i z' hz
      have h1 := Except.ok.inj h
      subst h1
      have h2 : (unmarshalText zero s).2 = none := by unfold unmarshalText; rw [hz]
      obtain ⟨v, hv⟩ := (C09_receiver zero s).1.1 h2
      have h3 := (C09_clean zero s v hv (Or.inl rfl)).1
      unfold unmarshalText at h3
      rw [hz] at h3
      rw [h3]
      exact hv
    · cases h
  · intro h
    obtain ⟨h1, h2⟩ := C09_clean zero s _ h (Or.inl rfl)
    unfold unmarshalText at h1 h2
    unfold fromHexNew
    split
    · rename_i z' hz
      rw [hz] at h1
      exact congrArg Except.ok (toNat_inj.1 h1)
    · rename_i hz
      rw [hz] at h2
      cases h2

/-- `Hex` writes the shortest lower-case text of the value, and `FromHex` reads it back. -/
theorem C09_hex (z : U256) :
    (∃ n, hex z = ascii "0x" ++ hexDigits n z.toNat) ∧ HexText (hex z) z.toNat ∧ fromHexNew (hex z) = .ok z :=
  ⟨⟨nibbles z, hex_eq z⟩, hex_text z, (C09_fromHex _ _).2 (hex_text z)⟩

/-- JSON decoding: a text of at least two characters in double quotes is decoded like the text between the quotes,
anything else is rejected and leaves the variable alone. -/
theorem C09_json (z : U256) (t : List Byte) :
    unmarshalJSON z (34 :: t ++ [34]) = unmarshalText z t ∧
    (∀ s, (¬ ∃ t, s = 34 :: t ++ [34]) → unmarshalJSON z s = (z, some .nonString)) := by
  refine ⟨?_, ?_⟩
  · unfold unmarshalJSON
    rw [if_neg, show (34 :: t ++ [(34 : Byte)]).length - 2 = t.length by simp]
    · show unmarshalText z ((t ++ [34]).take t.length) = _
      rw [List.take_left]
    · rintro (h | h | h)
      · simp only [List.length_append, List.length_cons] at h; omega
      · exact h rfl
      · apply h
        rw [show (34 :: t ++ [(34 : Byte)]).length - 1 = (34 :: t).length by simp]
        rw [List.getD_eq_getElem?_getD, List.getElem?_append_right (le_refl _), Nat.sub_self]
        rfl
  · intro s hs
    unfold unmarshalJSON
    rw [if_pos]
    by_contra hc
    push Not at hc
    obtain ⟨h1, h2, h3⟩ := hc
    apply hs
    match s with
    | [] => simp at h1
    | [a] => simp at h1
    | a :: b :: l =>
      have ha : a = 34 := h2
      refine ⟨(b :: l).dropLast, ?_⟩
      have hne : b :: l ≠ [] := by simp
      have hl : (b :: l).getLast hne = 34 := by
        rw [List.getLast_eq_getElem]
        rw [List.getD_eq_getElem?_getD, List.getElem?_eq_getElem (by simp)] at h3
        simpa using h3
      rw [ha, List.cons_append, ← hl, List.dropLast_concat_getLast]

example : fromHexNew (ascii "0xfff2e50f5f656932ef12357cf3c7fdcc") = .ok (ofNat 0xfff2e50f5f656932ef12357cf3c7fdcc) ∧
    fromHexNew (ascii "0x01") = .error .leadingZero ∧ hex (ofNat (2 ^ 100 + 171)) = ascii "0x100000000000000000000000ab" := by
  decide +kernel

/-- The hexadecimal constants of `tickmath.go`, decoded by the modelled `FromHex`, are the numbers used in the model. -/
theorem C09_tick_constants :
    (["0xfffcb933bd6fad37aa2d162d1a594001", "0xfff97272373d413259a46990580e213a",
      "0xfff2e50f5f656932ef12357cf3c7fdcc", "0xffe5caca7e10e4e61c3624eaa0941cd0", "0xffcb9843d60f6159c9db58835c926644",
      "0xff973b41fa98c081472e6896dfb254c0", "0xff2ea16466c96a3843ec78b326b52861", "0xfe5dee046a99a2a811c461f1969c3053",
      "0xfcbe86c7900a88aedcffc83b479aa3a4", "0xf987a7253ac413176f2b074cf7815e54", "0xf3392b0822b70005940c7a398e4b70f3",
      "0xe7159475a2c29b7443b29c7fa6e889d9", "0xd097f3bdfd2022b8845ad8f792aa5825", "0xa9f746462d870fdf8a65dc1f90e061e5",
      "0x70d869a156d2a1b890bb3df62baf32f7", "0x31be135f97d08fd981231505542fcfa6", "0x9aa508b5b7a84e1c677de54f3e99bc9",
      "0x5d6af8dedb81196699c329225ee604", "0x2216e584f5fa1ea926041bedfe98", "0x48a170391f7dc42444e8fa2"].map
        fun t => fromHexNew (ascii t)) = TickMath.factors.map (fun n => .ok (ofNat n)) ∧
    fromHexNew (ascii "0x100000000000000000000000000000000") = .ok (ofNat (2 ^ 128)) ∧
    fromHexNew (ascii "0xffffffffffffffffffffffffffffffffffffffffffffffffffffffffffffffff") = .ok (ofNat (2 ^ 256 - 1)) := by
  decide +kernel

/-! ## C10 -/

/-- `SetBytes` reads a byte string of any length, or its last 32 bytes, as a big-endian number. -/
theorem C10_setBytes (b : List Byte) : ∃ z, setBytes b = .ok z ∧ z.toNat = beVal (b.drop (b.length - 32)) := setBytes_spec b

/-- The fixed-size encoders write the big-endian encoding of the value (its lowest bytes if the buffer is smaller). -/
theorem C10_encode (z : U256) (n : Nat) (dest : List Byte) :
    bytes32 z = beBytes 32 z.toNat ∧ bytes20 z = beBytes 20 z.toNat ∧ paddedBytes z n = beBytes n z.toNat ∧
    writeToArray32 z = beBytes 32 z.toNat ∧ writeToArray20 z = beBytes 20 z.toNat ∧
    writeToSlice z dest = beBytes (min dest.length 32) z.toNat ++ dest.drop 32 := by
  refine ⟨bytes32_eq z, bytes20_eq z, paddedBytes_eq z n, writeToArray32_eq z, writeToArray20_eq z, ?_⟩
  rw [writeToSlice_eq]
  congr 1
  by_cases h : dest.length ≤ 32
  · rw [min_eq_left h, List.drop_length, List.drop_eq_nil_of_le h]
  · rw [min_eq_right (by omega)]

/-- `beBytes n v` has `n` bytes and value `v` modulo 256^n; it is the only such byte string. -/
theorem C10_beBytes (n v : Nat) : (beBytes n v).length = n ∧ beVal (beBytes n v) = v % 256 ^ n ∧
    ∀ l : List Byte, l.length = n → beVal l = v % 256 ^ n → l = beBytes n v := by
  refine ⟨beBytes_length n v, beVal_beBytes n v, ?_⟩
  intro l hl hv
  have h1 := beBytes_beVal l
  have h2 := beBytes_beVal (beBytes n v)
  rw [beVal_beBytes, beBytes_length] at h2
  rw [← h1, hl, hv, h2]

/-- `Bytes` is the shortest encoding: no leading zero byte. -/
theorem C10_bytes (z : U256) : Minimal (bytes z) z.toNat := bytes_minimal z

/-- Decoding undoes encoding, and encoding undoes decoding. -/
theorem C10_roundtrip (z : U256) (n : Nat) (hn : 32 ≤ n) (b : List Byte) (hb : b.length ≤ 32) :
    setBytes (bytes z) = .ok z ∧ setBytes (bytes32 z) = .ok z ∧ setBytes (paddedBytes z n) = .ok z ∧
    (∃ y, setBytes b = .ok y ∧ paddedBytes y b.length = b) := by
  have key : ∀ l : List Byte, beVal (l.drop (l.length - 32)) = z.toNat → setBytes l = .ok z := by
    intro l hl
    obtain ⟨y, h1, h2⟩ := setBytes_spec l
    rw [h1, toNat_inj.1 (h2.trans hl)]
  have h32 : z.toNat % 256 ^ 32 = z.toNat := Nat.mod_eq_of_lt (lt_of_lt_of_eq (toNat_lt z) (by norm_num))
  refine ⟨key _ ?_, key _ ?_, key _ ?_, ?_⟩
  · have hl : (bytes z).length ≤ 32 := by rw [bytes_eq, beBytes_length]; exact (byteLen_spec z).1
    rw [show (bytes z).length - 32 = 0 by omega, List.drop_zero]
    exact (bytes_minimal z).1
  · rw [bytes32_eq, beBytes_length, Nat.sub_self, List.drop_zero, beVal_beBytes, h32]
  · rw [paddedBytes_eq, beBytes_length]
    conv_lhs => rw [show n = (n - 32) + 32 by omega, Nat.add_sub_cancel, beBytes_drop]
    rw [beVal_beBytes, h32]
  · obtain ⟨y, h1, h2⟩ := setBytes_spec b
    refine ⟨y, h1, ?_⟩
    rw [paddedBytes_eq, h2, show b.length - 32 = 0 by omega, List.drop_zero, beBytes_beVal]

/-- The length-specific decoders read exactly their number of leading bytes and panic on shorter input. -/
theorem C10_decoders (b : List Byte) : ∀ d ∈ ([
      (1, setBytes1), (2, setBytes2), (3, setBytes3), (4, setBytes4), (5, setBytes5), (6, setBytes6), (7, setBytes7),
      (8, setBytes8), (9, setBytes9), (10, setBytes10), (11, setBytes11), (12, setBytes12), (13, setBytes13), (14,
      setBytes14), (15, setBytes15), (16, setBytes16), (17, setBytes17), (18, setBytes18), (19, setBytes19), (20,
      setBytes20), (21, setBytes21), (22, setBytes22), (23, setBytes23), (24, setBytes24), (25, setBytes25), (26,
      setBytes26), (27, setBytes27), (28, setBytes28), (29, setBytes29), (30, setBytes30), (31, setBytes31), (32,
      setBytes32)] : List (Nat × (List Byte → Go U256))),
    (d.1 ≤ b.length → ∃ z, d.2 b = .ok z ∧ z.toNat = beVal (b.take d.1)) ∧ (b.length < d.1 → d.2 b = .error .panic) :=
  List.forall_mem_cons.2 ⟨⟨setBytes1_ok b, setBytes1_panic b⟩, List.forall_mem_cons.2 ⟨⟨setBytes2_ok b, setBytes2_panic
  b⟩, List.forall_mem_cons.2 ⟨⟨setBytes3_ok b, setBytes3_panic b⟩, List.forall_mem_cons.2 ⟨⟨setBytes4_ok b,
  setBytes4_panic b⟩, List.forall_mem_cons.2 ⟨⟨setBytes5_ok b, setBytes5_panic b⟩, List.forall_mem_cons.2
  ⟨⟨setBytes6_ok b, setBytes6_panic b⟩, List.forall_mem_cons.2 ⟨⟨setBytes7_ok b, setBytes7_panic b⟩,
  List.forall_mem_cons.2 ⟨⟨setBytes8_ok b, setBytes8_panic b⟩, List.forall_mem_cons.2 ⟨⟨setBytes9_ok b, setBytes9_panic
  b⟩, List.forall_mem_cons.2 ⟨⟨setBytes10_ok b, setBytes10_panic b⟩, List.forall_mem_cons.2 ⟨⟨setBytes11_ok b,
  setBytes11_panic b⟩, List.forall_mem_cons.2 ⟨⟨setBytes12_ok b, setBytes12_panic b⟩, List.forall_mem_cons.2
  ⟨⟨setBytes13_ok b, setBytes13_panic b⟩, List.forall_mem_cons.2 ⟨⟨setBytes14_ok b, setBytes14_panic b⟩,
  List.forall_mem_cons.2 ⟨⟨setBytes15_ok b, setBytes15_panic b⟩, List.forall_mem_cons.2 ⟨⟨setBytes16_ok b,
  setBytes16_panic b⟩, List.forall_mem_cons.2 ⟨⟨setBytes17_ok b, setBytes17_panic b⟩, List.forall_mem_cons.2
  ⟨⟨setBytes18_ok b, setBytes18_panic b⟩, List.forall_mem_cons.2 ⟨⟨setBytes19_ok b, setBytes19_panic b⟩,
  List.forall_mem_cons.2 ⟨⟨setBytes20_ok b, setBytes20_panic b⟩, List.forall_mem_cons.2 ⟨⟨setBytes21_ok b,
  setBytes21_panic b⟩, List.forall_mem_cons.2 ⟨⟨setBytes22_ok b, setBytes22_panic b⟩, List.forall_mem_cons.2
  ⟨⟨setBytes23_ok b, setBytes23_panic b⟩, List.forall_mem_cons.2 ⟨⟨setBytes24_ok b, setBytes24_panic b⟩,
  List.forall_mem_cons.2 ⟨⟨setBytes25_ok b, setBytes25_panic b⟩, List.forall_mem_cons.2 ⟨⟨setBytes26_ok b,
  setBytes26_panic b⟩, List.forall_mem_cons.2 ⟨⟨setBytes27_ok b, setBytes27_panic b⟩, List.forall_mem_cons.2
  ⟨⟨setBytes28_ok b, setBytes28_panic b⟩, List.forall_mem_cons.2 ⟨⟨setBytes29_ok b, setBytes29_panic b⟩,
  List.forall_mem_cons.2 ⟨⟨setBytes30_ok b, setBytes30_panic b⟩, List.forall_mem_cons.2 ⟨⟨setBytes31_ok b,
  setBytes31_panic b⟩, List.forall_mem_cons.2 ⟨⟨setBytes32_ok b, setBytes32_panic b⟩, List.forall_mem_nil
  _⟩⟩⟩⟩⟩⟩⟩⟩⟩⟩⟩⟩⟩⟩⟩⟩⟩⟩⟩⟩⟩⟩⟩⟩⟩⟩⟩⟩⟩⟩⟩⟩

example : setBytes [1, 2, 3] = .ok (ofNat 0x010203) ∧ bytes (ofNat 0x010203) = [1, 2, 3] := by decide +kernel

/-! ## C11 -/

/-- Conversions to and from math/big. -/
theorem C11_big (z : U256) (b : Int) :
    toBig z = z.toNat ∧ sToBig z = z.toInt ∧
    ((fromBig b).1.toNat : Int) = b % 2 ^ 256 ∧ ((fromBig b).2 = true ↔ 2 ^ 256 ≤ |b|) ∧
    (fromBig (toBig z)) = (z, false) ∧ (fromBig (sToBig z)) = (z, false) := by
  have hz := toNat_lt z
  have hi := toInt_range z
  have hab : ∀ b : Int, (fromBig b).2 = true ↔ 2 ^ 256 ≤ |b| := by
    intro b
    rw [fromBig_overflow, Int.abs_eq_natAbs]
    omega
  have key : ∀ b : Int, b % 2 ^ 256 = z.toNat → |b| < 2 ^ 256 → fromBig b = (z, false) := by
    intro b h1 h2
    apply Prod.ext
    · apply toNat_inj.1
      have := fromBig_value b
      rw [h1] at this
      exact_mod_cast this
    · cases hc : (fromBig b).2 with
      | false => rfl
      | true => have := (hab b).1 hc; omega
  refine ⟨toBig_eq z, sToBig_eq z, fromBig_value b, hab b, key _ ?_ ?_, key _ ?_ ?_⟩
  · rw [toBig_eq]; omega
  · rw [toBig_eq, abs_of_nonneg (by omega)]; omega
  · rw [sToBig_eq, toInt_emod]
  · rw [sToBig_eq, abs_lt]; omega

example : sToBig (neg (ofWord 5)) = -5 ∧ fromBig (-5) = (neg (ofWord 5), false) ∧ (fromBig (2 ^ 256)).2 = true ∧
    (fromBig (-2 ^ 256 + 1)).2 = false := by
  refine ⟨by decide +kernel, ?_, ?_, ?_⟩
  · have := (C11_big (neg (ofWord 5)) 0).2.2.2.2.2
    rwa [show sToBig (neg (ofWord 5)) = -5 by decide +kernel] at this
  · exact ((C11_big zero (2 ^ 256)).2.2.2.1).2 (by norm_num)
  · have := ((C11_big zero (-2 ^ 256 + 1)).2.2.2.1)
    norm_num at this ⊢
    exact this

/-! ## C59 -/

/-- `EncodeRLP` writes the RLP encoding of the shortest big-endian byte string of the number. -/
theorem C59_rlp (z : U256) : ∃ b : List Byte, Minimal b z.toNat ∧ b.length ≤ 32 ∧ encodeRLP z = rlpString b :=
  ⟨bytes z, bytes_minimal z, by rw [bytes_eq, beBytes_length]; exact (byteLen_spec z).1, encodeRLP_eq z⟩

example : encodeRLP zero = [0x80] ∧ encodeRLP (ofWord 5) = [5] ∧ encodeRLP (ofWord 128) = [0x81, 0x80] ∧
    encodeRLP (ofWord 1024) = [0x82, 4, 0] := by decide +kernel

end Props
end Uni
