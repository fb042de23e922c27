import Verif.Proofs.Fuzz
import Verif.Proofs.FuzzDetect
import Verif.Props.InPlace
import Verif.Props.Conversion
/-!
# Property C108: the fuzz harness never reports a failure

`uint256/fuzz.go` compares the 256-bit methods with `math/big` on random inputs and panics when they disagree, when a method
changes an operand, or when it does not return its receiver.  The harness can only try some inputs.  Here it is run on all of
them: it never panics.  (`Model/Fuzz.lean`: the harness; `m h` is the result of the program `m` on the memory `h`.)
-/
namespace Uni
namespace Props
open U256 Spec InPlace Fuzz

/-- C108: what the check of a method with one operand amounts to.  For a method that computes `f`, in place or not, it
finishes if `f` of the input is the result of `math/big` modulo 2^256, and panics if it is not. -/
theorem C108_unary_check (op : Nat → Nat → HM Nat) (f : U256 → U256) (ho : Computes1 op f) (big : Int → Int) (a : U256) (h : Heap) :
    (((f a).toNat : Int) = big a.toNat % 2 ^ 256 → ∃ h', checkUnaryOp op big a h = .ok ((), h')) ∧
    (((f a).toNat : Int) ≠ big a.toNat % 2 ^ 256 → checkUnaryOp op big a h = .error .panic) := by
  obtain ⟨e, _, e', _⟩ := C11_big a (big a.toNat)
  rw [← e', ← e]
  constructor
  · intro hf
    obtain ⟨h', e, _⟩ := unary_pass ho h (toNat_inj.1 (by exact_mod_cast hf))
    exact ⟨h', e⟩
  · intro hf
    exact unary_report ho h (fun hc => hf (by rw [hc]))

/-- C108: the same for two operands. -/
theorem C108_dual_check (op : Nat → Nat → Nat → HM Nat) (f : U256 → U256 → U256) (ho : Computes2 op f) (big : Int → Int → Int)
    (a b : U256) (h : Heap) :
    (((f a b).toNat : Int) = big a.toNat b.toNat % 2 ^ 256 → ∃ h', checkDualArgOp op big a b h = .ok ((), h')) ∧
    (((f a b).toNat : Int) ≠ big a.toNat b.toNat % 2 ^ 256 → checkDualArgOp op big a b h = .error .panic) := by
  obtain ⟨e, _, e', _⟩ := C11_big a (big a.toNat b.toNat)
  obtain ⟨e2, _⟩ := C11_big b 0
  rw [← e', ← e, ← e2]
  constructor
  · intro hf
    obtain ⟨h', e, _⟩ := (dual_check ho h).1 (toNat_inj.1 (by exact_mod_cast hf))
    exact ⟨h', e⟩
  · intro hf
    exact (dual_check ho h).2 (fun hc => hf (by rw [hc]))

/-- C108: the same for three operands. -/
theorem C108_three_check (op : Nat → Nat → Nat → Nat → HM Nat) (f : U256 → U256 → U256 → U256) (ho : Computes3 op f)
    (big : Int → Int → Int → Int) (a b c : U256) (h : Heap) :
    (((f a b c).toNat : Int) = big a.toNat b.toNat c.toNat % 2 ^ 256 → ∃ h', checkThreeArgOp op big a b c h = .ok ((), h')) ∧
    (((f a b c).toNat : Int) ≠ big a.toNat b.toNat c.toNat % 2 ^ 256 → checkThreeArgOp op big a b c h = .error .panic) := by
  obtain ⟨e, _, e', _⟩ := C11_big a (big a.toNat b.toNat c.toNat)
  obtain ⟨e2, _⟩ := C11_big b 0
  obtain ⟨e3, _⟩ := C11_big c 0
  rw [← e', ← e, ← e2, ← e3]
  constructor
  · intro hf
    obtain ⟨h', e, _⟩ := (three_check ho h).1 (toNat_inj.1 (by exact_mod_cast hf))
    exact ⟨h', e⟩
  · intro hf
    exact (three_check ho h).2 (fun hc => hf (by rw [hc]))

theorem returned {m : HM Unit} {h : Heap} {z : Nat} {P : U256 → Unit → Prop} {w : U256} (hl : Leaves m h z P)
    (hp : ∀ v, P v () → v = w) : Stores (m >>= fun _ => (pure z : HM Nat)) h z w z := by
  obtain ⟨_, h', e, e1, e2, e3⟩ := hl
  refine ⟨h', ?_, e1, hp _ e2, e3⟩
  rw [InPlace.bind_ok e]; rfl

theorem eq_ofNat {v : U256} {n : Nat} (h : v.toNat = n) : v = ofNat n := by
  have := toNat_lt v
  rw [← toNat_inj, toNat_ofNat, ← h, Nat.mod_eq_of_lt this]

theorem sqrt_computes : Computes1 (method1 sqrt) (fun x => ofNat (Nat.sqrt x.toNat)) := by
  intro h z x hz hx
  refine returned (C71_exp_sqrt_set h z x x 0 hz hx hx).2.1 fun v hv => eq_ofNat ?_
  exact (Nat.eq_sqrt.2 hv)

theorem add_computes : Computes2 (method2 add) (fun x y => ofNat ((x.toNat + y.toNat) % 2 ^ 256)) := by
  intro h z x y hz hx hy
  exact returned (C71_add_sub h z x y 0 hz hx).1 fun v hv => eq_ofNat hv

theorem sub_computes : Computes2 (method2 sub) (fun x y => ofNat ((x.toNat - y.toNat : Int) % 2 ^ 256).toNat) := by
  intro h z x y hz hx hy
  refine returned (C71_add_sub h z x y 0 hz hx).2.1 fun v hv => eq_ofNat ?_
  rw [← hv]; rfl

theorem mul_computes : Computes2 (method2 mul) (fun x y => ofNat (x.toNat * y.toNat % 2 ^ 256)) := by
  intro h z x y hz hx hy
  exact returned (C71_mul h z x y).1 fun v hv => eq_ofNat hv

theorem div_computes : Computes2 (method2 div) (fun x y => ofNat (x.toNat / y.toNat)) := by
  intro h z x y hz hx hy
  exact returned (C71_div_mod h z x y hz hx hy).1 fun v hv => eq_ofNat hv

theorem mod_computes : Computes2 (method2 mod) (fun x y => ofNat (if y.toNat = 0 then 0 else x.toNat % y.toNat)) := by
  intro h z x y hz hx hy
  exact returned (C71_div_mod h z x y hz hx hy).2.1 fun v hv => eq_ofNat hv

theorem lsh_computes : Computes2 lshOp (fun x y => ofNat (x.toNat * 2 ^ (y.toNat % 2 ^ 64) % 2 ^ 256)) := by
  intro h z x y hz hx hy
  have hn : (h.cell y).w0.toNat = (h.cell y).toNat % 2 ^ 64 := by
    have := toNat_lt (h.cell y)
    unfold U256.toNat
    omega
  have := returned (C71_shifts h z x (h.cell y).w0.toNat).1 (w := ofNat ((h.cell x).toNat * 2 ^ ((h.cell y).toNat % 2 ^ 64) % 2 ^ 256))
    fun v hv => eq_ofNat (by rw [hv, hn])
  exact this

theorem mulMod_computes (fuel : Nat) (hf : 9 ≤ fuel) : Computes3 (method3 (mulMod fuel))
    (fun x y m => ofNat (if m.toNat = 0 then 0 else x.toNat * y.toNat % m.toNat)) := by
  intro h z x y m hz hx hy hm
  exact returned (C71_modular h z x y m fuel hf hz hx hy hm).2.1 fun v hv => eq_ofNat hv

theorem addMod_computes : Computes3 (method3 addMod)
    (fun x y m => ofNat (if m.toNat = 0 then 0 else (x.toNat + y.toNat) % m.toNat)) := by
  intro h z x y m hz hx hy hm
  exact returned (C71_modular h z x y m 9 (le_refl _) hz hx hy hm).1 fun v hv => eq_ofNat hv

/-- C108: `Sqrt` passes its check on every input. -/
theorem C108_sqrt (a : U256) (h : Heap) : ∃ h', checkUnaryOp (method1 sqrt) bigSqrt a h = .ok ((), h') := by
  refine (C108_unary_check _ _ sqrt_computes bigSqrt a h).1 ?_
  have ha := toNat_lt a
  have hs : Nat.sqrt a.toNat < 2 ^ 256 := lt_of_le_of_lt (Nat.sqrt_le_self _) ha
  rw [toNat_ofNat_of_lt hs]
  unfold bigSqrt
  rw [Int.toNat_natCast, Int.emod_eq_of_lt (by positivity) (by exact_mod_cast hs)]

/-- C108: `Div`, `Mod`, `Mul`, `Lsh`, `Add` and `Sub` pass their checks on every pair of inputs (with a divisor that is not zero). -/
theorem C108_binary_methods (a b : U256) (h : Heap) :
    (b.toNat ≠ 0 → (∃ h', checkDualArgOp (method2 div) (fun x y => Int.ediv x y) a b h = .ok ((), h')) ∧
      ∃ h', checkDualArgOp (method2 mod) (fun x y => Int.emod x y) a b h = .ok ((), h')) ∧
    (∃ h', checkDualArgOp (method2 mul) (fun x y => x * y) a b h = .ok ((), h')) ∧
    (∃ h', checkDualArgOp lshOp bigLsh a b h = .ok ((), h')) ∧
    (∃ h', checkDualArgOp (method2 add) (fun x y => x + y) a b h = .ok ((), h')) ∧
    ∃ h', checkDualArgOp (method2 sub) (fun x y => x - y) a b h = .ok ((), h') := by
  have ha := toNat_lt a
  have hb := toNat_lt b
  have h2 : (0 : Nat) < 2 ^ 256 := by positivity
  refine ⟨fun hz => ⟨(C108_dual_check _ _ div_computes _ a b h).1 ?_, (C108_dual_check _ _ mod_computes _ a b h).1 ?_⟩,
    (C108_dual_check _ _ mul_computes _ a b h).1 ?_, (C108_dual_check _ _ lsh_computes _ a b h).1 ?_,
    (C108_dual_check _ _ add_computes _ a b h).1 ?_, (C108_dual_check _ _ sub_computes _ a b h).1 ?_⟩
  · rw [toNat_ofNat_of_lt (lt_of_le_of_lt (Nat.div_le_self _ _) ha)]
    show ((a.toNat / b.toNat : Nat) : Int) = ((a.toNat : Int) / (b.toNat : Int)) % 2 ^ 256
    have : a.toNat / b.toNat < 2 ^ 256 := lt_of_le_of_lt (Nat.div_le_self _ _) ha
    exact_mod_cast (Nat.mod_eq_of_lt this).symm
  · rw [if_neg hz, toNat_ofNat_of_lt (lt_of_le_of_lt (Nat.mod_le _ _) ha)]
    show ((a.toNat % b.toNat : Nat) : Int) = ((a.toNat : Int) % (b.toNat : Int)) % 2 ^ 256
    have : a.toNat % b.toNat < 2 ^ 256 := lt_of_le_of_lt (Nat.mod_le _ _) ha
    exact_mod_cast (Nat.mod_eq_of_lt this).symm
  · rw [toNat_ofNat_of_lt (Nat.mod_lt _ h2)]
    push_cast; rfl
  · rw [toNat_ofNat_of_lt (Nat.mod_lt _ h2)]
    unfold bigLsh
    rw [Int.natAbs_natCast]
    dsimp only
    split_ifs with c
    · have hd : (2 : Nat) ^ 256 ∣ a.toNat * 2 ^ (b.toNat % 2 ^ 64) := Dvd.dvd.mul_left (pow_dvd_pow 2 (le_of_lt c)) _
      rw [Nat.mod_eq_zero_of_dvd hd, Int.mul_emod_left]; rfl
    · push_cast; rfl
  · rw [toNat_ofNat_of_lt (Nat.mod_lt _ h2)]
    push_cast; rfl
  · have h3 : 0 ≤ ((a.toNat : Int) - b.toNat) % 2 ^ 256 := Int.emod_nonneg _ (by positivity)
    have h4 : ((a.toNat : Int) - b.toNat) % 2 ^ 256 < 2 ^ 256 := Int.emod_lt_of_pos _ (by positivity)
    rw [toNat_ofNat_of_lt (by zify; rw [Int.toNat_of_nonneg h3]; exact h4), Int.toNat_of_nonneg h3]

/-- C108: `MulMod` and `AddMod` pass their checks on all inputs with a modulus that is not zero. -/
theorem C108_ternary_methods (a b m : U256) (hm : m.toNat ≠ 0) (fuel : Nat) (hf : 9 ≤ fuel) (h : Heap) :
    (∃ h', checkThreeArgOp (method3 (mulMod fuel)) bigMulMod a b m h = .ok ((), h')) ∧
    ∃ h', checkThreeArgOp (method3 addMod) bigAddMod a b m h = .ok ((), h') := by
  have h1 := toNat_lt m
  have key : ∀ n : Nat, ((ofNat (if m.toNat = 0 then 0 else n % m.toNat)).toNat : Int) = ((n : Int) % (m.toNat : Int)) % 2 ^ 256 := by
    intro n
    have : n % m.toNat < 2 ^ 256 := lt_trans (Nat.mod_lt _ (Nat.pos_of_ne_zero hm)) h1
    rw [if_neg hm, toNat_ofNat_of_lt this]
    exact_mod_cast (Nat.mod_eq_of_lt this).symm
  refine ⟨(C108_three_check _ _ (mulMod_computes fuel hf) _ a b m h).1 ?_, (C108_three_check _ _ addMod_computes _ a b m h).1 ?_⟩
  · rw [key]; push_cast; rfl
  · rw [key]; push_cast; rfl

theorem sl_ok (b : List Byte) {i j : Nat} (h : j ≤ b.length) : sl b i j = .ok ((b.drop i).take (j - i)) := by
  unfold sl; rw [if_pos h]

theorem lift_step {α β : Type} (a : α) (f : α → HM β) (h : Heap) : (lift (.ok a) >>= f) h = f a h := rfl

theorem decode (b : List Byte) {i j : Nat} (h : j ≤ b.length) :
    ∃ v, (do setBytes (← sl b i j) : Go U256) = .ok v ∧ v.toNat = beVal (((b.drop i).take (j - i)).drop (((b.drop i).take (j - i)).length - 32)) := by
  obtain ⟨v, e, ev⟩ := C10_setBytes ((b.drop i).take (j - i))
  refine ⟨v, ?_, ev⟩
  rw [sl_ok b h]; exact e

/-- C108: the fuzz target returns normally on every input: 0 if there are fewer than 32 bytes, else 1. -/
theorem C108_fuzz (data : List Byte) (h : Heap) : ∃ h', fuzz data h = .ok (if data.length < 32 then 0 else 1, h') := by
  unfold fuzz
  split_ifs with c
  · exact ⟨h, rfl⟩
  · unfold fuzzUnaryOp
    obtain ⟨h1, e1, x1, _, _⟩ := new_step zero _ h
    rw [e1]
    obtain ⟨v, e2, _⟩ := decode data (i := 0) (j := 32) (by omega)
    rw [e2, lift_step]
    obtain ⟨h3, e3, x3, _⟩ := write_step _ h1 x1.1 (store_eq h.next v h1)
    rw [e3, load_step _ h3 x3]
    obtain ⟨h4, e4⟩ := C108_sqrt v h3
    rw [InPlace.bind_ok e4]
    exact ⟨h4, rfl⟩

theorem dual_keep {op : Nat → Nat → Nat → HM Nat} {f : U256 → U256 → U256} (ho : Computes2 op f) {big : Int → Int → Int} {a b : U256}
    {h h' : Heap} (e : checkDualArgOp op big a b h = .ok ((), h')) {q : Nat} {w : U256} (hq : Holds h q w) : Holds h' q w := by
  by_cases hf : f a b = (fromBig (big (toBig a) (toBig b))).1
  · obtain ⟨h2, e2, k⟩ := (dual_check ho h).1 hf
    rw [e] at e2
    cases e2
    exact k _ _ hq
  · rw [(dual_check ho h).2 hf] at e; cases e

theorem three_keep {op : Nat → Nat → Nat → Nat → HM Nat} {f : U256 → U256 → U256 → U256} (ho : Computes3 op f)
    {big : Int → Int → Int → Int} {a b c : U256} {h h' : Heap} (e : checkThreeArgOp op big a b c h = .ok ((), h')) {q : Nat} {w : U256}
    (hq : Holds h q w) : Holds h' q w := by
  by_cases hf : f a b c = (fromBig (big (toBig a) (toBig b) (toBig c))).1
  · obtain ⟨h2, e2, k⟩ := (three_check ho h).1 hf
    rw [e] at e2
    cases e2
    exact k _ _ hq
  · rw [(three_check ho h).2 hf] at e; cases e

/-- C108: the check of the binary methods returns normally on every input of at least 32 bytes. -/
theorem C108_fuzz_binary (data : List Byte) (hd : 32 ≤ data.length) (h : Heap) : ∃ h', fuzzBinaryOp data h = .ok (1, h') := by
  unfold fuzzBinaryOp
  obtain ⟨h1, e1, x1, n1, _⟩ := new_step zero _ h
  rw [e1]
  generalize h.next = x at *
  obtain ⟨h2, e2, y2, _, k2⟩ := new_step zero _ h1
  rw [e2]
  have x2 := k2 _ _ x1
  have xy : x ≠ h1.next := by omega
  generalize h1.next = y at *
  obtain ⟨a, ea, _⟩ := decode data (i := 0) (j := 32) hd
  obtain ⟨b, eb, _⟩ := decode data (i := 32) (j := data.length) le_rfl
  rw [ea, lift_step]
  obtain ⟨h3, e3, x3, k3⟩ := write_step _ h2 x2.1 (store_eq x a h2)
  rw [e3, eb, lift_step]
  have y3 := k3 _ _ xy.symm y2
  obtain ⟨h4, e4, y4, k4⟩ := write_step _ h3 y3.1 (store_eq y b h3)
  rw [e4]
  have x4 := k4 _ _ xy x3
  rw [load_step _ h4 y4]
  have rest : ∀ H : Heap, Holds H x a → Holds H y b → ∃ h', ((do
      checkDualArgOp (method2 mul) (fun a b => a * b) (← load x) (← load y)
      checkDualArgOp lshOp bigLsh (← load x) (← load y)
      checkDualArgOp (method2 add) (fun a b => a + b) (← load x) (← load y)
      checkDualArgOp (method2 sub) (fun a b => a - b) (← load x) (← load y)
      return 1 : HM Int)) H = .ok (1, h') := by
    intro H hx hy
    obtain ⟨_, ⟨H1, f1⟩, _⟩ := C108_binary_methods a b H
    have x1 := dual_keep mul_computes f1 hx
    have y1 := dual_keep mul_computes f1 hy
    rw [load_step _ H hx, load_step _ H hy, InPlace.bind_ok f1]
    obtain ⟨_, _, ⟨H2, f2⟩, _⟩ := C108_binary_methods a b H1
    have x2 := dual_keep lsh_computes f2 x1
    have y2 := dual_keep lsh_computes f2 y1
    rw [load_step _ H1 x1, load_step _ H1 y1, InPlace.bind_ok f2]
    obtain ⟨_, _, _, ⟨H3, f3⟩, _⟩ := C108_binary_methods a b H2
    have x3 := dual_keep add_computes f3 x2
    have y3 := dual_keep add_computes f3 y2
    rw [load_step _ H2 x2, load_step _ H2 y2, InPlace.bind_ok f3]
    obtain ⟨_, _, _, _, H4, f4⟩ := C108_binary_methods a b H3
    rw [load_step _ H3 x3, load_step _ H3 y3, InPlace.bind_ok f4]
    exact ⟨H4, rfl⟩
  by_cases hz : b.isZero = true
  · rw [hz]
    exact rest h4 x4 y4
  · rw [Bool.not_eq_true] at hz
    rw [hz]
    have hb : b.toNat ≠ 0 := fun hc => by rw [(isZero_iff b).2 hc] at hz; cases hz
    obtain ⟨⟨h5, e5⟩, _⟩ := (C108_binary_methods a b h4).1 hb
    have x5 := dual_keep div_computes e5 x4
    have y5 := dual_keep div_computes e5 y4
    obtain ⟨_, h6, e6⟩ := (C108_binary_methods a b h5).1 hb
    have x6 := dual_keep mod_computes e6 x5
    have y6 := dual_keep mod_computes e6 y5
    have first : ((whenM (!false) (do
        checkDualArgOp (method2 div) (fun a b => Int.ediv a b) (← load x) (← load y)
        checkDualArgOp (method2 mod) (fun a b => Int.emod a b) (← load x) (← load y)))) h4 = .ok ((), h6) := by
      show ((do
        checkDualArgOp (method2 div) (fun a b => Int.ediv a b) (← load x) (← load y)
        checkDualArgOp (method2 mod) (fun a b => Int.emod a b) (← load x) (← load y) : HM Unit)) h4 = .ok ((), h6)
      rw [load_step _ h4 x4, load_step _ h4 y4, InPlace.bind_ok e5, load_step _ h5 x5, load_step _ h5 y5, e6]
    rw [InPlace.bind_ok first]
    exact rest h6 x6 y6

/-- C108: the check of the ternary methods returns normally on every input of at least 64 bytes; it returns 0 if the modulus, that is
the number in the bytes after the first 64, is zero, else 1. -/
theorem C108_fuzz_ternary (data : List Byte) (hd : 64 ≤ data.length) (fuel : Nat) (hf : 9 ≤ fuel) (h : Heap) :
    ∃ h', fuzzTernaryOp fuel data h =
      .ok (if beVal ((data.drop 64).drop ((data.drop 64).length - 32)) = 0 then 0 else 1, h') := by
  unfold fuzzTernaryOp
  obtain ⟨h1, e1, x1, n1, _⟩ := new_step zero _ h
  rw [e1]
  generalize h.next = x at *
  obtain ⟨h2, e2, y2, n2, k2⟩ := new_step zero _ h1
  rw [e2]
  have x2 := k2 _ _ x1
  have xy : x < h1.next := by omega
  generalize h1.next = y at *
  obtain ⟨h3, e3, z3, _, k3⟩ := new_step zero _ h2
  rw [e3]
  have x3 := k3 _ _ x2
  have y3 := k3 _ _ y2
  have yz : y < h2.next := by omega
  generalize h2.next = z at *
  obtain ⟨a, ea, _⟩ := decode data (i := 0) (j := 32) (by omega)
  obtain ⟨b, eb, _⟩ := decode data (i := 32) (j := 64) hd
  obtain ⟨c, ec, hc⟩ := decode data (i := 64) (j := data.length) le_rfl
  rw [List.take_of_length_le (by rw [List.length_drop])] at hc
  rw [← hc, ea, lift_step]
  obtain ⟨h4, e4, x4, k4⟩ := write_step _ h3 x3.1 (store_eq x a h3)
  rw [e4, eb, lift_step]
  have y4 := k4 _ _ (by omega) y3
  have z4 := k4 _ _ (by omega) z3
  obtain ⟨h5, e5, y5, k5⟩ := write_step _ h4 y4.1 (store_eq y b h4)
  rw [e5, ec, lift_step]
  have x5 := k5 _ _ (by omega) x4
  have z5 := k5 _ _ (by omega) z4
  obtain ⟨h6, e6, z6, k6⟩ := write_step _ h5 z5.1 (store_eq z c h5)
  rw [e6, load_step _ h6 z6]
  have x6 := k6 _ _ (by omega) x5
  have y6 := k6 _ _ (by omega) y5
  by_cases h0 : c.toNat = 0
  · rw [if_pos h0, if_pos ((isZero_iff c).2 h0)]
    exact ⟨h6, rfl⟩
  · rw [if_neg h0, if_neg (fun hc => h0 ((isZero_iff c).1 hc))]
    obtain ⟨⟨h7, e7⟩, _⟩ := C108_ternary_methods a b c h0 fuel hf h6
    have x7 := three_keep (mulMod_computes fuel hf) e7 x6
    have y7 := three_keep (mulMod_computes fuel hf) e7 y6
    have z7 := three_keep (mulMod_computes fuel hf) e7 z6
    obtain ⟨_, h8, e8⟩ := C108_ternary_methods a b c h0 fuel hf h7
    rw [load_step _ h6 x6, load_step _ h6 y6, load_step _ h6 z6, InPlace.bind_ok e7, load_step _ h7 x7, load_step _ h7 y7,
      load_step _ h7 z7, InPlace.bind_ok e8]
    exact ⟨h8, rfl⟩

/-- C108: on shorter inputs the two functions panic when they slice the input. -/
theorem C108_short (data : List Byte) (fuel : Nat) (h : Heap) : (data.length < 32 → fuzzBinaryOp data h = .error .panic) ∧
    (data.length < 64 → fuzzTernaryOp fuel data h = .error .panic) := by
  constructor
  · intro hd
    unfold fuzzBinaryOp
    rw [InPlace.bind_ok (new_eq zero h), InPlace.bind_ok (new_eq zero _)]
    have : sl data 0 32 = .error .panic := by unfold sl; rw [if_neg (by omega)]
    rw [this]; rfl
  · intro hd
    unfold fuzzTernaryOp
    obtain ⟨h1, e1, x1, n1, _⟩ := new_step zero _ h
    rw [e1]
    obtain ⟨h2, e2, y2, n2, k2⟩ := new_step zero _ h1
    rw [e2]
    obtain ⟨h3, e3, z3, _, k3⟩ := new_step zero _ h2
    rw [e3]
    have x3 := k3 _ _ (k2 _ _ x1)
    by_cases c : data.length < 32
    · have : sl data 0 32 = .error .panic := by unfold sl; rw [if_neg (by omega)]
      rw [this]; rfl
    · obtain ⟨a, ea, _⟩ := decode data (i := 0) (j := 32) (by omega)
      rw [ea, lift_step]
      obtain ⟨h4, e4, x4, k4⟩ := write_step _ h3 x3.1 (store_eq h.next a h3)
      rw [e4]
      have : sl data 32 64 = .error .panic := by unfold sl; rw [if_neg (by omega)]
      rw [this]; rfl

/-- C108: what a check of a method with one operand finds, whatever the method is: if the check finishes, the method gave the result
of `math/big` modulo 2^256 in three runs, with a new receiver, with a receiver that holds another number, and in place;
it returned its receiver; and in the first run it left the operand alone. -/
theorem C108_unary_finds (op : Nat → Nat → HM Nat) (big : Int → Int) (a : U256) (h h' : Heap)
    (e : checkUnaryOp op big a h = .ok ((), h')) : ∃ v : U256, (v.toNat : Int) = big a.toNat % 2 ^ 256 ∧ Tested1 op a v := by
  obtain ⟨e1, _, e2, _⟩ := C11_big a (big (toBig a))
  exact ⟨_, by rw [e2, e1], unary_detect e⟩

/-- C108: the same for a method with two operands that changes no numbers but its operands and its receiver. -/
theorem C108_dual_finds (op : Nat → Nat → Nat → HM Nat) (hw : ∀ z x y, Within (op z x y) [z, x, y]) (big : Int → Int → Int)
    (a b : U256) (h h' : Heap) (e : checkDualArgOp op big a b h = .ok ((), h')) :
    ∃ v : U256, (v.toNat : Int) = big a.toNat b.toNat % 2 ^ 256 ∧ Tested2 op a b v := by
  obtain ⟨e1, _, e2, _⟩ := C11_big a (big (toBig a) (toBig b))
  obtain ⟨e3, _⟩ := C11_big b 0
  exact ⟨_, by rw [e2, e1, e3], dual_detect hw e⟩

/-- C108: the same for three operands. -/
theorem C108_three_finds (op : Nat → Nat → Nat → Nat → HM Nat) (hw : ∀ r x y z, Within (op r x y z) [r, x, y, z])
    (big : Int → Int → Int → Int) (a b c : U256) (h h' : Heap) (e : checkThreeArgOp op big a b c h = .ok ((), h')) :
    ∃ v : U256, (v.toNat : Int) = big a.toNat b.toNat c.toNat % 2 ^ 256 ∧ Tested3 op a b c v := by
  obtain ⟨e1, _, e2, _⟩ := C11_big a (big (toBig a) (toBig b) (toBig c))
  obtain ⟨e3, _⟩ := C11_big b 0
  obtain ⟨e4, _⟩ := C11_big c 0
  exact ⟨_, by rw [e2, e1, e3, e4], three_detect hw e⟩

/-- `z = x; z = z + y`: wrong if `z` and `y` are the same pointer. -/
def hastyAdd (z x y : Nat) : HM Nat := do
  set z x
  add z z y
  return z

theorem hastyAdd_eq (z x y : Nat) (h : Heap) : hastyAdd z x y h = .ok (z, (h.write z (h.cell x)).write z
    (U256.add ((h.write z (h.cell x)).cell z) ((h.write z (h.cell x)).cell y))) := by
  unfold hastyAdd
  rw [InPlace.bind_ok (set_eq z x h), InPlace.bind_ok (add_eq z z y _)]; rfl

/-- An instance of `C108_dual_finds`: the check does not let this method pass on any two different inputs, on any memory. -/
theorem C108_hasty (a b : U256) (hab : a ≠ b) (h h' : Heap) : checkDualArgOp hastyAdd (fun x y => x + y) a b h ≠ .ok ((), h') := by
  intro e
  have hw : ∀ z x y, Within (hastyAdd z x y) [z, x, y] := by
    intro z x y h h' r e q hq hn
    rw [hastyAdd_eq] at e
    cases e
    have : q ≠ z := fun hc => hn (by simp [hc])
    rw [cell_write, if_neg this, cell_write, if_neg this]
  obtain ⟨v, hv, x, y, o, r, g, h1, h1', h2, h2', h3, h4, d1, _, _, ⟨_, _, _, _, _, ey⟩, ⟨g1, _⟩, eo, g2, g3⟩ :=
    C108_dual_finds _ hw _ a b h h' e
  have dxy : y ≠ x := by
    intro hc; subst hc; simp at d1
  have doy : o ≠ y := by
    intro hc; subst hc; simp at d1
  rw [hastyAdd_eq] at g1 g2
  cases g1
  cases g2
  rw [cell_write, if_pos rfl, cell_write, if_pos rfl, eo] at g3
  subst g3
  apply hab
  rw [toNat_add] at hv
  have h1 := toNat_lt a
  have h2 := toNat_lt b
  rw [← toNat_inj]
  push_cast at hv
  omega

/-- the hypotheses are met: the check of `Add` finishes, and `Add` changes only its receiver -/
example (a b : U256) (h : Heap) : (∃ h', checkDualArgOp (method2 add) (fun x y => x + y) a b h = .ok ((), h')) ∧
    ∀ z x y, Within (method2 add z x y) [z, x, y] := by
  refine ⟨(C108_binary_methods a b h).2.2.2.1, ?_⟩
  intro z x y h h' r e q hq hn
  have : method2 add z x y h = .ok (z, h.write z (U256.add (h.cell x) (h.cell y))) := by
    unfold method2
    rw [InPlace.bind_ok (add_eq z x y h)]; rfl
  rw [this] at e
  cases e
  have : q ≠ z := fun hc => hn (by simp [hc])
  rw [cell_write, if_neg this]

/-! ### Instances: the harness at work -/

/-- does the program panic? -/
def panics (m : HM Unit) (h : Heap) : Bool := match m h with | .error .panic => true | _ => false

/-- A method that clears its receiver before it reads the operands: right as long as the receiver is another number.  The harness
reports it, like a method that changes its operand, one that does not return its receiver, and one that is wrong at the last bit. -/
example :
    panics (checkDualArgOp (fun z x y => do clear z; add z x y; return z) (fun a b => a + b) (ofNat 7) (ofNat 9)) (demoHeap 1 2 3) = true ∧
    panics (checkDualArgOp (fun z x y => do add z x y; clear x; return z) (fun a b => a + b) (ofNat 7) (ofNat 9)) (demoHeap 1 2 3) = true ∧
    panics (checkDualArgOp (fun z x y => do add z x y; return x) (fun a b => a + b) (ofNat 7) (ofNat 9)) (demoHeap 1 2 3) = true ∧
    panics (checkUnaryOp (fun z x => do sqrt z x; addUint64 z z 1; return z) bigSqrt (ofNat (10 ^ 60))) (demoHeap 1 2 3) = true ∧
    panics (checkUnaryOp (method1 sqrt) bigSqrt (ofNat (10 ^ 60))) (demoHeap 1 2 3) = false := by
  decide +kernel

/-- the value a program returns -/
def returns (m : HM Int) (h : Heap) : Option Int := match m h with | .ok (r, _) => some r | .error _ => none

/-- 96 bytes: the three functions return 1 -/
example :
    returns (fuzz (List.replicate 96 0xa7#8)) (demoHeap 1 2 3) = some 1 ∧
    returns (fuzzBinaryOp (List.replicate 64 0xa7#8)) (demoHeap 1 2 3) = some 1 ∧
    returns (fuzzTernaryOp 9 (List.replicate 64 0xa7#8 ++ [0x01#8, 0x03#8])) (demoHeap 1 2 3) = some 1 ∧
    returns (fuzzTernaryOp 9 (List.replicate 64 0xa7#8)) (demoHeap 1 2 3) = some 0 := by
  decide +kernel

end Props
end Uni
