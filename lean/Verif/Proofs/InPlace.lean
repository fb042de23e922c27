import Verif.Spec.InPlace
import Verif.Proofs.Basic
import Mathlib.Tactic.IntervalCases
import Mathlib.Tactic.SplitIfs
/-! The methods of `Int` on memory agree with the computations on values, whatever operands coincide. -/
namespace Uni
namespace InPlace
open Spec U256

theorem bind_eq {α β : Type} (m : HM α) (f : α → HM β) (h : Heap) :
    (m >>= f) h = match m h with | .error e => .error e | .ok r => f r.1 r.2 := by
  induction m generalizing h with
  | ret a => rfl
  | fail e => rfl
  | rd x i k ih => exact ih _ h
  | wr z i w k ih => exact ih _
  | new v k ih => exact ih _ _
theorem bind_ok {α β : Type} {m : HM α} {f : α → HM β} {h h' : Heap} {a : α} (e : m h = .ok (a, h')) :
    (m >>= f) h = f a h' := by rw [bind_eq, e]
theorem bind_err {α β : Type} {m : HM α} {f : α → HM β} {h : Heap} {x : Err} (e : m h = .error x) :
    (m >>= f) h = .error x := by rw [bind_eq, e]
theorem pure_eq {α : Type} (a : α) (h : Heap) : (pure a : HM α) h = .ok (a, h) := rfl

@[simp] theorem cell_write (h : Heap) (r : Nat) (v : U256) (k : Nat) : (h.write r v).cell k = if k = r then v else h.cell k := rfl
@[simp] theorem next_write (h : Heap) (r : Nat) (v : U256) : (h.write r v).next = h.next := rfl
@[simp] theorem cell_alloc (h : Heap) (v : U256) (k : Nat) : (h.alloc v).2.cell k = if k = h.next then v else h.cell k := rfl
@[simp] theorem next_alloc (h : Heap) (v : U256) : (h.alloc v).2.next = h.next + 1 := rfl

theorem heap_ext {h h' : Heap} (hc : ∀ k, h.cell k = h'.cell k) (hn : h.next = h'.next) : h = h' := by
  cases h; cases h'; simp only at *; subst hn; congr; exact funext hc

theorem write_write (h : Heap) (r : Nat) (v w : U256) : (h.write r v).write r w = h.write r w := by
  apply heap_ext
  · intro k; simp only [cell_write]; split <;> rfl
  · rfl
theorem write_self (h : Heap) (r : Nat) : h.write r (h.cell r) = h := by
  apply heap_ext
  · intro k; simp only [cell_write]; split
    · rename_i e; rw [e]
    · rfl
  · rfl

theorem rd_eq (x : Nat) (i : Fin 4) (h : Heap) : rd x i h = .ok ((h.cell x).word i, h) := rfl
theorem wr_eq (z : Nat) (i : Fin 4) (w : Word) (h : Heap) : wr z i w h = .ok ((), h.write z ((h.cell z).setWord i w)) := rfl
theorem load_eq (x : Nat) (h : Heap) : load x h = .ok (h.cell x, h) := rfl
theorem store_eq (z : Nat) (v : U256) (h : Heap) : store z v h = .ok ((), h.write z v) := by
  unfold store
  simp only [bind_eq, wr_eq, cell_write, write_write, if_true, U256.setWord]
theorem new_eq (v : U256) (h : Heap) : new v h = .ok (h.next, (h.alloc v).2) := rfl
theorem lift_ok {α : Type} (a : α) (h : Heap) : lift (.ok a) h = .ok (a, h) := rfl
theorem lift_err {α : Type} (e : Err) (h : Heap) : (lift (.error e) : HM α) h = .error e := rfl

/-- one operand and the destination: equal or different -/
macro "alias1" x:ident z:ident : tactic => `(tactic| (
  simp only [bind_eq, pure_eq, rd_eq, wr_eq, cell_write, write_write]
  by_cases hx : $x = $z <;>
    simp only [if_true, hx, if_false, U256.word, U256.setWord]))

macro "alias2" x:ident y:ident z:ident : tactic => `(tactic| (
  simp only [bind_eq, pure_eq, rd_eq, wr_eq, cell_write, write_write]
  by_cases hx : $x = $z <;> by_cases hy : $y = $z <;>
    simp only [if_true, hx, hy, if_false, U256.word, U256.setWord]))

theorem add_eq (z x y : Nat) (h : Heap) : add z x y h = .ok ((), h.write z (U256.add (h.cell x) (h.cell y))) := by
  unfold add U256.add
  alias2 x y z

theorem addOverflow_eq (z x y : Nat) (h : Heap) : addOverflow z x y h =
    .ok ((U256.addOverflow (h.cell x) (h.cell y)).2, h.write z (U256.addOverflow (h.cell x) (h.cell y)).1) := by
  unfold addOverflow U256.addOverflow
  alias2 x y z

theorem sub_eq (z x y : Nat) (h : Heap) : sub z x y h = .ok ((), h.write z (U256.sub (h.cell x) (h.cell y))) := by
  unfold sub U256.sub
  alias2 x y z

theorem subOverflow_eq (z x y : Nat) (h : Heap) : subOverflow z x y h =
    .ok ((U256.subOverflow (h.cell x) (h.cell y)).2, h.write z (U256.subOverflow (h.cell x) (h.cell y)).1) := by
  unfold subOverflow U256.subOverflow
  alias2 x y z

theorem addUint64_eq (z x : Nat) (w : Word) (h : Heap) :
    addUint64 z x w h = .ok ((), h.write z (U256.addUint64 (h.cell x) w)) := by
  unfold addUint64 U256.addUint64
  alias1 x z

theorem subUint64_eq (z x : Nat) (w : Word) (h : Heap) :
    subUint64 z x w h = .ok ((), h.write z (U256.subUint64 (h.cell x) w)) := by
  unfold subUint64 U256.subUint64
  alias1 x z

theorem or_eq (z x y : Nat) (h : Heap) : or z x y h = .ok ((), h.write z (U256.or (h.cell x) (h.cell y))) := by
  unfold or U256.or
  alias2 x y z

theorem and_eq (z x y : Nat) (h : Heap) : and z x y h = .ok ((), h.write z (U256.and (h.cell x) (h.cell y))) := by
  unfold and U256.and
  alias2 x y z

theorem xor_eq (z x y : Nat) (h : Heap) : xor z x y h = .ok ((), h.write z (U256.xor (h.cell x) (h.cell y))) := by
  unfold xor U256.xor
  alias2 x y z

theorem set_eq (z x : Nat) (h : Heap) : set z x h = .ok ((), h.write z (h.cell x)) := by
  simp only [set, bind_eq, load_eq, store_eq, pure_eq]
theorem clear_eq (z : Nat) (h : Heap) : clear z h = .ok ((), h.write z zero) := by
  simp only [clear, bind_eq, load_eq, store_eq, pure_eq]
theorem setOne_eq (z : Nat) (h : Heap) : setOne z h = .ok ((), h.write z one) := by
  simp only [setOne, bind_eq, load_eq, store_eq, pure_eq]
theorem setAllOne_eq (z : Nat) (h : Heap) : setAllOne z h = .ok ((), h.write z allOne) := by
  simp only [setAllOne, bind_eq, load_eq, store_eq, pure_eq]
theorem setUint64_eq (z : Nat) (w : Word) (h : Heap) : setUint64 z w h = .ok ((), h.write z (ofWord w)) := by
  simp only [setUint64, bind_eq, load_eq, store_eq, pure_eq]
theorem assign_eq (f : U256 → U256) (z x : Nat) (h : Heap) : assign f z x h = .ok ((), h.write z (f (h.cell x))) := by
  simp only [assign, bind_eq, load_eq, store_eq, pure_eq]
theorem not_eq (z x : Nat) (h : Heap) : not z x h = .ok ((), h.write z (U256.not (h.cell x))) := by
  simp only [not, bind_eq, load_eq, store_eq, pure_eq, U256.not]
theorem mul_eq (z x y : Nat) (h : Heap) : mul z x y h = .ok ((), h.write z (U256.mul (h.cell x) (h.cell y))) := by
  simp only [mul, bind_eq, load_eq, store_eq, pure_eq]
theorem mulOverflow_eq (z x y : Nat) (h : Heap) : mulOverflow z x y h =
    .ok ((U256.mulOverflow (h.cell x) (h.cell y)).2, h.write z (U256.mulOverflow (h.cell x) (h.cell y)).1) := by
  simp only [mulOverflow, bind_eq, load_eq, store_eq, pure_eq]
theorem squared_eq (z : Nat) (h : Heap) : squared z h = .ok ((), h.write z (U256.squared (h.cell z))) := by
  simp only [squared, bind_eq, load_eq, store_eq, pure_eq]

theorem rsh1_eq (z : Nat) (h : Heap) : rsh1 z h = .ok ((), h.write z (U256.rsh1 (h.cell z))) := by
  unfold rsh1
  simp only [bind_eq, pure_eq, rd_eq, wr_eq, cell_write, write_write, if_true, U256.word, U256.setWord]
  rfl

theorem lshEnd192_eq (z n : Nat) (a : Word) (h : Heap) : lshEnd192 z n a h =
    .ok ((), h.write z ⟨(h.cell z).w0, (h.cell z).w1, (h.cell z).w2, ((h.cell z).w3 <<< n) ||| a⟩) := rfl
theorem lshEnd128_eq (z n : Nat) (b : Word) (h : Heap) : lshEnd128 z n b h =
    .ok ((), h.write z ⟨(h.cell z).w0, (h.cell z).w1, ((h.cell z).w2 <<< n) ||| b, ((h.cell z).w3 <<< n) ||| ((h.cell z).w2 >>> (64 - n))⟩) := by
  unfold lshEnd128
  simp only [bind_eq, rd_eq, wr_eq, lshEnd192_eq, cell_write, write_write, if_true, U256.word, U256.setWord]
theorem lshEnd64_eq (z n : Nat) (a : Word) (h : Heap) : lshEnd64 z n a h =
    .ok ((), h.write z ⟨(h.cell z).w0, ((h.cell z).w1 <<< n) ||| a, ((h.cell z).w2 <<< n) ||| ((h.cell z).w1 >>> (64 - n)), ((h.cell z).w3 <<< n) ||| ((h.cell z).w2 >>> (64 - n))⟩) := by
  unfold lshEnd64
  simp only [bind_eq, rd_eq, wr_eq, lshEnd128_eq, cell_write, write_write, if_true, U256.word, U256.setWord]

theorem lsh_eq (z x n : Nat) (h : Heap) : lsh z x n h = .ok ((), h.write z (U256.lsh (h.cell x) n)) := by
  unfold lsh U256.lsh
  split_ifs <;>
    simp only [bind_eq, rd_eq, wr_eq, set_eq, clear_eq, assign_eq, lshEnd192_eq, lshEnd128_eq, lshEnd64_eq, cell_write, write_write,
      if_true, U256.word, U256.setWord]

theorem rshEnd192_eq (z n : Nat) (a : Word) (h : Heap) : rshEnd192 z n a h =
    .ok ((), h.write z ⟨((h.cell z).w0 >>> n) ||| a, (h.cell z).w1, (h.cell z).w2, (h.cell z).w3⟩) := rfl
theorem rshEnd128_eq (z n : Nat) (b : Word) (h : Heap) : rshEnd128 z n b h =
    .ok ((), h.write z ⟨((h.cell z).w0 >>> n) ||| ((h.cell z).w1 <<< (64 - n)), ((h.cell z).w1 >>> n) ||| b, (h.cell z).w2, (h.cell z).w3⟩) := by
  unfold rshEnd128
  simp only [bind_eq, rd_eq, wr_eq, rshEnd192_eq, cell_write, write_write, if_true, U256.word, U256.setWord]
theorem rshEnd64_eq (z n : Nat) (a : Word) (h : Heap) : rshEnd64 z n a h =
    .ok ((), h.write z ⟨((h.cell z).w0 >>> n) ||| ((h.cell z).w1 <<< (64 - n)), ((h.cell z).w1 >>> n) ||| ((h.cell z).w2 <<< (64 - n)), ((h.cell z).w2 >>> n) ||| a, (h.cell z).w3⟩) := by
  unfold rshEnd64
  simp only [bind_eq, rd_eq, wr_eq, rshEnd128_eq, cell_write, write_write, if_true, U256.word, U256.setWord]

theorem rsh_eq (z x n : Nat) (h : Heap) : rsh z x n h = .ok ((), h.write z (U256.rsh (h.cell x) n)) := by
  unfold rsh U256.rsh
  split_ifs <;>
    simp only [bind_eq, rd_eq, wr_eq, set_eq, clear_eq, assign_eq, rshEnd192_eq, rshEnd128_eq, rshEnd64_eq, cell_write, write_write,
      if_true, U256.word, U256.setWord]

theorem srshEnd192_eq (z n : Nat) (a : Word) (h : Heap) : srshEnd192 z n a h =
    .ok ((), h.write z ⟨((h.cell z).w0 >>> n) ||| a, (h.cell z).w1, (h.cell z).w2, (h.cell z).w3⟩) := rfl
theorem srshEnd128_eq (z n : Nat) (b : Word) (h : Heap) : srshEnd128 z n b h =
    .ok ((), h.write z ⟨((h.cell z).w0 >>> n) ||| ((h.cell z).w1 <<< (64 - n)), ((h.cell z).w1 >>> n) ||| b, (h.cell z).w2, (h.cell z).w3⟩) := by
  unfold srshEnd128
  simp only [bind_eq, rd_eq, wr_eq, srshEnd192_eq, cell_write, write_write, if_true, U256.word, U256.setWord]
theorem srshEnd64_eq (z n : Nat) (a : Word) (h : Heap) : srshEnd64 z n a h =
    .ok ((), h.write z ⟨((h.cell z).w0 >>> n) ||| ((h.cell z).w1 <<< (64 - n)), ((h.cell z).w1 >>> n) ||| ((h.cell z).w2 <<< (64 - n)), ((h.cell z).w2 >>> n) ||| a, (h.cell z).w3⟩) := by
  unfold srshEnd64
  simp only [bind_eq, rd_eq, wr_eq, srshEnd128_eq, cell_write, write_write, if_true, U256.word, U256.setWord]

theorem srsh_eq (z x n : Nat) (h : Heap) : srsh z x n h = .ok ((), h.write z (U256.srsh (h.cell x) n)) := by
  unfold srsh U256.srsh
  simp only [bind_eq, load_eq]
  split_ifs <;>
    simp only [bind_eq, rd_eq, wr_eq, set_eq, setAllOne_eq, rsh_eq, assign_eq, srshEnd192_eq, srshEnd128_eq, srshEnd64_eq, cell_write, write_write,
      if_true, U256.word, U256.setWord]

theorem div_eq (z x y : Nat) (h : Heap) : div z x y h =
    match U256.div (h.cell x) (h.cell y) with | .error e => .error e | .ok v => .ok ((), h.write z v) := by
  unfold div U256.div
  simp only [bind_eq, load_eq]
  split_ifs
  · rw [clear_eq]
  · rw [setOne_eq]
  · rw [setUint64_eq]
  · simp only [bind_eq]
    cases udivrem [0, 0, 0, 0] (h.cell x).limbs (h.cell y)
    · rfl
    · simp only [lift_ok, store_eq]; rfl

theorem mod_eq (z x y : Nat) (h : Heap) : mod z x y h =
    match U256.mod (h.cell x) (h.cell y) with | .error e => .error e | .ok v => .ok ((), h.write z v) := by
  unfold mod U256.mod
  simp only [bind_eq, load_eq]
  split_ifs
  · rw [clear_eq]
  · rw [set_eq]
  · rw [clear_eq]
  · rw [setUint64_eq]
  · simp only [bind_eq]
    cases udivrem [0, 0, 0, 0] (h.cell x).limbs (h.cell y)
    · rfl
    · simp only [lift_ok, store_eq]; rfl

theorem mulModWithReciprocal_eq (fuel z x y m : Nat) (mu : Words5) (h : Heap) : mulModWithReciprocal fuel z x y m mu h =
    match U256.mulModWithReciprocal fuel (h.cell x) (h.cell y) (h.cell m) mu with
    | .error e => .error e | .ok v => .ok ((), h.write z v) := by
  unfold mulModWithReciprocal
  simp only [bind_eq, load_eq]
  cases U256.mulModWithReciprocal fuel (h.cell x) (h.cell y) (h.cell m) mu
  · rfl
  · simp only [lift_ok, store_eq]

theorem mulMod_eq (fuel z x y m : Nat) (h : Heap) : mulMod fuel z x y m h =
    match U256.mulMod fuel (h.cell x) (h.cell y) (h.cell m) with
    | .error e => .error e | .ok v => .ok ((), h.write z v) := by
  unfold mulMod
  simp only [bind_eq, load_eq]
  cases U256.mulMod fuel (h.cell x) (h.cell y) (h.cell m)
  · rfl
  · simp only [lift_ok, store_eq]

theorem byte_eq (z n : Nat) (h : Heap) : byte z n h = .ok ((), h.write z (U256.byte (h.cell z) (h.cell n))) := by
  unfold byte U256.byte
  simp only [bind_eq, load_eq]
  by_cases c : (!(h.cell n).uint64WithOverflow.2) = true ∧ (h.cell n).uint64WithOverflow.1.toNat < 32
  · rw [if_pos c, if_pos c]
    simp only [bind_eq, rd_eq, wr_eq, cell_write, write_write, if_true, U256.setWord]
    have hk : (h.cell n).uint64WithOverflow.1.toNat < 32 := c.2
    have e : (h.cell z).word (Fin.ofNat 4 (3 - (h.cell n).uint64WithOverflow.1.toNat / 8)) =
        if 3 - (h.cell n).uint64WithOverflow.1.toNat / 8 = 0 then (h.cell z).w0
        else if 3 - (h.cell n).uint64WithOverflow.1.toNat / 8 = 1 then (h.cell z).w1
        else if 3 - (h.cell n).uint64WithOverflow.1.toNat / 8 = 2 then (h.cell z).w2 else (h.cell z).w3 := by
      have h4 : 3 - (h.cell n).uint64WithOverflow.1.toNat / 8 < 4 := by omega
      generalize 3 - (h.cell n).uint64WithOverflow.1.toNat / 8 = k at h4
      interval_cases k <;> rfl
    rw [e]
    rfl
  · rw [if_neg c, if_neg c]
    rw [clear_eq]

/-! ### Methods with local numbers -/

theorem Stores.of_eq {α : Type} {m : HM α} {h : Heap} {z : Nat} {v : U256} {a : α} (e : m h = .ok (a, h.write z v)) :
    Stores m h z v a :=
  ⟨_, e, le_refl _, by simp, fun r _ hr => by simp [hr]⟩

/-- the call writes `v` to `z` and nothing else below `n` -/
def Below (n : Nat) {α : Type} (m : HM α) (h : Heap) (z : Nat) (v : U256) (a : α) : Prop :=
  ∃ h', m h = .ok (a, h') ∧ h.next ≤ h'.next ∧ h'.cell z = v ∧ ∀ r, r < n → r ≠ z → h'.cell r = h.cell r

theorem Stores.below {α : Type} {m : HM α} {h : Heap} {z : Nat} {v : U256} {a : α} (e : Stores m h z v a) {n : Nat} (hn : n ≤ h.next) :
    Below n m h z v a := by
  obtain ⟨h', e1, e2, e3, e4⟩ := e
  exact ⟨h', e1, e2, e3, fun r hr => e4 r (by omega)⟩

theorem neg_spec (z x : Nat) (h : Heap) (hz : z < h.next) (hx : x < h.next) :
    neg z x h = .ok ((), (h.alloc zero).2.write z (U256.neg (h.cell x))) := by
  unfold neg
  rw [bind_ok (new_eq zero h), sub_eq]
  simp only [cell_alloc, if_true, if_neg (show ¬ x = h.next by omega)]
  rfl

theorem neg_stores (z x : Nat) (h : Heap) (hz : z < h.next) (hx : x < h.next) : Stores (neg z x) h z (U256.neg (h.cell x)) () := by
  refine ⟨_, neg_spec z x h hz hx, by simp, by simp, fun r hr hrz => ?_⟩
  simp only [cell_write, hrz, if_false, cell_alloc, if_neg (show ¬ r = h.next by omega)]

theorem abs_stores (z x : Nat) (h : Heap) (hz : z < h.next) (hx : x < h.next) : Stores (abs z x) h z (U256.abs (h.cell x)) () := by
  unfold Stores abs U256.abs
  rw [bind_ok (rd_eq x 3 h)]
  by_cases c : (h.cell x).w3 < 0x8000000000000000#64
  · rw [if_pos c, if_pos (show (h.cell x).word 3 < 0x8000000000000000#64 from c)]
    exact Stores.of_eq (set_eq z x h)
  · rw [if_neg c, if_neg (show ¬ (h.cell x).word 3 < 0x8000000000000000#64 from c)]
    exact neg_stores z x h hz hx

/-- the copy used for the absolute value -/
theorem negIf_spec (b : Bool) (x : Nat) (h : Heap) (hx : x < h.next) :
    ∃ x' h', negIf b x h = .ok (x', h') ∧ h.next ≤ h'.next ∧ x' < h'.next ∧ (∀ r, r < h.next → h'.cell r = h.cell r) ∧
      h'.cell x' = if b then U256.neg (h.cell x) else h.cell x := by
  unfold negIf
  cases b
  · exact ⟨x, h, rfl, le_refl _, hx, fun _ _ => rfl, rfl⟩
  · refine ⟨h.next, ((h.alloc zero).2.alloc zero).2.write h.next (U256.neg (h.cell x)), ?_, by simp; omega, by simp; omega, ?_, by simp⟩
    · simp only [if_true]
      rw [bind_ok (new_eq zero h), bind_ok (neg_spec _ _ _ (by simp) (by simp; omega)), pure_eq]
      simp only [cell_alloc, if_neg (show ¬ x = h.next by omega)]
    · intro r hr
      simp only [cell_write, cell_alloc, next_alloc, if_neg (show ¬ r = h.next by omega), if_neg (show ¬ r = h.next + 1 by omega)]

theorem Writes.ok {m : HM Unit} {h : Heap} {z : Nat} {g : Go U256} {v : U256} (hg : g = .ok v) (hs : Stores m h z v ()) : Writes m h z g := by
  rw [hg]; exact hs
theorem Writes.err {m : HM Unit} {h : Heap} {z : Nat} {g : Go U256} {e : Err} (hg : g = .error e) (hs : m h = .error e) : Writes m h z g := by
  rw [hg]; exact hs

theorem div_fits (z x y : Nat) (h : Heap) : Writes (div z x y) h z (U256.div (h.cell x) (h.cell y)) := by
  have e := div_eq z x y h
  revert e
  cases hg : U256.div (h.cell x) (h.cell y) with
  | error e => intro e1; exact e1
  | ok v => intro e1; exact Stores.of_eq e1

theorem mod_fits (z x y : Nat) (h : Heap) : Writes (mod z x y) h z (U256.mod (h.cell x) (h.cell y)) := by
  have e := mod_eq z x y h
  revert e
  cases hg : U256.mod (h.cell x) (h.cell y) with
  | error e => intro e1; exact e1
  | ok v => intro e1; exact Stores.of_eq e1

theorem mulMod_fits (fuel z x y m : Nat) (h : Heap) :
    Writes (mulMod fuel z x y m) h z (U256.mulMod fuel (h.cell x) (h.cell y) (h.cell m)) := by
  have e := mulMod_eq fuel z x y m h
  revert e
  cases hg : U256.mulMod fuel (h.cell x) (h.cell y) (h.cell m) with
  | error e => intro e1; exact e1
  | ok v => intro e1; exact Stores.of_eq e1

theorem mulModWithReciprocal_fits (fuel z x y m : Nat) (mu : Words5) (h : Heap) :
    Writes (mulModWithReciprocal fuel z x y m mu) h z (U256.mulModWithReciprocal fuel (h.cell x) (h.cell y) (h.cell m) mu) := by
  have e := mulModWithReciprocal_eq fuel z x y m mu h
  revert e
  cases hg : U256.mulModWithReciprocal fuel (h.cell x) (h.cell y) (h.cell m) mu with
  | error e => intro e1; exact e1
  | ok v => intro e1; exact Stores.of_eq e1

/-- first allocations only, then a call, then perhaps a negation of the result -/
theorem Writes.mono {m : HM Unit} {h h1 : Heap} {z : Nat} {g : Go U256} (hn : h.next ≤ h1.next)
    (hc : ∀ r, r < h.next → h1.cell r = h.cell r) {m' : HM Unit} (e : m' h = m h1) (hf : Writes m h1 z g) : Writes m' h z g := by
  cases g with
  | error x => exact e.trans hf
  | ok v =>
    obtain ⟨h', e1, e2, e3, e4⟩ := hf
    exact ⟨h', e.trans e1, by omega, e3, fun r hr hz => (e4 r (by omega) hz).trans (hc r hr)⟩

theorem Writes.then_neg {m : HM Unit} {h : Heap} {z : Nat} {g : Go U256} (hz : z < h.next) (hf : Writes m h z g) :
    Writes (do m; neg z z) h z (do let v ← g; return U256.neg v) := by
  cases g with
  | error x => exact bind_err hf
  | ok v =>
    obtain ⟨h', e1, e2, e3, e4⟩ := hf
    obtain ⟨h2, f1, f2, f3, f4⟩ := neg_stores z z h' (by omega) (by omega)
    refine ⟨h2, (bind_ok e1).trans f1, by omega, by rw [f3, e3], fun r hr hrz => ?_⟩
    rw [f4 r (by omega) hrz, e4 r hr hrz]

theorem smod_fits (z x y : Nat) (h : Heap) (hz : z < h.next) (hx : x < h.next) (hy : y < h.next) :
    Writes (smod z x y) h z (U256.smod (h.cell x) (h.cell y)) := by
  obtain ⟨x', h1, e1, n1, b1, c1, v1⟩ := negIf_spec (decide ((h.cell x).sign = -1)) x h hx
  obtain ⟨y', h2, e2, n2, b2, c2, v2⟩ := negIf_spec (decide ((h.cell y).sign = -1)) y h1 (by omega)
  have hf := mod_fits z x' y' h2
  rw [v2, c2 x' b1, v1, c1 y hy] at hf
  have hstep : smod z x y h = (do mod z x' y'; if (h.cell x).sign = -1 then neg z z else pure ()) h2 := by
    unfold smod
    rw [bind_ok (load_eq y h), bind_ok (load_eq x h)]
    exact (bind_ok e1).trans (bind_ok e2)
  refine Writes.mono (by omega) (fun r hr => by rw [c2 r (by omega), c1 r hr]) hstep ?_
  unfold U256.smod
  simp only [decide_eq_true_eq] at hf
  dsimp only
  by_cases hs : (h.cell x).sign = -1
  · simp only [hs, if_true] at hf ⊢
    exact Writes.then_neg (by omega) hf
  · simp only [hs, if_false] at hf ⊢
    revert hf
    cases U256.mod (h.cell x) (if (h.cell y).sign = -1 then U256.neg (h.cell y) else h.cell y) with
    | error e => intro hf; exact bind_err hf
    | ok v =>
      rintro ⟨h', f1, f2, f3, f4⟩
      exact ⟨h', bind_ok f1, f2, f3, f4⟩

theorem sdiv_fits (z x y : Nat) (h : Heap) (hz : z < h.next) (hx : x < h.next) (hy : y < h.next) :
    Writes (sdiv z x y) h z (U256.sdiv (h.cell x) (h.cell y)) := by
  unfold sdiv U256.sdiv
  have e0 : ∀ m : Int → Int → HM Unit, (do let a ← load x; let b ← load y; m a.sign b.sign) h = m (h.cell x).sign (h.cell y).sign h :=
    fun _ => rfl
  refine Writes.mono (le_refl _) (fun _ _ => rfl)
    (m := if 0 < (h.cell x).sign then
      if 0 < (h.cell y).sign then div z x y
      else do
        let t ← negIf true y
        div z x t
        neg z z
      else if (h.cell y).sign < 0 then do
        let s ← negIf true x
        let t ← negIf true y
        div z s t
      else do
        let s ← negIf true x
        div z s y
        neg z z) rfl ?_
  obtain ⟨x', h1, e1, n1, b1, c1, v1⟩ := negIf_spec true x h hx
  obtain ⟨y', h2, e2, n2, b2, c2, v2⟩ := negIf_spec true y h hy
  obtain ⟨y3, h3, e3, n3, b3, c3, v3⟩ := negIf_spec true y h1 (by omega)
  simp only [if_true] at v1 v2 v3
  split_ifs
  · exact div_fits z x y h
  · have hf := div_fits z x y' h2
    rw [v2, c2 x hx] at hf
    exact Writes.mono n2 c2 (bind_ok e2) (Writes.then_neg (by omega) hf)
  · have hf := div_fits z x' y3 h3
    rw [v3, c3 x' b1, v1, c1 y hy] at hf
    refine Writes.mono (by omega) (fun r hr => by rw [c3 r (by omega), c1 r hr]) ?_ hf
    rw [bind_ok e1, bind_ok e3]
  · have hf := div_fits z x' y h1
    rw [v1, c1 y hy] at hf
    exact Writes.mono n1 c1 (bind_ok e1) (Writes.then_neg (by omega) hf)

theorem reduceOnce_eq (s x m : Nat) (h : Heap) (hsx : x ≠ s) (hsm : m ≠ s) : reduceOnce s x m h =
    .ok ((), h.write s (if (U256.subOverflow (h.cell x) (h.cell m)).2 then h.cell x else (U256.subOverflow (h.cell x) (h.cell m)).1)) := by
  unfold reduceOnce
  rw [bind_ok (set_eq s x h), bind_ok (subOverflow_eq s s m _)]
  simp only [cell_write, if_true, hsm, if_false, write_write]
  split_ifs
  · rw [set_eq]; simp [hsx, write_write]
  · rfl

theorem write_comm (h : Heap) {a b : Nat} (hab : a ≠ b) (v w : U256) : (h.write a v).write b w = (h.write b w).write a v := by
  apply heap_ext
  · intro r
    simp only [cell_write]
    by_cases h1 : r = a
    · subst h1; simp [hab]
    · simp [h1]
  · rfl

theorem subIf_eq (o : Bool) (s m : Nat) (h : Heap) : whenM o (sub s s m) h =
    .ok ((), h.write s (if o then U256.sub (h.cell s) (h.cell m) else h.cell s)) := by
  unfold whenM
  cases o
  · simp only [if_false, Bool.false_eq_true]
    rw [write_self]; rfl
  · simp only [if_true]
    rw [sub_eq]

theorem setIf_eq (o : Bool) (s t : Nat) (h : Heap) : whenM o (set s t) h =
    .ok ((), h.write s (if o then h.cell t else h.cell s)) := by
  unfold whenM
  cases o
  · simp only [if_false, Bool.false_eq_true]
    rw [write_self]; rfl
  · simp only [if_true]
    rw [set_eq]

/-- the comparison branch of `AddMod`, from the two reductions on -/
theorem addModFast_eq (z x y m s t : Nat) (G : Heap) (hst : s ≠ t) (hx : x ≠ s) (hx' : x ≠ t) (hy : y ≠ s) (hy' : y ≠ t)
    (hm : m ≠ s) (hm' : m ≠ t) (S T A : U256) (R : U256 × Bool)
    (hS : S = if (U256.subOverflow (G.cell x) (G.cell m)).2 then G.cell x else (U256.subOverflow (G.cell x) (G.cell m)).1)
    (hT : T = if (U256.subOverflow (G.cell y) (G.cell m)).2 then G.cell y else (U256.subOverflow (G.cell y) (G.cell m)).1)
    (hA : A = if (U256.addOverflow S T).2 then U256.sub (U256.addOverflow S T).1 (G.cell m) else (U256.addOverflow S T).1)
    (hR : R = U256.subOverflow A (G.cell m)) :
    (do reduceOnce s x m
        reduceOnce t y m
        let o ← addOverflow s s t
        whenM o (sub s s m)
        set t s
        let o ← subOverflow s s m
        whenM o (set s t)
        set z s : HM Unit) G =
      .ok ((), ((G.write t A).write s (if R.2 then A else R.1)).write z (if R.2 then A else R.1)) := by
  have hts : t ≠ s := fun e => hst e.symm
  rw [bind_ok (reduceOnce_eq s x m G hx hm), ← hS]
  have e2 := reduceOnce_eq t y m (G.write s S) hy' hm'
  simp only [cell_write, if_neg hy, if_neg hm, ← hT] at e2
  rw [bind_ok e2]
  have e3 := addOverflow_eq s s t ((G.write s S).write t T)
  simp only [cell_write, if_true, if_neg hst] at e3
  rw [write_comm _ hst, write_write] at e3
  rw [write_comm _ hst] at *
  rw [bind_ok e3]
  have e4 := subIf_eq (U256.addOverflow S T).2 s m ((G.write t T).write s (U256.addOverflow S T).1)
  simp only [cell_write, if_true, if_neg hm, if_neg hm', write_write, ← hA] at e4
  rw [bind_ok e4]
  have e5 := set_eq t s ((G.write t T).write s A)
  simp only [cell_write, if_true] at e5
  have e5' : ((G.write t T).write s A).write t A = (G.write t A).write s A := by
    rw [write_comm (G.write t T) hst, write_write]
  rw [e5'] at e5
  rw [bind_ok e5]
  have e6 := subOverflow_eq s s m ((G.write t A).write s A)
  simp only [cell_write, if_true, if_neg hm, if_neg hm', write_write, ← hR] at e6
  rw [bind_ok e6]
  have e7 := setIf_eq R.2 s t ((G.write t A).write s R.1)
  simp only [cell_write, if_true, if_neg hts, write_write] at e7
  rw [bind_ok e7]
  have e8 := set_eq z s ((G.write t A).write s (if R.2 then A else R.1))
  simp only [cell_write, if_true] at e8
  exact e8

theorem cloneIf_spec (z m : Nat) (h : Heap) (hz : z < h.next) (hm : m < h.next) :
    ∃ m' h', cloneIf z m h = .ok (m', h') ∧ h.next ≤ h'.next ∧ m' ≠ z ∧ (∀ r, r < h.next → h'.cell r = h.cell r) ∧ h'.cell m' = h.cell m := by
  unfold cloneIf
  by_cases e : z = m
  · refine ⟨h.next, (h.alloc (h.cell m)).2, ?_, by simp, by omega, fun r hr => ?_, by simp⟩
    · rw [bind_ok (load_eq m h), if_pos e, new_eq]
    · simp only [cell_alloc, if_neg (show ¬ r = h.next by omega)]
  · exact ⟨m, h, by rw [bind_ok (load_eq m h), if_neg e]; rfl, le_refl _, fun c => e c.symm, fun _ _ => rfl, rfl⟩

theorem addMod_fits (z x y m : Nat) (h : Heap) (hz : z < h.next) (hx : x < h.next) (hy : y < h.next) (hm : m < h.next) :
    Writes (addMod z x y m) h z (U256.addMod (h.cell x) (h.cell y) (h.cell m)) := by
  unfold addMod U256.addMod
  refine Writes.mono (le_refl _) (fun _ _ => rfl) (bind_ok (load_eq x h)) ?_
  refine Writes.mono (le_refl _) (fun _ _ => rfl) (bind_ok (load_eq y h)) ?_
  refine Writes.mono (le_refl _) (fun _ _ => rfl) (bind_ok (load_eq m h)) ?_
  by_cases c1 : (h.cell m).w3 ≠ 0 ∧ (h.cell x).w3 ≤ (h.cell m).w3 ∧ (h.cell y).w3 ≤ (h.cell m).w3
  · rw [if_pos c1, if_pos c1]
    obtain ⟨H1, H2, n1, n2, g0, gn⟩ : ∃ H1 H2 : Heap, new zero h = .ok (h.next, H1) ∧ new zero H1 = .ok (h.next + 1, H2) ∧
        (∀ r, r < h.next → H2.cell r = h.cell r) ∧ H2.next = h.next + 2 := by
      refine ⟨_, _, new_eq zero h, new_eq zero _, fun r hr => ?_, rfl⟩
      simp only [cell_alloc, next_alloc, if_neg (show ¬ r = h.next by omega), if_neg (show ¬ r = h.next + 1 by omega)]
    have e := addModFast_eq z x y m h.next (h.next + 1) H2 (by omega) (by omega) (by omega)
      (by omega) (by omega) (by omega) (by omega) _ _ _ _ rfl rfl rfl rfl
    rw [g0 x hx, g0 y hy, g0 m hm] at e
    unfold Writes
    dsimp only
    refine ⟨_, by rw [bind_ok n1, bind_ok n2, e], ?_, ?_, fun r hr hrz => ?_⟩
    · simp only [next_write]; omega
    · rw [cell_write, if_pos rfl]
    · rw [cell_write, if_neg hrz, cell_write, if_neg (by omega), cell_write, if_neg (by omega), g0 r hr]
  · rw [if_neg c1, if_neg c1]
    by_cases c2 : (h.cell m).isZero = true
    · rw [if_pos c2, if_pos c2]
      exact Writes.ok rfl (Stores.of_eq (clear_eq z h))
    · rw [if_neg c2, if_neg c2]
      obtain ⟨m', h1, e1, n1, d1, k1, v1⟩ := cloneIf_spec z m h hz hm
      refine Writes.mono n1 k1 (bind_ok e1) ?_
      have e2 := addOverflow_eq z x y h1
      rw [k1 x hx, k1 y hy] at e2
      dsimp only
      generalize U256.addOverflow (h.cell x) (h.cell y) = a at *
      have e3 : ∀ (g : Go U256) (k : Bool → HM Unit), Writes (k a.2) (h1.write z a.1) z g →
          Writes (addOverflow z x y >>= k) h1 z g := by
        intro g k hf
        have e := bind_ok (f := k) e2
        cases g with
        | error x => exact e.trans hf
        | ok v =>
          obtain ⟨h', f1, f2, f3, f4⟩ := hf
          exact ⟨h', e.trans f1, f2, f3, fun r hr hrz => (f4 r hr hrz).trans (by rw [cell_write, if_neg hrz])⟩
      apply e3
      by_cases c3 : a.2 = true
      · rw [if_pos c3, if_pos c3]
        refine Writes.mono (le_refl _) (fun _ _ => rfl) (bind_ok (load_eq z _)) ?_
        refine Writes.mono (le_refl _) (fun _ _ => rfl) (bind_ok (load_eq m' _)) ?_
        simp only [cell_write, if_true, if_neg d1, v1]
        cases hu : udivrem [0, 0, 0, 0, 0] [a.1.w0, a.1.w1, a.1.w2, a.1.w3, 1] (h.cell m) with
        | error e => exact rfl
        | ok r => exact Writes.ok rfl (Stores.of_eq (by rw [bind_ok (lift_ok r _), store_eq]))
      · rw [if_neg c3, if_neg c3]
        have hf := mod_fits z z m' (h1.write z a.1)
        simp only [cell_write, if_true, if_neg d1, v1] at hf
        exact hf

theorem expLoop_spec (res mul' : Nat) (hne : res ≠ mul') : ∀ (k : Nat) (w : Word) (h : Heap),
    expLoop res mul' k w h = .ok ((), (h.write res (U256.expLoop k w (h.cell res) (h.cell mul')).1).write mul'
      (U256.expLoop k w (h.cell res) (h.cell mul')).2)
  | 0, w, h => by
    unfold expLoop U256.expLoop
    dsimp only
    rw [write_self]
    have : (h.write res (h.cell res)) = h := write_self h res
    rw [write_self]; rfl
  | k + 1, w, h => by
    have ih := expLoop_spec res mul' hne k (w >>> 1)
    unfold expLoop U256.expLoop
    have e1 : whenM (w &&& 1 == 1) (mul res res mul') h =
        .ok ((), h.write res (if w &&& 1 == 1 then U256.mul (h.cell res) (h.cell mul') else h.cell res)) := by
      unfold whenM
      split_ifs
      · rw [mul_eq]
      · rw [write_self]; rfl
    rw [bind_ok e1, bind_ok (squared_eq _ _), ih]
    simp only [cell_write, if_true, if_neg hne, if_neg (Ne.symm hne)]
    rw [write_comm _ hne, write_write, write_comm _ (Ne.symm hne), write_write]

/-- as `expLoop_spec`, without naming the heap -/
theorem expLoop_cells (n k : Nat) (w : Word) (h : Heap) :
    ∃ h', expLoop n (n + 1) k w h = .ok ((), h') ∧ h'.next = h.next ∧ (∀ r, r < n → h'.cell r = h.cell r) ∧
      (h'.cell n, h'.cell (n + 1)) = U256.expLoop k w (h.cell n) (h.cell (n + 1)) := by
  refine ⟨_, expLoop_spec n (n + 1) (by omega) k w h, rfl, fun r hr => ?_, ?_⟩
  · rw [cell_write, if_neg (by omega), cell_write, if_neg (by omega)]
  · simp

theorem exp_stores (z b e : Nat) (h : Heap) (hz : z < h.next) (hb : b < h.next) (he : e < h.next) :
    Stores (exp z b e) h z (U256.exp (h.cell b) (h.cell e)) () := by
  obtain ⟨H1, n1, a1, b1, d1⟩ : ∃ H1 : Heap, new one h = .ok (h.next, H1) ∧ (∀ r, r < h.next → H1.cell r = h.cell r) ∧
      H1.next = h.next + 1 ∧ H1.cell h.next = one := by
    refine ⟨_, new_eq one h, fun r hr => ?_, rfl, by simp⟩
    rw [cell_alloc, if_neg (by omega)]
  obtain ⟨H2, n2, a2, b2, d2, d2'⟩ : ∃ H2 : Heap, new (h.cell b) H1 = .ok (h.next + 1, H2) ∧ (∀ r, r < h.next → H2.cell r = h.cell r) ∧
      H2.next = h.next + 2 ∧ H2.cell h.next = one ∧ H2.cell (h.next + 1) = h.cell b := by
    refine ⟨_, by rw [new_eq, b1], fun r hr => ?_, by rw [next_alloc, b1], ?_, ?_⟩
    · rw [cell_alloc, if_neg (by omega), a1 r hr]
    · rw [cell_alloc, if_neg (by omega), d1]
    · rw [cell_alloc, if_pos (by omega)]
  have ld : ∀ (r : Nat) (H : Heap), load r H = .ok (H.cell r, H) := load_eq
  obtain ⟨H3, n3, b3, a3, d3⟩ := expLoop_cells h.next (min (h.cell e).bitLen 64) (h.cell e).w0 H2
  obtain ⟨H4, n4, b4, a4, d4⟩ := expLoop_cells h.next (min (h.cell e).bitLen 128 - 64) (h.cell e).w1 H3
  obtain ⟨H5, n5, b5, a5, d5⟩ := expLoop_cells h.next (min (h.cell e).bitLen 192 - 128) (h.cell e).w2 H4
  obtain ⟨H6, n6, b6, a6, d6⟩ := expLoop_cells h.next (min (h.cell e).bitLen 256 - 192) (h.cell e).w3 H5
  have l1 : load b H1 = .ok (h.cell b, H1) := by rw [load_eq, a1 b hb]
  have l2 : load e H2 = .ok (h.cell e, H2) := by rw [load_eq, a2 e he]
  have r2 : rd e 0 H2 = .ok ((h.cell e).w0, H2) := by rw [rd_eq, a2 e he]; rfl
  have r3 : rd e 1 H3 = .ok ((h.cell e).w1, H3) := by rw [rd_eq, a3 e he, a2 e he]; rfl
  have r4 : rd e 2 H4 = .ok ((h.cell e).w2, H4) := by rw [rd_eq, a4 e he, a3 e he, a2 e he]; rfl
  have r5 : rd e 3 H5 = .ok ((h.cell e).w3, H5) := by rw [rd_eq, a5 e he, a4 e he, a3 e he, a2 e he]; rfl
  refine ⟨H6.write z (H6.cell h.next), ?_, ?_, ?_, fun r hr hrz => ?_⟩
  · unfold exp
    rw [bind_ok n1, bind_ok l1, bind_ok n2, bind_ok l2, bind_ok r2, bind_ok n3, bind_ok r3, bind_ok n4, bind_ok r4, bind_ok n5,
      bind_ok r5, bind_ok n6, set_eq]
  · rw [next_write]; omega
  · rw [cell_write, if_pos rfl]
    unfold U256.exp
    dsimp only
    rw [← d2, ← d2', ← d3, ← d4, ← d5, ← d6]
  · rw [cell_write, if_neg hrz, a6 r hr, a5 r hr, a4 r hr, a3 r hr, a2 r hr]

theorem extendSign_stores (z x b : Nat) (h : Heap) (hz : z < h.next) (hx : x < h.next) (hb : b < h.next) :
    Stores (extendSign z x b) h z (U256.extendSign (h.cell x) (h.cell b)) () := by
  unfold Stores extendSign U256.extendSign
  rw [bind_ok (load_eq b h)]
  by_cases c : (h.cell b).gtUint64 31 = true
  · rw [if_pos c, if_pos c]
    exact Stores.of_eq (set_eq z x h)
  · rw [if_neg c, if_neg c]
    dsimp only
    obtain ⟨H1, n1, a1, b1, d1⟩ : ∃ H1 : Heap, new one h = .ok (h.next, H1) ∧ (∀ r, r < h.next → H1.cell r = h.cell r) ∧
        H1.next = h.next + 1 ∧ H1.cell h.next = one := by
      refine ⟨_, new_eq one h, fun r hr => ?_, rfl, by simp⟩
      rw [cell_alloc, if_neg (by omega)]
    have e1 := lsh_eq h.next h.next ((h.cell b).w0.toNat * 8 + 7) H1
    rw [d1] at e1
    have e2 := subUint64_eq h.next h.next 1 (H1.write h.next (U256.lsh one ((h.cell b).w0.toNat * 8 + 7)))
    rw [cell_write, if_pos rfl, write_write] at e2
    have e3 : ∀ v, load x (H1.write h.next v) = .ok (h.cell x, H1.write h.next v) := fun v => by
      rw [load_eq, cell_write, if_neg (by omega), a1 x hx]
    rw [bind_ok n1, bind_ok e1, bind_ok e2, bind_ok (e3 _)]
    generalize U256.subUint64 (U256.lsh one ((h.cell b).w0.toNat * 8 + 7)) 1 = mask
    by_cases c2 : (h.cell x).isBitSet ((h.cell b).w0.toNat * 8 + 7) = true
    · rw [if_pos c2, if_pos c2, bind_ok (not_eq _ _ _), or_eq]
      refine ⟨_, rfl, by simp only [next_write]; omega, ?_, fun r hr hrz => ?_⟩
      · simp only [cell_write, if_true, if_neg (show ¬ x = h.next by omega), a1 x hx]
      · simp only [cell_write, if_neg hrz, if_neg (show ¬ r = h.next by omega), a1 r hr]
    · rw [if_neg c2, if_neg c2, and_eq]
      refine ⟨_, rfl, by simp only [next_write]; omega, ?_, fun r hr hrz => ?_⟩
      · simp only [cell_write, if_true, if_neg (show ¬ x = h.next by omega), a1 x hx]
      · simp only [cell_write, if_neg hrz, if_neg (show ¬ r = h.next by omega), a1 r hr]

theorem sqrtLoop_ok {x z1 q : U256} (hd : U256.div x z1 = .ok q) (fuel : Nat) : U256.sqrtLoop x (fuel + 1) z1 =
    if 0 ≤ cmp (U256.rsh1 (U256.add q z1)) z1 then .ok z1 else U256.sqrtLoop x fuel (U256.rsh1 (U256.add q z1)) := by
  rw [U256.sqrtLoop, hd]
  rfl

theorem sqrtLoop_err {x z1 : U256} {e : Err} (hd : U256.div x z1 = .error e) (fuel : Nat) :
    U256.sqrtLoop x (fuel + 1) z1 = .error e := by
  rw [U256.sqrtLoop, hd]
  rfl

theorem sqrtLoop_spec (n z x : Nat) (hx : x < n) : ∀ (fuel z1 z2 : Nat) (h : Heap), n ≤ z1 → n ≤ z2 → z1 ≠ z2 →
    match U256.sqrtLoop (h.cell x) fuel (h.cell z1) with
    | .error e => sqrtLoop z x fuel z1 z2 h = .error e
    | .ok v => ∃ h', sqrtLoop z x fuel z1 z2 h = .ok ((), h') ∧ h'.next = h.next ∧ h'.cell z = v ∧
        ∀ r, r < n → r ≠ z → h'.cell r = h.cell r
  | 0, z1, z2, h, _, _, _ => rfl
  | fuel + 1, z1, z2, h, h1, h2, hne => by
    have ih := sqrtLoop_spec n z x hx fuel z2 z1
    unfold sqrtLoop
    have e1 := div_eq z2 x z1 h
    cases hd : U256.div (h.cell x) (h.cell z1) with
    | error e =>
      rw [hd] at e1
      rw [sqrtLoop_err hd]
      exact bind_err e1
    | ok q =>
      rw [hd] at e1
      rw [sqrtLoop_ok hd, bind_ok e1]
      have e2 := add_eq z2 z2 z1 (h.write z2 q)
      rw [cell_write, if_pos rfl, cell_write, if_neg hne, write_write] at e2
      have e3 := rsh1_eq z2 (h.write z2 (U256.add q (h.cell z1)))
      rw [cell_write, if_pos rfl, write_write] at e3
      have e4 : ∀ v, load z1 (h.write z2 v) = .ok (h.cell z1, h.write z2 v) := fun v => by
        rw [load_eq, cell_write, if_neg hne]
      have e5 : ∀ v, load z2 (h.write z2 v) = .ok (v, h.write z2 v) := fun v => by
        rw [load_eq, cell_write, if_pos rfl]
      rw [bind_ok e2, bind_ok e3, bind_ok (e5 _), bind_ok (e4 _)]
      generalize U256.rsh1 (U256.add q (h.cell z1)) = w
      by_cases c : 0 ≤ cmp w (h.cell z1)
      · rw [if_pos c, if_pos c]
        refine ⟨_, set_eq z z1 _, rfl, ?_, fun r hr hrz => ?_⟩
        · rw [cell_write, if_pos rfl, cell_write, if_neg hne]
        · rw [cell_write, if_neg hrz, cell_write, if_neg (by omega)]
      · rw [if_neg c, if_neg c]
        have ih1 := ih (h.write z2 w) h2 h1 (Ne.symm hne)
        rw [cell_write, if_neg (show ¬ x = z2 by omega), cell_write, if_pos rfl] at ih1
        revert ih1
        cases U256.sqrtLoop (h.cell x) fuel w with
        | error e => exact id
        | ok v =>
          rintro ⟨h', f1, f2, f3, f4⟩
          exact ⟨h', f1, f2, f3, fun r hr hrz => by rw [f4 r hr hrz, cell_write, if_neg (by omega)]⟩

theorem sqrt_fits (z x : Nat) (h : Heap) (hz : z < h.next) (hx : x < h.next) : Writes (sqrt z x) h z (U256.sqrt (h.cell x)) := by
  unfold sqrt U256.sqrt U256.sqrtFuel
  refine Writes.mono (le_refl _) (fun _ _ => rfl) (bind_ok (load_eq x h)) ?_
  by_cases c : (h.cell x).ltUint64 2 = true
  · rw [if_pos c, if_pos c]
    exact Writes.ok rfl (Stores.of_eq (set_eq z x h))
  · rw [if_neg c, if_neg c]
    generalize hk : ((h.cell x).bitLen + 1) / 2 = k
    obtain ⟨H1, H2, n1, n2, g0, gn, d1⟩ : ∃ H1 H2 : Heap, new one h = .ok (h.next, H1) ∧ new zero H1 = .ok (h.next + 1, H2) ∧
        (∀ r, r < h.next → H2.cell r = h.cell r) ∧ H2.next = h.next + 2 ∧ H2.cell h.next = one := by
      refine ⟨_, _, new_eq one h, new_eq zero _, fun r hr => ?_, rfl, by simp⟩
      simp only [cell_alloc, next_alloc, if_neg (show ¬ r = h.next by omega), if_neg (show ¬ r = h.next + 1 by omega)]
    have e1 := lsh_eq h.next h.next k H2
    rw [d1] at e1
    have e2 := sqrtLoop_spec h.next z x hx 300 h.next (h.next + 1) (H2.write h.next (U256.lsh one k)) (le_refl _) (by omega) (by omega)
    rw [cell_write, if_neg (show ¬ x = h.next by omega), cell_write, if_pos rfl, g0 x hx] at e2
    revert e2
    unfold Writes Stores
    cases U256.sqrtLoop (h.cell x) 300 (U256.lsh one k) with
    | error e =>
      intro e2
      dsimp only at e2 ⊢
      rw [bind_ok n1, bind_ok n2, bind_ok e1, e2]
    | ok v =>
      rintro ⟨h', f1, f2, f3, f4⟩
      refine ⟨h', ?_, ?_, f3, fun r hr hrz => ?_⟩
      · rw [bind_ok n1, bind_ok n2, bind_ok e1, f1]
      · rw [f2, next_write]; omega
      · rw [f4 r hr hrz, cell_write, if_neg (by omega), g0 r hr]

end InPlace
end Uni
