import Verif.Proofs.InPlace
import Verif.Props.Uint256
import Verif.Props.Bitwise
/-!
# Property C71: results may be written over operands

Every arithmetic method of the 256-bit type has the form `z.Op(x, y)` and writes its result into the number `z` points to,
word by word for some of them, while the words of `x` and `y` are still being read.  Callers use this with `z` equal to one or
both operands throughout (`amount.Add(amount, fee)`, `r.Sub(r, r)`).

`h.cell x` is the value of the number at pointer `x` before the call.  The pointers `z`, `x`, `y`, `m` are arbitrary: no
theorem below assumes that any two of them are different.  `Spec.Leaves f h z P`: the call finishes, `P` holds of the value
then found in `z` (and of the returned flag), and no number other than `z` that existed before the call has changed.
-/
namespace Uni
namespace Props
open U256 Spec InPlace

theorem leaves_of_stores {α : Type} {m : HM α} {h : Heap} {z : Nat} {v : U256} {a : α} {P : U256 → α → Prop}
    (hs : Stores m h z v a) (hp : P v a) : Leaves m h z P := by
  obtain ⟨h', e1, e2, e3, e4⟩ := hs
  exact ⟨a, h', e1, e2, by rw [e3]; exact hp, e4⟩

theorem leaves_of_eq {α : Type} {m : HM α} {h : Heap} {z : Nat} {v : U256} {a : α} {P : U256 → α → Prop}
    (e : m h = .ok (a, h.write z v)) (hp : P v a) : Leaves m h z P := leaves_of_stores (Stores.of_eq e) hp

theorem leaves_of_fits {m : HM Unit} {h : Heap} {z : Nat} {g : Go U256} {v : U256} {P : U256 → Unit → Prop}
    (hf : Writes m h z g) (hg : g = .ok v) (hp : P v ()) : Leaves m h z P := by
  rw [hg] at hf
  exact leaves_of_stores hf hp

/-- C71: addition and subtraction, with and without the overflow flag. -/
theorem C71_add_sub (h : Heap) (z x y : Nat) (n : Word) (hz : z < h.next) (hx : x < h.next) :
    Leaves (add z x y) h z (fun v _ => v.toNat = ((h.cell x).toNat + (h.cell y).toNat) % 2 ^ 256) ∧
    Leaves (sub z x y) h z (fun v _ => (v.toNat : Int) = ((h.cell x).toNat - (h.cell y).toNat : Int) % 2 ^ 256) ∧
    Leaves (addUint64 z x n) h z (fun v _ => v.toNat = ((h.cell x).toNat + n.toNat) % 2 ^ 256) ∧
    Leaves (subUint64 z x n) h z (fun v _ => (v.toNat : Int) = ((h.cell x).toNat - n.toNat : Int) % 2 ^ 256) ∧
    Leaves (neg z x) h z (fun v _ => (v.toNat : Int) = (-(h.cell x).toNat : Int) % 2 ^ 256) ∧
    Leaves (addOverflow z x y) h z (fun v o => v.toNat = ((h.cell x).toNat + (h.cell y).toNat) % 2 ^ 256 ∧
      (o = true ↔ 2 ^ 256 ≤ (h.cell x).toNat + (h.cell y).toNat)) ∧
    Leaves (subOverflow z x y) h z (fun v o => (v.toNat : Int) = ((h.cell x).toNat - (h.cell y).toNat : Int) % 2 ^ 256 ∧
      (o = true ↔ (h.cell x).toNat < (h.cell y).toNat)) := by
  obtain ⟨a1, a2, a3, a4, a5, a6, a7, a8, a9⟩ := C01_add_sub_exact (h.cell x) (h.cell y) n
  exact ⟨leaves_of_eq (add_eq z x y h) a1, leaves_of_eq (sub_eq z x y h) a2, leaves_of_eq (addUint64_eq z x n h) a4,
    leaves_of_eq (subUint64_eq z x n h) a5, leaves_of_stores (neg_stores z x h hz hx) a3,
    leaves_of_eq (addOverflow_eq z x y h) ⟨by rw [a6, a1], a7⟩,
    leaves_of_eq (subOverflow_eq z x y h) ⟨by rw [a8, a2], a9⟩⟩

/-- C71: multiplication and squaring. -/
theorem C71_mul (h : Heap) (z x y : Nat) :
    Leaves (mul z x y) h z (fun v _ => v.toNat = (h.cell x).toNat * (h.cell y).toNat % 2 ^ 256) ∧
    Leaves (mulOverflow z x y) h z (fun v o => v.toNat = (h.cell x).toNat * (h.cell y).toNat % 2 ^ 256 ∧
      (o = true ↔ 2 ^ 256 ≤ (h.cell x).toNat * (h.cell y).toNat)) ∧
    Leaves (squared z) h z (fun v _ => v.toNat = (h.cell z).toNat * (h.cell z).toNat % 2 ^ 256) := by
  obtain ⟨_, _, a1, _, a2, a3⟩ := C02_mul_exact (h.cell x) (h.cell y)
  exact ⟨leaves_of_eq (mul_eq z x y h) a1, leaves_of_eq (mulOverflow_eq z x y h) ⟨by rw [a2, a1], a3⟩,
    leaves_of_eq (squared_eq z h) (toNat_squared _)⟩

/-- C71: division and remainder, unsigned and signed. -/
theorem C71_div_mod (h : Heap) (z x y : Nat) (hz : z < h.next) (hx : x < h.next) (hy : y < h.next) :
    Leaves (div z x y) h z (fun v _ => v.toNat = (h.cell x).toNat / (h.cell y).toNat) ∧
    Leaves (mod z x y) h z (fun v _ => v.toNat = if (h.cell y).toNat = 0 then 0 else (h.cell x).toNat % (h.cell y).toNat) ∧
    Leaves (sdiv z x y) h z (fun v _ => (v.toNat : Int) = (h.cell x).toInt.tdiv (h.cell y).toInt % 2 ^ 256) ∧
    Leaves (smod z x y) h z (fun v _ => v.toInt = if (h.cell y).toInt = 0 then 0 else (h.cell x).toInt.tmod (h.cell y).toInt) ∧
    Leaves (abs z x) h z (fun v _ => v.toNat = (h.cell x).toInt.natAbs) := by
  obtain ⟨q, hq, hqv⟩ := div_spec (h.cell x) (h.cell y)
  obtain ⟨r, hr, hrv⟩ := mod_spec (h.cell x) (h.cell y)
  obtain ⟨⟨s, hs, hsv, _⟩, ⟨t, ht, htv⟩, ha⟩ := C08_signed (h.cell x) (h.cell y)
  refine ⟨leaves_of_fits (div_fits z x y h) hq ?_, leaves_of_fits (mod_fits z x y h) hr ?_,
    leaves_of_fits (sdiv_fits z x y h hz hx hy) hs hsv, leaves_of_fits (smod_fits z x y h hz hx hy) ht htv,
    leaves_of_stores (abs_stores z x h hz hx) ha⟩
  · simpa using hqv
  · simpa using hrv

/-- C71: modular addition and multiplication (`z` may be the modulus, too). -/
theorem C71_modular (h : Heap) (z x y m : Nat) (fuel : Nat) (hf : 9 ≤ fuel) (hz : z < h.next) (hx : x < h.next) (hy : y < h.next)
    (hm : m < h.next) :
    Leaves (addMod z x y m) h z (fun v _ => v.toNat = if (h.cell m).toNat = 0 then 0 else
      ((h.cell x).toNat + (h.cell y).toNat) % (h.cell m).toNat) ∧
    Leaves (mulMod fuel z x y m) h z (fun v _ => v.toNat = if (h.cell m).toNat = 0 then 0 else
      ((h.cell x).toNat * (h.cell y).toNat) % (h.cell m).toNat) ∧
    (∀ mu, reciprocal (h.cell m) = .ok mu →
      Leaves (mulModWithReciprocal fuel z x y m mu) h z (fun v _ => v.toNat = if (h.cell m).toNat = 0 then 0 else
        ((h.cell x).toNat * (h.cell y).toNat) % (h.cell m).toNat)) := by
  obtain ⟨a, ha, hav⟩ := C08_addMod (h.cell x) (h.cell y) (h.cell m)
  obtain ⟨b, hb, hbv⟩ := mulMod_spec fuel hf (h.cell x) (h.cell y) (h.cell m)
  refine ⟨leaves_of_fits (addMod_fits z x y m h hz hx hy hm) ha hav, leaves_of_fits (mulMod_fits fuel z x y m h) hb hbv, ?_⟩
  intro mu hmu
  obtain ⟨c, hc, h0, h1⟩ := C70_withReciprocal (h.cell x) (h.cell y) (h.cell m) mu fuel hf (.inl hmu)
  refine leaves_of_fits (mulModWithReciprocal_fits fuel z x y m mu h) hc ?_
  split_ifs with c0
  · exact h0 c0
  · exact h1 c0

/-- C71: shifts. -/
theorem C71_shifts (h : Heap) (z x n : Nat) :
    Leaves (lsh z x n) h z (fun v _ => v.toNat = (h.cell x).toNat * 2 ^ n % 2 ^ 256) ∧
    Leaves (rsh z x n) h z (fun v _ => v.toNat = (h.cell x).toNat / 2 ^ n) ∧
    Leaves (srsh z x n) h z (fun v _ => v.toInt = (h.cell x).toInt / 2 ^ n) := by
  obtain ⟨a, b, c⟩ := C05_shifts (h.cell x) n
  exact ⟨leaves_of_eq (lsh_eq z x n h) a, leaves_of_eq (rsh_eq z x n h) b, leaves_of_eq (srsh_eq z x n h) c⟩

/-- C71: bitwise operations; `Byte` selects from `z` itself. -/
theorem C71_bitwise (h : Heap) (z x y : Nat) :
    Leaves (and z x y) h z (fun v _ => v.toNat = (h.cell x).toNat &&& (h.cell y).toNat) ∧
    Leaves (or z x y) h z (fun v _ => v.toNat = (h.cell x).toNat ||| (h.cell y).toNat) ∧
    Leaves (xor z x y) h z (fun v _ => v.toNat = (h.cell x).toNat ^^^ (h.cell y).toNat) ∧
    Leaves (not z x) h z (fun v _ => v.toNat + (h.cell x).toNat = 2 ^ 256 - 1) ∧
    Leaves (byte z x) h z (fun v _ => v.toNat =
      if (h.cell x).toNat < 32 then (h.cell z).toNat / 256 ^ (31 - (h.cell x).toNat) % 256 else 0) := by
  obtain ⟨a, b, c, _⟩ := C69_bitwise (h.cell x) (h.cell y)
  obtain ⟨_, _, _, d⟩ := C69_bitwise (h.cell x) (h.cell x)
  exact ⟨leaves_of_eq (and_eq z x y h) a, leaves_of_eq (or_eq z x y h) b, leaves_of_eq (xor_eq z x y h) c,
    leaves_of_eq (not_eq z x h) d, leaves_of_eq (byte_eq z x h) (byte_spec _ _)⟩

/-- C71: powers, square roots, sign extension, copies and constants. -/
theorem C71_exp_sqrt_set (h : Heap) (z x y : Nat) (w : Word) (hz : z < h.next) (hx : x < h.next) (hy : y < h.next) :
    Leaves (exp z x y) h z (fun v _ => v.toNat = (h.cell x).toNat ^ (h.cell y).toNat % 2 ^ 256) ∧
    Leaves (sqrt z x) h z (fun v _ => v.toNat * v.toNat ≤ (h.cell x).toNat ∧ (h.cell x).toNat < (v.toNat + 1) * (v.toNat + 1)) ∧
    Leaves (extendSign z x y) h z (fun v _ =>
      ((h.cell y).toNat < 32 → -2 ^ (8 * (h.cell y).toNat + 7) ≤ v.toInt ∧ v.toInt < 2 ^ (8 * (h.cell y).toNat + 7) ∧
        (v.toInt - (h.cell x).toNat) % 2 ^ (8 * (h.cell y).toNat + 8) = 0) ∧ (32 ≤ (h.cell y).toNat → v = h.cell x)) ∧
    Leaves (set z x) h z (fun v _ => v = h.cell x) ∧ Leaves (clear z) h z (fun v _ => v.toNat = 0) ∧
    Leaves (setOne z) h z (fun v _ => v.toNat = 1) ∧ Leaves (setAllOne z) h z (fun v _ => v.toNat = 2 ^ 256 - 1) ∧
    Leaves (setUint64 z w) h z (fun v _ => v.toNat = w.toNat) := by
  obtain ⟨s, hs, hs1, hs2⟩ := C07_sqrt (h.cell x) 300 (by norm_num)
  exact ⟨leaves_of_stores (exp_stores z x y h hz hx hy) (C06_exp _ _),
    leaves_of_fits (sqrt_fits z x h hz hx) hs ⟨hs1, hs2⟩,
    leaves_of_stores (extendSign_stores z x y h hz hx hy) (C69_extendSign _ _),
    leaves_of_eq (set_eq z x h) rfl, leaves_of_eq (clear_eq z h) rfl, leaves_of_eq (setOne_eq z h) (by decide +kernel),
    leaves_of_eq (setAllOne_eq z h) (by decide +kernel), leaves_of_eq (setUint64_eq z w h) (toNat_ofWord w)⟩

/-- a heap with three numbers -/
def demoHeap (a b c : Nat) : Heap := ((((Heap.mk (fun _ => zero) 0).alloc (ofNat a)).2.alloc (ofNat b)).2.alloc (ofNat c)).2

/-- the three numbers after a call -/
def demoAfter (m : HM Unit) (h : Heap) : Option (Nat × Nat × Nat) :=
  match m h with
  | .ok (_, h') => some ((h'.cell 0).toNat, (h'.cell 1).toNat, (h'.cell 2).toNat)
  | .error _ => none

/-- non-trivial instances: `x.Lsh(x, 70)`, `x.Sub(x, x)`, `m.AddMod(x, y, m)`, `x.Exp(x, x)`, `y.SDiv(x, y)` and `x.Sqrt(x)` -/
example :
    demoAfter (InPlace.lsh 0 0 70) (demoHeap (2 ^ 100 + 7) 5 9) = some ((2 ^ 100 + 7) * 2 ^ 70, 5, 9) ∧
    demoAfter (InPlace.sub 2 2 2) (demoHeap 1 5 9) = some (1, 5, 0) ∧
    demoAfter (InPlace.addMod 2 0 1 2) (demoHeap (2 ^ 256 - 1) (2 ^ 256 - 2) 1000) =
      some (2 ^ 256 - 1, 2 ^ 256 - 2, (2 ^ 256 - 1 + (2 ^ 256 - 2)) % 1000) ∧
    demoAfter (InPlace.exp 0 0 0) (demoHeap 30 5 9) = some (30 ^ 30, 5, 9) ∧
    demoAfter (InPlace.sdiv 1 0 1) (demoHeap (2 ^ 256 - 700) 5 9) = some (2 ^ 256 - 700, 2 ^ 256 - 140, 9) ∧
    demoAfter (InPlace.sqrt 0 0) (demoHeap (10 ^ 60 + 3) 5 9) = some (10 ^ 30, 5, 9) := by
  decide +kernel

end Props
end Uni
