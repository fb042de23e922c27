import Verif.Proofs.Fits
/-! # Programs on memory that keep to their rights and agree with computations on values -/
namespace Uni
open InPlace Spec

/-- The program keeps to its rights, and it fails as the computation `y` on values does, or both return and `R` relates the
returned value, the new heap and the result of `y`. -/
def Tri {α β : Type} (c : Rights) (m : HM α) (h : Heap) (y : Go β) (R : α → Heap → β → Prop) : Prop :=
  m.Keeps c h ∧ Refines (m h) y (fun a b => R a.1 a.2 b)

namespace Tri
variable {α β γ δ : Type} {c : Rights} {h : Heap}

theorem bind {m : HM α} {y : Go β} {R : α → Heap → β → Prop} {f : α → HM γ} {g : β → Go δ} {S : γ → Heap → δ → Prop}
    (t : Tri c m h y R) (hf : ∀ a h' b, R a h' b → Tri c (f a) h' (g b) S) : Tri c (m >>= f) h (y >>= g) S := by
  obtain ⟨k, r⟩ := t
  refine ⟨Keeps.bind k fun a h' e => ?_, ?_⟩
  · obtain ⟨b, _, hb⟩ := r.inv_ok e
    exact (hf a h' b hb).1
  · rw [bind_eq]
    cases hm : m h with
    | error e =>
      rw [hm] at r
      cases y with
      | error e' => exact r
      | ok b => exact r.elim
    | ok a =>
      rw [hm] at r
      cases y with
      | error e' => exact r.elim
      | ok b => exact (hf a.1 a.2 b r).2

/-- a step that does not fail on values -/
theorem step {m : HM α} {v : β} {R : α → Heap → β → Prop} {f : α → HM γ} {y : Go δ} {S : γ → Heap → δ → Prop}
    (t : Tri c m h (.ok v) R) (hf : ∀ a h', R a h' v → Tri c (f a) h' y S) : Tri c (m >>= f) h y S :=
  Tri.bind (y := Except.ok v) (g := fun _ => y) (R := fun a h' b => R a h' b ∧ b = v)
    ⟨t.1, by
      have := t.2
      cases hm : m h with
      | error e => rw [hm] at this; exact this
      | ok a => rw [hm] at this; exact ⟨this, rfl⟩⟩
    (fun a h' b hb => by obtain ⟨h1, rfl⟩ := hb; exact hf a h' h1)

theorem ret {a : α} {b : β} {R : α → Heap → β → Prop} (hr : R a h b) : Tri c (pure a) h (.ok b) R := ⟨trivial, hr⟩

theorem mono {m : HM α} {y : Go β} {R S : α → Heap → β → Prop} (t : Tri c m h y R) (hs : ∀ a h' b, R a h' b → S a h' b) :
    Tri c m h y S := ⟨t.1, t.2.mono fun a b hab => hs a.1 a.2 b hab⟩

theorem mono_run {m : HM α} {y : Go β} {R S : α → Heap → β → Prop} (t : Tri c m h y R)
    (hs : ∀ a h' b, m h = .ok (a, h') → y = .ok b → R a h' b → S a h' b) : Tri c m h y S := by
  refine ⟨t.1, ?_⟩
  have := t.2
  revert this
  cases hm : m h with
  | error e => cases y <;> exact fun x => x
  | ok a =>
    cases hy : y with
    | error e => exact fun x => x
    | ok b => exact fun x => hs a.1 a.2 b hm hy x

theorem ite {p : Prop} [Decidable p] {m m' : HM α} {y y' : Go β} {R : α → Heap → β → Prop} (h1 : p → Tri c m h y R)
    (h2 : ¬ p → Tri c m' h y' R) : Tri c (if p then m else m') h (if p then y else y') R := by
  by_cases hp : p
  · rw [if_pos hp, if_pos hp]; exact h1 hp
  · rw [if_neg hp, if_neg hp]; exact h2 hp

theorem lift {g : Go α} : Tri c (InPlace.lift g) h g (fun a h' b => a = b ∧ h' = h) := by
  cases g with
  | error e => exact ⟨trivial, rfl⟩
  | ok a => exact ⟨trivial, rfl, rfl⟩

/-- a computation on values first -/
theorem lift_bind {g : Go α} {f : α → HM γ} {k : α → Go δ} {S : γ → Heap → δ → Prop} (hf : ∀ a, Tri c (f a) h (k a) S) :
    Tri c (InPlace.lift g >>= f) h (g >>= k) S :=
  lift.bind fun a h' b hb => by obtain ⟨rfl, rfl⟩ := hb; exact hf a

/-- the returned pointer or the value is unchanged by `pure` on values -/
theorem map_right {m : HM α} {y : Go β} {R : α → Heap → β → Prop} {g : β → δ} {S : α → Heap → δ → Prop} (t : Tri c m h y R)
    (hs : ∀ a h' b, R a h' b → S a h' (g b)) : Tri c m h (do let b ← y; return g b) S := by
  refine ⟨t.1, ?_⟩
  have := t.2
  revert this
  cases m h with
  | error e => cases y <;> exact fun x => x
  | ok a =>
    cases y with
    | error e => exact fun x => x
    | ok b => exact fun x => hs a.1 a.2 b x

end Tri

/-- `x` is a number with the value `v` that may be read -/
structure At (c : Rights) (h : Heap) (x : Nat) (v : U256) : Prop where
  lt : x < h.next
  val : h.cell x = v
  can : c.canRead x
  base : c.base ≤ h.next

/-- no number has changed -/
structure Kept (h h' : Heap) : Prop where
  le : h.next ≤ h'.next
  cell : ∀ r, r < h.next → h'.cell r = h.cell r

theorem Kept.refl (h : Heap) : Kept h h := ⟨le_refl _, fun _ _ => rfl⟩
theorem Kept.trans {h h' h'' : Heap} (k : Kept h h') (l : Kept h' h'') : Kept h h'' :=
  ⟨le_trans k.le l.le, fun r hr => (l.cell r (lt_of_lt_of_le hr k.le)).trans (k.cell r hr)⟩
theorem Kept.alloc (h : Heap) (v : U256) : Kept h (h.alloc v).2 := ⟨Nat.le_succ _, fun _ hr => alloc_other h v hr⟩

theorem At.keep {c : Rights} {h h' : Heap} {x : Nat} {v : U256} (a : At c h x v) (k : Kept h h') : At c h' x v :=
  ⟨lt_of_lt_of_le a.lt k.le, (k.cell x a.lt).trans a.val, a.can, le_trans a.base k.le⟩

/-- `r` is a new number with the value `v`, and no other number has changed -/
structure Fresh (c : Rights) (h : Heap) (r : Nat) (h' : Heap) (v : U256) : Prop where
  kept : Kept h h'
  at_ : At c h' r v
  new : h.next ≤ r

/-- the number `z` has the value `v`, and no other number has changed -/
structure Stored (h : Heap) (z : Nat) (h' : Heap) (v : U256) : Prop where
  le : h.next ≤ h'.next
  val : h'.cell z = v
  cell : ∀ r, r < h.next → r ≠ z → h'.cell r = h.cell r

theorem Stored.at {c : Rights} {h h' : Heap} {z x : Nat} {v w : U256} (s : Stored h z h' v) (a : At c h x w) (hx : x ≠ z) :
    At c h' x w := ⟨lt_of_lt_of_le a.lt s.le, (s.cell x a.lt hx).trans a.val, a.can, le_trans a.base s.le⟩
theorem Stored.at_self {c : Rights} {h h' : Heap} {z : Nat} {v w : U256} (s : Stored h z h' v) (a : At c h z w) :
    At c h' z v := ⟨lt_of_lt_of_le a.lt s.le, s.val, a.can, le_trans a.base s.le⟩
/-- a change of a new number is no change of the old ones -/
theorem Stored.kept {h0 h h' : Heap} {z : Nat} {v : U256} (s : Stored h z h' v) (k : Kept h0 h) (hz : h0.next ≤ z) : Kept h0 h' :=
  ⟨le_trans k.le s.le, fun r hr => (s.cell r (lt_of_lt_of_le hr k.le) (by omega)).trans (k.cell r hr)⟩
theorem Fresh.stored {c : Rights} {h0 h h' : Heap} {z : Nat} {v w : U256} (f : Fresh c h0 z h w) (s : Stored h z h' v) :
    Fresh c h0 z h' v := ⟨s.kept f.kept f.new, s.at_self f.at_, f.new⟩
theorem Fresh.after {c : Rights} {h0 h h' : Heap} {z : Nat} {v : U256} (k : Kept h0 h) (f : Fresh c h z h' v) :
    Fresh c h0 z h' v := ⟨k.trans f.kept, f.at_, le_trans k.le f.new⟩
theorem Fresh.keep {c : Rights} {h0 h h' : Heap} {z : Nat} {v : U256} (f : Fresh c h0 z h v) (k : Kept h h') :
    Fresh c h0 z h' v := ⟨f.kept.trans k, f.at_.keep k, f.new⟩

theorem Fresh.write {c : Rights} {h0 h : Heap} {z : Nat} {v : U256} (f : Fresh c h0 z h v) (hb : c.base ≤ h0.next) : c.canWrite z :=
  .inr (le_trans hb f.new)

/-! ### The methods -/

section methods
variable {c : Rights} {h : Heap} {z x y : Nat} {a b : U256}

theorem tri_of_eq {m : HM Unit} {v : U256} (hf : Fits c m) (hb : c.base ≤ h.next) (e : m h = .ok ((), h.write z v)) :
    Tri c m h (.ok v) (fun _ h' v => Stored h z h' v) := by
  refine ⟨hf h hb, ?_⟩
  rw [e]
  exact ⟨le_refl _, by simp, fun r _ hr => by simp [hr]⟩

theorem tri_of_stores {m : HM Unit} {v : U256} (hf : Fits c m) (hb : c.base ≤ h.next) (e : Stores m h z v ()) :
    Tri c m h (.ok v) (fun _ h' v => Stored h z h' v) := by
  refine ⟨hf h hb, ?_⟩
  obtain ⟨h', e1, e2, e3, e4⟩ := e
  rw [e1]
  exact ⟨e2, e3, e4⟩

theorem tri_of_writes {m : HM Unit} {g : Go U256} (hf : Fits c m) (hb : c.base ≤ h.next) (e : Writes m h z g) :
    Tri c m h g (fun _ h' v => Stored h z h' v) := by
  cases g with
  | error x =>
    refine ⟨hf h hb, ?_⟩
    rw [show m h = .error x from e]
    exact rfl
  | ok v => exact tri_of_stores hf hb e

theorem tri_add (hz : c.canWrite z) (ax : At c h x a) (ay : At c h y b) :
    Tri c (add z x y) h (.ok (U256.add a b)) (fun _ h' v => Stored h z h' v) := by
  have e := add_eq z x y h
  rw [ax.val, ay.val] at e
  exact tri_of_eq (fits_add hz ax.can ay.can) ax.base e

theorem tri_sub (hz : c.canWrite z) (ax : At c h x a) (ay : At c h y b) :
    Tri c (sub z x y) h (.ok (U256.sub a b)) (fun _ h' v => Stored h z h' v) := by
  have e := sub_eq z x y h
  rw [ax.val, ay.val] at e
  exact tri_of_eq (fits_sub hz ax.can ay.can) ax.base e

theorem tri_mul (hz : c.canWrite z) (ax : At c h x a) (ay : At c h y b) :
    Tri c (mul z x y) h (.ok (U256.mul a b)) (fun _ h' v => Stored h z h' v) := by
  have e := mul_eq z x y h
  rw [ax.val, ay.val] at e
  exact tri_of_eq (fits_mul hz ax.can ay.can) ax.base e

theorem tri_and (hz : c.canWrite z) (ax : At c h x a) (ay : At c h y b) :
    Tri c (InPlace.and z x y) h (.ok (U256.and a b)) (fun _ h' v => Stored h z h' v) := by
  have e := and_eq z x y h
  rw [ax.val, ay.val] at e
  exact tri_of_eq (fits_and hz ax.can ay.can) ax.base e

theorem tri_lsh (hz : c.canWrite z) (ax : At c h x a) (n : Nat) :
    Tri c (lsh z x n) h (.ok (U256.lsh a n)) (fun _ h' v => Stored h z h' v) := by
  have e := lsh_eq z x n h
  rw [ax.val] at e
  exact tri_of_eq (fits_lsh hz ax.can n) ax.base e

theorem tri_rsh (hz : c.canWrite z) (ax : At c h x a) (n : Nat) :
    Tri c (rsh z x n) h (.ok (U256.rsh a n)) (fun _ h' v => Stored h z h' v) := by
  have e := rsh_eq z x n h
  rw [ax.val] at e
  exact tri_of_eq (fits_rsh hz ax.can n) ax.base e

theorem tri_set (hz : c.canWrite z) (ax : At c h x a) :
    Tri c (set z x) h (.ok a) (fun _ h' v => Stored h z h' v) := by
  have e := set_eq z x h
  rw [ax.val] at e
  exact tri_of_eq (fits_set hz ax.can) ax.base e

theorem tri_neg (hz : c.canWrite z) (hzl : z < h.next) (ax : At c h x a) :
    Tri c (neg z x) h (.ok (U256.neg a)) (fun _ h' v => Stored h z h' v) := by
  have e := neg_stores z x h hzl ax.lt
  rw [ax.val] at e
  exact tri_of_stores (fits_neg hz ax.can) ax.base e

theorem tri_div (hz : c.canWrite z) (ax : At c h x a) (ay : At c h y b) :
    Tri c (div z x y) h (U256.div a b) (fun _ h' v => Stored h z h' v) := by
  have e := div_fits z x y h
  rw [ax.val, ay.val] at e
  exact tri_of_writes (fits_div hz ax.can ay.can) ax.base e

theorem tri_sdiv (hz : c.canWrite z) (hzl : z < h.next) (ax : At c h x a) (ay : At c h y b) :
    Tri c (sdiv z x y) h (U256.sdiv a b) (fun _ h' v => Stored h z h' v) := by
  have e := sdiv_fits z x y h hzl ax.lt ay.lt
  rw [ax.val, ay.val] at e
  exact tri_of_writes (fits_sdiv hz ax.can ay.can) ax.base e

theorem tri_mod (hz : c.canWrite z) (ax : At c h x a) (ay : At c h y b) :
    Tri c (mod z x y) h (U256.mod a b) (fun _ h' v => Stored h z h' v) := by
  have e := mod_fits z x y h
  rw [ax.val, ay.val] at e
  exact tri_of_writes (fits_mod hz ax.can ay.can) ax.base e

theorem tri_sqrt (hz : c.canWrite z) (hzl : z < h.next) (ax : At c h x a) :
    Tri c (sqrt z x) h (U256.sqrt a) (fun _ h' v => Stored h z h' v) := by
  have e := sqrt_fits z x h hzl ax.lt
  rw [ax.val] at e
  exact tri_of_writes (fits_sqrt hz ax.can) ax.base e

theorem tri_exp (hz : c.canWrite z) (hzl : z < h.next) (ax : At c h x a) (ay : At c h y b) :
    Tri c (exp z x y) h (.ok (U256.exp a b)) (fun _ h' v => Stored h z h' v) := by
  have e := exp_stores z x y h hzl ax.lt ay.lt
  rw [ax.val, ay.val] at e
  exact tri_of_stores (fits_exp hz ax.can ay.can) ax.base e

theorem tri_load (ax : At c h x a) : Tri c (load x) h (.ok a) (fun v h' w => v = w ∧ h' = h) := by
  refine ⟨Fits.load ax.can h ax.base, ?_⟩
  rw [load_eq, ax.val]
  exact ⟨rfl, rfl⟩

/-- reading a number first -/
theorem Tri.load_bind {γ δ : Type} {f : U256 → HM γ} {w : Go δ} {S : γ → Heap → δ → Prop} (ax : At c h x a) (t : Tri c (f a) h w S) :
    Tri c (load x >>= f) h w S :=
  (tri_load ax).step fun v h' hv => by obtain ⟨rfl, rfl⟩ := hv; exact t

theorem tri_new (hb : c.base ≤ h.next) (v : U256) : Tri c (new v) h (.ok v) (fun r h' v => Fresh c h r h' v) :=
  ⟨trivial, ⟨Kept.alloc h v, ⟨Nat.lt_succ_self _, if_pos rfl, .inr (.inr hb), le_trans hb (Nat.le_succ _)⟩, le_refl _⟩⟩

end methods
end Uni
