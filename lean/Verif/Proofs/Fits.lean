import Verif.Spec.Rights
import Verif.Proofs.InPlace
import Verif.Proofs.HeapBase
/-! # Every method of `Int` keeps to the rights to its receiver and its operands -/
namespace Uni
open InPlace

/-! ### Runs never give memory back -/

theorem run_next {α : Type} (m : HM α) : ∀ {h h' : Heap} {a : α}, m h = .ok (a, h') → h.next ≤ h'.next := by
  induction m with
  | ret a => intro h h' b e; cases e; exact le_refl _
  | fail e => intro h h' b e; cases e
  | rd x i k ih => intro h h' b e; exact ih _ e
  | wr z i w k ih => intro h h' b e; exact ih (h := h.write z ((h.cell z).setWord i w)) e
  | new v k ih => intro h h' b e; exact le_trans (Nat.le_succ _) (ih _ (h := (h.alloc v).2) e)

/-! ### Keeping to rights -/

theorem Keeps.bind {α β : Type} {c : Rights} {m : HM α} {f : α → HM β} : ∀ {h : Heap}, m.Keeps c h →
    (∀ a h', m h = .ok (a, h') → (f a).Keeps c h') → (m >>= f).Keeps c h := by
  induction m with
  | ret a => intro h _ h2; exact h2 a h rfl
  | fail e => intro h _ _; exact trivial
  | rd x i k ih => intro h h1 h2; exact ⟨h1.1, ih _ h1.2 h2⟩
  | wr z i w k ih => intro h h1 h2; exact ⟨h1.1, ih h1.2 h2⟩
  | new v k ih => intro h h1 h2; exact ih _ h1 h2

theorem Keeps.mono {α : Type} {c d : Rights} {m : HM α} (hr : ∀ x, c.canRead x → d.canRead x)
    (hw : ∀ x, c.canWrite x → d.canWrite x) : ∀ {h : Heap}, m.Keeps c h → m.Keeps d h := by
  induction m with
  | ret a => intro h _; exact trivial
  | fail e => intro h _; exact trivial
  | rd x i k ih => intro h h1; exact ⟨hr _ h1.1, ih _ h1.2⟩
  | wr z i w k ih => intro h h1; exact ⟨hw _ h1.1, ih h1.2⟩
  | new v k ih => intro h h1; exact ih _ h1

/-- the program keeps to the rights on every heap that has the cells below `base` -/
def Fits {α : Type} (c : Rights) (m : HM α) : Prop := ∀ h : Heap, c.base ≤ h.next → m.Keeps c h

namespace Fits

variable {α β : Type} {c : Rights}

theorem bind {m : HM α} {f : α → HM β} (h1 : Fits c m) (h2 : ∀ a, Fits c (f a)) : Fits c (m >>= f) :=
  fun h hb => Keeps.bind (h1 h hb) fun a h' e => h2 a h' (le_trans hb (run_next m e))

theorem new_bind {v : U256} {f : Nat → HM β} (h2 : ∀ r, c.base ≤ r → Fits c (f r)) : Fits c (new v >>= f) :=
  fun h hb => h2 h.next hb _ (le_trans hb (Nat.le_succ _))

theorem new (v : U256) : Fits c (InPlace.new v) := fun _ _ => trivial
theorem ret (a : α) : Fits c (pure a : HM α) := fun _ _ => trivial
theorem rd {x : Nat} (hx : c.canRead x) (i : Fin 4) : Fits c (InPlace.rd x i) := fun _ _ => ⟨hx, trivial⟩
theorem wr {z : Nat} (hz : c.canWrite z) (i : Fin 4) (w : Word) : Fits c (InPlace.wr z i w) := fun _ _ => ⟨hz, trivial⟩
theorem load {x : Nat} (hx : c.canRead x) : Fits c (InPlace.load x) := fun _ _ => ⟨hx, hx, hx, hx, trivial⟩
theorem store {z : Nat} (hz : c.canWrite z) (v : U256) : Fits c (InPlace.store z v) := fun _ _ => ⟨hz, hz, hz, hz, trivial⟩
theorem lift (g : Go α) : Fits c (InPlace.lift g) := fun _ _ => by cases g <;> exact trivial
theorem ite {p : Prop} [Decidable p] {m m' : HM α} (h1 : Fits c m) (h2 : Fits c m') : Fits c (if p then m else m') := by
  split_ifs
  · exact h1
  · exact h2
theorem whenM {b : Bool} {m : HM Unit} (h1 : Fits c m) : Fits c (InPlace.whenM b m) := ite h1 (ret ())

end Fits

/-- break a program into its accesses -/
macro "fits" : tactic => `(tactic| (
  with_reducible repeat (first
    | exact Fits.rd (by assumption) _
    | exact Fits.wr (by assumption) _ _
    | exact Fits.load (by assumption)
    | exact Fits.store (by assumption) _
    | exact Fits.lift _
    | exact Fits.ret _
    | exact Fits.new _
    | (refine Fits.new_bind fun r hr => ?_)
    | (refine Fits.bind ?_ fun _ => ?_)
    | (refine Fits.whenM ?_)
    | (refine Fits.ite ?_ ?_))))

theorem canRead_of_write {c : Rights} {x : Nat} (h : c.canWrite x) : c.canRead x := by
  rcases h with h | h
  · exact .inr (.inl h)
  · exact .inr (.inr h)
theorem canWrite_new {c : Rights} {x : Nat} (h : c.base ≤ x) : c.canWrite x := .inr h
theorem canRead_new {c : Rights} {x : Nat} (h : c.base ≤ x) : c.canRead x := .inr (.inr h)

namespace InPlace
variable {c : Rights} {z x y m : Nat}

theorem fits_add (hz : c.canWrite z) (hx : c.canRead x) (hy : c.canRead y) : Fits c (add z x y) := by unfold add; fits
theorem fits_addOverflow (hz : c.canWrite z) (hx : c.canRead x) (hy : c.canRead y) : Fits c (addOverflow z x y) := by
  unfold addOverflow; fits
theorem fits_addUint64 (hz : c.canWrite z) (hx : c.canRead x) (w : Word) : Fits c (addUint64 z x w) := by unfold addUint64; fits
theorem fits_subUint64 (hz : c.canWrite z) (hx : c.canRead x) (w : Word) : Fits c (subUint64 z x w) := by unfold subUint64; fits
theorem fits_sub (hz : c.canWrite z) (hx : c.canRead x) (hy : c.canRead y) : Fits c (sub z x y) := by unfold sub; fits
theorem fits_subOverflow (hz : c.canWrite z) (hx : c.canRead x) (hy : c.canRead y) : Fits c (subOverflow z x y) := by
  unfold subOverflow; fits
theorem fits_set (hz : c.canWrite z) (hx : c.canRead x) : Fits c (set z x) := by unfold set; fits
theorem fits_clear (hz : c.canWrite z) : Fits c (clear z) := Fits.store hz _
theorem fits_setOne (hz : c.canWrite z) : Fits c (setOne z) := Fits.store hz _
theorem fits_setAllOne (hz : c.canWrite z) : Fits c (setAllOne z) := Fits.store hz _
theorem fits_setUint64 (hz : c.canWrite z) (w : Word) : Fits c (setUint64 z w) := Fits.store hz _
theorem fits_neg (hz : c.canWrite z) (hx : c.canRead x) : Fits c (neg z x) := by
  unfold neg
  exact Fits.new_bind fun r hr => fits_sub hz (canRead_new hr) hx
theorem fits_abs (hz : c.canWrite z) (hx : c.canRead x) : Fits c (abs z x) := by
  unfold abs
  refine Fits.bind (Fits.rd hx 3) fun w => Fits.ite (fits_set hz hx) ?_
  exact Fits.new_bind fun r hr => fits_sub hz (canRead_new hr) hx
theorem fits_mul (hz : c.canWrite z) (hx : c.canRead x) (hy : c.canRead y) : Fits c (mul z x y) := by unfold mul; fits
theorem fits_mulOverflow (hz : c.canWrite z) (hx : c.canRead x) (hy : c.canRead y) : Fits c (mulOverflow z x y) := by
  unfold mulOverflow; fits
theorem fits_squared (hz : c.canWrite z) : Fits c (squared z) := by
  have hx := canRead_of_write hz
  unfold squared; fits
theorem fits_div (hz : c.canWrite z) (hx : c.canRead x) (hy : c.canRead y) : Fits c (div z x y) := by
  unfold div clear setOne setUint64; fits
theorem fits_mod (hz : c.canWrite z) (hx : c.canRead x) (hy : c.canRead y) : Fits c (mod z x y) := by
  unfold mod
  refine Fits.bind (Fits.load hx) fun a => Fits.bind (Fits.load hy) fun b => Fits.ite (fits_clear hz) (Fits.ite (fits_set hz hx)
    (Fits.ite (fits_clear hz) (Fits.ite (fits_setUint64 hz _) ?_)))
  exact Fits.bind (Fits.lift _) fun r => Fits.store hz _
theorem fits_not (hz : c.canWrite z) (hx : c.canRead x) : Fits c (not z x) := by unfold not; fits
theorem fits_or (hz : c.canWrite z) (hx : c.canRead x) (hy : c.canRead y) : Fits c (or z x y) := by unfold or; fits
theorem fits_and (hz : c.canWrite z) (hx : c.canRead x) (hy : c.canRead y) : Fits c (and z x y) := by unfold and; fits
theorem fits_xor (hz : c.canWrite z) (hx : c.canRead x) (hy : c.canRead y) : Fits c (xor z x y) := by unfold xor; fits
theorem fits_assign (f : U256 → U256) (hz : c.canWrite z) (hx : c.canRead x) : Fits c (assign f z x) := by unfold assign; fits
theorem fits_lsh (hz : c.canWrite z) (hx : c.canRead x) (n : Nat) : Fits c (lsh z x n) := by
  have hzr := canRead_of_write hz
  unfold lsh assign set clear lshEnd64 lshEnd128 lshEnd192
  fits
theorem fits_rsh (hz : c.canWrite z) (hx : c.canRead x) (n : Nat) : Fits c (rsh z x n) := by
  have hzr := canRead_of_write hz
  unfold rsh assign set clear rshEnd64 rshEnd128 rshEnd192
  fits
theorem fits_srsh (hz : c.canWrite z) (hx : c.canRead x) (n : Nat) : Fits c (srsh z x n) := by
  have hzr := canRead_of_write hz
  unfold srsh
  refine Fits.bind (Fits.load hx) fun v => Fits.ite (fits_rsh hz hx n) ?_
  unfold assign set setAllOne srshEnd64 srshEnd128 srshEnd192
  fits
theorem fits_byte (hz : c.canWrite z) (hx : c.canRead x) : Fits c (byte z x) := by
  have hzr := canRead_of_write hz
  unfold byte clear
  fits
theorem fits_mulMod (fuel : Nat) (hz : c.canWrite z) (hx : c.canRead x) (hy : c.canRead y) (hm : c.canRead m) :
    Fits c (mulMod fuel z x y m) := by unfold mulMod; fits
theorem fits_mulModWithReciprocal (fuel : Nat) (mu : Words5) (hz : c.canWrite z) (hx : c.canRead x) (hy : c.canRead y)
    (hm : c.canRead m) : Fits c (mulModWithReciprocal fuel z x y m mu) := by unfold mulModWithReciprocal; fits

theorem fits_negIf {β : Type} {b : Bool} {f : Nat → HM β} (hx : c.canRead x) (hf : ∀ r, c.canRead r → Fits c (f r)) :
    Fits c (negIf b x >>= f) := by
  unfold negIf
  cases b
  · exact hf x hx
  · refine fun h hb => ?_
    have e : ((if true = true then do
        let t ← InPlace.new U256.zero
        neg t x
        return t
      else return x : HM Nat) >>= f) = (do
        let t ← InPlace.new U256.zero
        neg t x
        f t : HM β) := rfl
    rw [e]
    exact Fits.new_bind (fun r hr => Fits.bind (fits_neg (canWrite_new hr) hx) fun _ => hf r (canRead_new hr)) h hb

theorem fits_smod (hz : c.canWrite z) (hx : c.canRead x) (hy : c.canRead y) : Fits c (smod z x y) := by
  unfold smod
  refine Fits.bind (Fits.load hy) fun a => Fits.bind (Fits.load hx) fun b => ?_
  refine fits_negIf hx fun x' hx' => fits_negIf hy fun y' hy' => ?_
  refine Fits.bind (fits_mod hz hx' hy') fun _ => Fits.ite (fits_neg hz (canRead_of_write hz)) (Fits.ret _)

theorem fits_sdiv (hz : c.canWrite z) (hx : c.canRead x) (hy : c.canRead y) : Fits c (sdiv z x y) := by
  unfold sdiv
  refine Fits.bind (Fits.load hx) fun a => Fits.bind (Fits.load hy) fun b => ?_
  refine Fits.ite (Fits.ite (fits_div hz hx hy) ?_) (Fits.ite ?_ ?_)
  · exact fits_negIf hy fun t ht => Fits.bind (fits_div hz hx ht) fun _ => fits_neg hz (canRead_of_write hz)
  · exact fits_negIf hx fun s hs => fits_negIf hy fun t ht => fits_div hz hs ht
  · exact fits_negIf hx fun s hs => Fits.bind (fits_div hz hs hy) fun _ => fits_neg hz (canRead_of_write hz)

theorem fits_expLoop {res mul' : Nat} (hr : c.canWrite res) (hm : c.canWrite mul') : ∀ (k : Nat) (w : Word), Fits c (expLoop res mul' k w)
  | 0, _ => Fits.ret _
  | k + 1, w => by
    unfold expLoop
    exact Fits.bind (Fits.whenM (fits_mul hr (canRead_of_write hr) (canRead_of_write hm))) fun _ =>
      Fits.bind (fits_squared hm) fun _ => fits_expLoop hr hm k _

set_option maxRecDepth 4000 in
theorem fits_exp (hz : c.canWrite z) (hx : c.canRead x) (hy : c.canRead y) : Fits c (exp z x y) := by
  unfold exp
  refine Fits.new_bind fun r hr => Fits.bind (Fits.load hx) fun v => Fits.new_bind fun s hs => ?_
  have h1 := fits_expLoop (canWrite_new hr) (canWrite_new hs)
  refine Fits.bind (Fits.load hy) fun e => Fits.bind (Fits.rd hy 0) fun _ => Fits.bind (h1 _ _) fun _ => Fits.bind (Fits.rd hy 1) fun _ =>
    Fits.bind (h1 _ _) fun _ => Fits.bind (Fits.rd hy 2) fun _ => Fits.bind (h1 _ _) fun _ => Fits.bind (Fits.rd hy 3) fun _ =>
    Fits.bind (h1 _ _) fun _ => fits_set hz (canRead_new hr)

theorem fits_extendSign (hz : c.canWrite z) (hx : c.canRead x) (hy : c.canRead y) : Fits c (extendSign z x y) := by
  unfold extendSign
  refine Fits.bind (Fits.load hy) fun k => Fits.ite (fits_set hz hx) (Fits.new_bind fun r hr => ?_)
  have hw := canWrite_new hr
  have hrr := canRead_new hr
  exact Fits.bind (fits_lsh hw hrr _) fun _ => Fits.bind (fits_subUint64 hw hrr 1) fun _ => Fits.bind (Fits.load hx) fun v =>
    Fits.ite (Fits.bind (fits_not hw hrr) fun _ => fits_or hz hx hrr) (fits_and hz hx hrr)

theorem fits_rsh1 (hz : c.canWrite z) : Fits c (rsh1 z) := by
  have hzr := canRead_of_write hz
  unfold rsh1; fits

theorem fits_sqrtLoop (hz : c.canWrite z) (hx : c.canRead x) : ∀ (fuel z1 z2 : Nat), c.canWrite z1 → c.canWrite z2 →
    Fits c (sqrtLoop z x fuel z1 z2)
  | 0, _, _, _, _ => Fits.lift _
  | fuel + 1, z1, z2, h1, h2 => by
    have r1 := canRead_of_write h1
    have r2 := canRead_of_write h2
    unfold sqrtLoop
    exact Fits.bind (fits_div h2 hx r1) fun _ => Fits.bind (fits_add h2 r2 r1) fun _ => Fits.bind (fits_rsh1 h2) fun _ =>
      Fits.bind (Fits.load r2) fun _ => Fits.bind (Fits.load r1) fun _ =>
      Fits.ite (fits_set hz r1) (fits_sqrtLoop hz hx fuel z2 z1 h2 h1)

theorem fits_sqrt (hz : c.canWrite z) (hx : c.canRead x) : Fits c (sqrt z x) := by
  unfold sqrt
  refine Fits.bind (Fits.load hx) fun v => Fits.ite (fits_set hz hx) ?_
  exact Fits.new_bind fun r hr => Fits.new_bind fun s hs => Fits.bind (fits_lsh (canWrite_new hr) (canRead_new hr) _) fun _ =>
    fits_sqrtLoop hz hx 300 r s (canWrite_new hr) (canWrite_new hs)

theorem fits_reduceOnce {s : Nat} (hs : c.canWrite s) (hx : c.canRead x) (hm : c.canRead m) : Fits c (reduceOnce s x m) := by
  unfold reduceOnce
  exact Fits.bind (fits_set hs hx) fun _ => Fits.bind (fits_subOverflow hs (canRead_of_write hs) hm) fun o =>
    Fits.ite (fits_set hs hx) (Fits.ret _)

theorem fits_cloneIf {β : Type} {f : Nat → HM β} (hm : c.canRead m) (hf : ∀ r, c.canRead r → Fits c (f r)) : Fits c (cloneIf z m >>= f) := by
  unfold cloneIf
  by_cases e : z = m
  · simp only [e, if_true]
    intro h hb
    exact ⟨hm, hm, hm, hm, hf h.next (canRead_new hb) _ (le_trans hb (Nat.le_succ _))⟩
  · simp only [e, if_false]
    intro h hb
    exact ⟨hm, hm, hm, hm, hf m hm h hb⟩

theorem fits_addMod (hz : c.canWrite z) (hx : c.canRead x) (hy : c.canRead y) (hm : c.canRead m) : Fits c (addMod z x y m) := by
  have hzr := canRead_of_write hz
  unfold addMod
  refine Fits.bind (Fits.load hx) fun _ => Fits.bind (Fits.load hy) fun _ => Fits.bind (Fits.load hm) fun _ =>
    Fits.ite (Fits.new_bind fun s hs => Fits.new_bind fun t ht => ?_) (Fits.ite (fits_clear hz) ?_)
  · have ws := canWrite_new hs
    have wt := canWrite_new ht
    have rs := canRead_new hs
    have rt := canRead_new ht
    exact Fits.bind (fits_reduceOnce ws hx hm) fun _ => Fits.bind (fits_reduceOnce wt hy hm) fun _ =>
      Fits.bind (fits_addOverflow ws rs rt) fun _ => Fits.bind (Fits.whenM (fits_sub ws rs hm)) fun _ =>
      Fits.bind (fits_set wt rs) fun _ => Fits.bind (fits_subOverflow ws rs hm) fun _ =>
      Fits.bind (Fits.whenM (fits_set ws rt)) fun _ => fits_set hz rs
  · refine fits_cloneIf hm fun m' hm' => Fits.bind (fits_addOverflow hz hx hy) fun o => Fits.ite ?_ (fits_mod hz hzr hm')
    fits

end InPlace
end Uni
