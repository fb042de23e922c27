import Verif.Proofs.Fuzz
import Verif.Proofs.Bitwise
/-! What a passed check says about an arbitrary method -/
namespace Uni
namespace Fuzz
open Spec U256 InPlace

theorem run_next {α : Type} (m : HM α) (h : Heap) {r : α} {h' : Heap} (e : m h = .ok (r, h')) : h.next ≤ h'.next := by
  induction m generalizing h with
  | ret a => cases e; exact le_rfl
  | fail x => cases e
  | rd x i k ih => exact ih _ _ e
  | wr z i w k ih => exact ih (h.write z ((h.cell z).setWord i w)) e
  | new v k ih =>
    have : h.next + 1 ≤ h'.next := ih _ (h.alloc v).2 e
    omega

theorem inv_op {α β : Type} {m : HM α} {f : α → HM β} {h : Heap} {q : β × Heap} (e : (m >>= f) h = .ok q) :
    ∃ r h1, m h = .ok (r, h1) ∧ h.next ≤ h1.next ∧ f r h1 = .ok q := by
  rw [bind_eq] at e
  cases hm : m h with
  | error x => rw [hm] at e; cases e
  | ok r => rw [hm] at e; exact ⟨r.1, r.2, rfl, run_next m h hm, e⟩

theorem inv_when {β : Type} {c : Prop} [Decidable c] {f : Unit → HM β} {h : Heap} {q : β × Heap}
    (e : (whenM (decide c) crash >>= f) h = .ok q) : ¬ c ∧ f () h = .ok q := by
  by_cases hc : c
  · rw [report f h hc] at e; cases e
  · rw [pass f h hc] at e; exact ⟨hc, e⟩

theorem inv_end {c : Prop} [Decidable c] {h : Heap} {q : Unit × Heap} (e : (whenM (decide c) crash) h = .ok q) : ¬ c := by
  intro hc
  rw [decide_eq_true hc] at e; cases e

theorem load_bind {β : Type} (x : Nat) (f : U256 → HM β) (h : Heap) : (load x >>= f) h = f (h.cell x) h := bind_ok (load_eq x h)
theorem new_bind {β : Type} (v : U256) (f : Nat → HM β) (h : Heap) : (new v >>= f) h = f h.next (h.alloc v).2 := bind_ok (new_eq v h)

theorem alloc_next (h : Heap) (v : U256) : (h.alloc v).2.next = h.next + 1 := rfl
theorem alloc_new (h : Heap) (v : U256) : (h.alloc v).2.cell h.next = v := by rw [cell_alloc, if_pos rfl]
theorem alloc_old (h : Heap) (v : U256) {q : Nat} (hq : q < h.next) : (h.alloc v).2.cell q = h.cell q := by
  rw [cell_alloc, if_neg (by omega)]

theorem unary_detect {op : Nat → Nat → HM Nat} {big : Int → Int} {a : U256} {h h' : Heap}
    (e : checkUnaryOp op big a h = .ok ((), h')) : Tested1 op a (want (big (toBig a))) := by
  unfold checkUnaryOp at e
  rw [new_bind] at e
  have c0 := alloc_new h a
  have n0 := alloc_next h a
  generalize (h.alloc a).2 = H1 at *
  generalize h.next = x at *
  rw [load_bind, c0, new_bind] at e
  have c1 := alloc_old H1 zero (show x < H1.next by omega)
  have r1 := alloc_new H1 zero
  have n1 := alloc_next H1 zero
  have hr : x ≠ H1.next := by omega
  generalize (H1.alloc zero).2 = H2 at *
  generalize H1.next = r at *
  obtain ⟨r', H3, e3, n3, f⟩ := inv_op e; clear e; have e := f; clear f
  obtain ⟨q1, f⟩ := inv_when e; clear e; have e := f; clear f
  rw [load_bind] at e
  obtain ⟨q2, f⟩ := inv_when e; clear e; have e := f; clear f
  rw [load_bind] at e
  dsimp only at e
  rw [load_bind] at e
  obtain ⟨q3, f⟩ := inv_when e; clear e; have e := f; clear f
  rw [not_not] at q1 q2 q3
  subst q1
  rw [q2] at q3 e
  rw [new_bind] at e
  have c4 := alloc_old H3 zero (show x < H3.next by omega)
  have g4 := alloc_new H3 zero
  have n4 := alloc_next H3 zero
  have hg : x ≠ H3.next := by omega
  generalize (H3.alloc zero).2 = H4 at *
  generalize H3.next = g at *
  rw [new_bind] at e
  have c5 := alloc_old H4 (ofWord 1) (show x < H4.next by omega)
  have g5 := alloc_old H4 (ofWord 1) (show g < H4.next by omega)
  have o5 := alloc_new H4 (ofWord 1)
  generalize (H4.alloc (ofWord 1)).2 = H5 at *
  generalize H4.next = o at *
  rw [bind_ok (sub_eq g g o H5)] at e
  have c6 : (H5.write g ((H5.cell g).sub (H5.cell o))).cell x = a := by
    rw [cell_write, if_neg hg, c5, c4, q2]
  have g6 : ((H5.write g ((H5.cell g).sub (H5.cell o))).cell g).toNat = 2 ^ 256 - 1 := by
    rw [cell_write, if_pos rfl, g5, g4, o5]
    decide +kernel
  generalize H5.write g ((H5.cell g).sub (H5.cell o)) = H6 at *
  obtain ⟨g', H7, e7, n7, f⟩ := inv_op e; clear e; have e := f; clear f
  obtain ⟨q4, f⟩ := inv_when e; clear e; have e := f; clear f
  rw [load_bind] at e
  obtain ⟨q5, f⟩ := inv_when e; clear e; have e := f; clear f
  obtain ⟨x', H8, e8, n8, f⟩ := inv_op e; clear e; have e := f; clear f
  obtain ⟨q6, f⟩ := inv_when e; clear e; have e := f; clear f
  rw [load_bind] at e
  have q7 := inv_end e
  rw [not_not] at q4 q5 q6 q7
  subst q4 q6
  exact ⟨_, _, _, H2, H3, H6, H7, H8, hr, hg, ⟨c1.trans c0, r1, ⟨e3, q3⟩, q2⟩, ⟨c6, g6, e7, q5⟩, e8, q7⟩

theorem inv_within {α β : Type} {m : HM α} {f : α → HM β} {h : Heap} {q : β × Heap} {used : List Nat} (hw : Within m used)
    (e : (m >>= f) h = .ok q) :
    ∃ r h1, m h = .ok (r, h1) ∧ h.next ≤ h1.next ∧ (∀ p w, p ∉ used → Holds h p w → Holds h1 p w) ∧ f r h1 = .ok q := by
  obtain ⟨r, h1, e1, n1, e2⟩ := inv_op e
  refine ⟨r, h1, e1, n1, fun p w hp hh => ⟨by have := hh.1; omega, ?_⟩, e2⟩
  rw [hw h h1 r e1 p hh.1 hp, hh.2]

theorem new_fresh {β : Type} (v : U256) (f : Nat → HM β) (h : Heap) :
    ∃ h' n, (new v >>= f) h = f n h' ∧ Holds h' n v ∧ (∀ r w, Holds h r w → Holds h' r w) ∧ ∀ r w, Holds h r w → r ≠ n := by
  obtain ⟨h', e, a, b, c⟩ := new_step v f h
  exact ⟨h', h.next, e, a, c, fun r w hr => by have := hr.1; omega⟩

theorem holds_of {h h' : Heap} {p : Nat} {w w' : U256} (hh : Holds h p w) (hn : h.next ≤ h'.next) (hc : h'.cell p = w') : Holds h' p w' :=
  ⟨by have := hh.1; omega, hc⟩

theorem dual_detect {op : Nat → Nat → Nat → HM Nat} (hw : ∀ z x y, Within (op z x y) [z, x, y]) {big : Int → Int → Int} {a b : U256}
    {h h' : Heap} (e : checkDualArgOp op big a b h = .ok ((), h')) : Tested2 op a b (want (big (toBig a) (toBig b))) := by
  unfold checkDualArgOp at e
  obtain ⟨H1, x, E, x1, _, _⟩ := new_fresh a _ h
  rw [E] at e; clear E
  obtain ⟨H2, y, E, y2, k2, d2⟩ := new_fresh b _ H1
  rw [E] at e; clear E
  have xy := d2 _ _ x1
  have x2 := k2 _ _ x1
  rw [load_step _ H2 x2] at e
  obtain ⟨H3, u, E, u3, k3, d3⟩ := new_fresh a _ H2
  rw [E] at e; clear E
  have xu := d3 _ _ x2
  have yu := d3 _ _ y2
  have x3 := k3 _ _ x2
  have y3 := k3 _ _ y2
  rw [load_step _ H3 y3] at e
  obtain ⟨H4, v, E, v4, k4, d4⟩ := new_fresh b _ H3
  rw [E] at e; clear E
  have xv := d4 _ _ x3
  have yv := d4 _ _ y3
  have uv := d4 _ _ u3
  have x4 := k4 _ _ x3
  have y4 := k4 _ _ y3
  have u4 := k4 _ _ u3
  obtain ⟨H5, r, E, r5, k5, d5⟩ := new_fresh zero _ H4
  rw [E] at e; clear E
  have xr := d5 _ _ x4
  have yr := d5 _ _ y4
  have ur := d5 _ _ u4
  have vr := d5 _ _ v4
  have x5 := k5 _ _ x4
  have y5 := k5 _ _ y4
  have u5 := k5 _ _ u4
  have v5 := k5 _ _ v4
  obtain ⟨r', H6, e6, n6, k6, f⟩ := inv_within (hw _ _ _) e; clear e; have e := f; clear f
  have u6 := k6 u _ (by simp [ur, xu.symm, yu.symm]) u5
  have v6 := k6 v _ (by simp [vr, xv.symm, yv.symm]) v5
  obtain ⟨q1, f⟩ := inv_when e; clear e; have e := f; clear f
  rw [load_bind, load_step _ H6 u6] at e
  obtain ⟨q2, f⟩ := inv_when e; clear e; have e := f; clear f
  rw [load_bind, load_step _ H6 v6] at e
  obtain ⟨q3, f⟩ := inv_when e; clear e; have e := f; clear f
  rw [not_not] at q1 q2 q3
  have x6 := holds_of x5 n6 q2
  have y6 := holds_of y5 n6 q3
  rw [load_step _ H6 x6, load_step _ H6 y6] at e
  dsimp only at e
  rw [load_bind] at e
  obtain ⟨q4, f⟩ := inv_when e; clear e; have e := f; clear f
  rw [not_not] at q4
  obtain ⟨H7, g, E, g7, k7, d7⟩ := new_fresh zero _ H6
  rw [E] at e; clear E
  have xg := d7 _ _ x6
  have yg := d7 _ _ y6
  have ug := d7 _ _ u6
  have vg := d7 _ _ v6
  have x7 := k7 _ _ x6
  have y7 := k7 _ _ y6
  have u7 := k7 _ _ u6
  have v7 := k7 _ _ v6
  obtain ⟨H8, E, g8, k8⟩ := write_step _ H7 g7.1 (xor_eq g x y H7)
  rw [E] at e; clear E
  rw [x7.2, y7.2] at g8
  have x8 := k8 _ _ xg x7
  have y8 := k8 _ _ yg y7
  have u8 := k8 _ _ ug u7
  have v8 := k8 _ _ vg v7
  obtain ⟨g', H9, e9, n9, k9, f⟩ := inv_within (hw _ _ _) e; clear e; have e := f; clear f
  have u9 := k9 u _ (by simp [ug, xu.symm, yu.symm]) u8
  have v9 := k9 v _ (by simp [vg, xv.symm, yv.symm]) v8
  obtain ⟨q5, f⟩ := inv_when e; clear e; have e := f; clear f
  rw [load_bind] at e
  obtain ⟨q6, f⟩ := inv_when e; clear e; have e := f; clear f
  rw [load_bind, load_step _ H9 u9] at e
  obtain ⟨q7, f⟩ := inv_when e; clear e; have e := f; clear f
  rw [load_bind, load_step _ H9 v9] at e
  obtain ⟨q8, f⟩ := inv_when e; clear e; have e := f; clear f
  rw [not_not] at q5 q6 q7 q8
  obtain ⟨x', H10, e10, n10, k10, f⟩ := inv_within (hw _ _ _) e; clear e; have e := f; clear f
  have u10 := k10 u _ (by simp [xu.symm, yu.symm]) u9
  obtain ⟨q9, f⟩ := inv_when e; clear e; have e := f; clear f
  rw [load_bind] at e
  obtain ⟨q10, f⟩ := inv_when e; clear e; have e := f; clear f
  obtain ⟨y', H11, e11, n11, k11, f⟩ := inv_within (hw _ _ _) e; clear e; have e := f; clear f
  obtain ⟨q11, f⟩ := inv_when e; clear e; have e := f; clear f
  rw [load_bind] at e
  have q12 := inv_end e
  rw [not_not] at q9 q10 q11 q12
  rw [q1] at e6
  rw [q5] at e9
  rw [q9] at e10
  rw [q11] at e11
  exact ⟨x, y, u, r, g, H5, H6, H8, H9, H10, H11, by simp [*], by simp [*],
    ⟨x5.2, y5.2, r5.2, ⟨e6, q4⟩, q2, q3⟩, ⟨x8.2, y8.2, by rw [g8.2, toNat_xor], ⟨e9, q6⟩, q7, q8⟩, ⟨e10, q10⟩, u10.2, e11, q12⟩

theorem three_detect {op : Nat → Nat → Nat → Nat → HM Nat} (hw : ∀ r x y z, Within (op r x y z) [r, x, y, z])
    {big : Int → Int → Int → Int} {a b c : U256}
    {h h' : Heap} (e : checkThreeArgOp op big a b c h = .ok ((), h')) : Tested3 op a b c (want (big (toBig a) (toBig b) (toBig c))) := by
  unfold checkThreeArgOp at e
  obtain ⟨H1, x, E, x1, _, _⟩ := new_fresh a _ h
  rw [E] at e; clear E
  obtain ⟨H2, y, E, y2, k2, d2⟩ := new_fresh b _ H1
  rw [E] at e; clear E
  have xy := d2 _ _ x1
  have x2 := k2 _ _ x1
  obtain ⟨Hz, z, E, z3, kz, dz⟩ := new_fresh c _ H2
  rw [E] at e; clear E
  have xz := dz _ _ x2
  have yz := dz _ _ y2
  replace x2 := kz _ _ x2
  replace y2 := kz _ _ y2
  rw [load_step _ Hz x2] at e
  obtain ⟨H3, u, E, u3, k3, d3⟩ := new_fresh a _ Hz
  rw [E] at e; clear E
  have xu := d3 _ _ x2
  have yu := d3 _ _ y2
  have zu := d3 _ _ z3
  have x3 := k3 _ _ x2
  have y3 := k3 _ _ y2
  replace z3 := k3 _ _ z3
  rw [load_step _ H3 y3] at e
  obtain ⟨H4, v, E, v4, k4, d4⟩ := new_fresh b _ H3
  rw [E] at e; clear E
  have xv := d4 _ _ x3
  have yv := d4 _ _ y3
  have zv := d4 _ _ z3
  have uv := d4 _ _ u3
  have x4 := k4 _ _ x3
  have y4 := k4 _ _ y3
  have z4 := k4 _ _ z3
  have u4 := k4 _ _ u3
  rw [load_step _ H4 z4] at e
  obtain ⟨Hw, t, E, t4, kt, dt⟩ := new_fresh c _ H4
  rw [E] at e; clear E
  have xt := dt _ _ x4
  have yt := dt _ _ y4
  have zt := dt _ _ z4
  have ut := dt _ _ u4
  have vt := dt _ _ v4
  replace x4 := kt _ _ x4
  replace y4 := kt _ _ y4
  replace z4 := kt _ _ z4
  replace u4 := kt _ _ u4
  replace v4 := kt _ _ v4
  obtain ⟨H5, r, E, r5, k5, d5⟩ := new_fresh zero _ Hw
  rw [E] at e; clear E
  have xr := d5 _ _ x4
  have yr := d5 _ _ y4
  have zr := d5 _ _ z4
  have ur := d5 _ _ u4
  have vr := d5 _ _ v4
  have tr := d5 _ _ t4
  have x5 := k5 _ _ x4
  have y5 := k5 _ _ y4
  have z5 := k5 _ _ z4
  have u5 := k5 _ _ u4
  have v5 := k5 _ _ v4
  have t5 := k5 _ _ t4
  obtain ⟨r', H6, e6, n6, k6, f⟩ := inv_within (hw _ _ _ _) e; clear e; have e := f; clear f
  have u6 := k6 u _ (by simp [ur, xu.symm, yu.symm, zu.symm]) u5
  have v6 := k6 v _ (by simp [vr, xv.symm, yv.symm, zv.symm]) v5
  have t6 := k6 t _ (by simp [tr, xt.symm, yt.symm, zt.symm]) t5
  obtain ⟨q1, f⟩ := inv_when e; clear e; have e := f; clear f
  rw [load_bind, load_step _ H6 u6] at e
  obtain ⟨q2, f⟩ := inv_when e; clear e; have e := f; clear f
  rw [load_bind, load_step _ H6 v6] at e
  obtain ⟨q3, f⟩ := inv_when e; clear e; have e := f; clear f
  rw [load_bind, load_step _ H6 t6] at e
  obtain ⟨q3z, f⟩ := inv_when e; clear e; have e := f; clear f
  rw [not_not] at q1 q2 q3 q3z
  have x6 := holds_of x5 n6 q2
  have y6 := holds_of y5 n6 q3
  have z6 := holds_of z5 n6 q3z
  rw [load_step _ H6 x6, load_step _ H6 y6, load_step _ H6 z6] at e
  dsimp only at e
  rw [load_bind] at e
  obtain ⟨q4, f⟩ := inv_when e; clear e; have e := f; clear f
  rw [not_not] at q4
  obtain ⟨H7, g, E, g7, k7, d7⟩ := new_fresh zero _ H6
  rw [E] at e; clear E
  have xg := d7 _ _ x6
  have yg := d7 _ _ y6
  have zg := d7 _ _ z6
  have ug := d7 _ _ u6
  have vg := d7 _ _ v6
  have tg := d7 _ _ t6
  have x7 := k7 _ _ x6
  have y7 := k7 _ _ y6
  have z7 := k7 _ _ z6
  have u7 := k7 _ _ u6
  have v7 := k7 _ _ v6
  have t7 := k7 _ _ t6
  obtain ⟨H8, E, g8, k8⟩ := write_step _ H7 g7.1 (xor_eq g x y H7)
  rw [E] at e; clear E
  rw [x7.2, y7.2] at g8
  have x8 := k8 _ _ xg x7
  have y8 := k8 _ _ yg y7
  have z8 := k8 _ _ zg z7
  have u8 := k8 _ _ ug u7
  have v8 := k8 _ _ vg v7
  have t8 := k8 _ _ tg t7
  obtain ⟨g', H9, e9, n9, k9, f⟩ := inv_within (hw _ _ _ _) e; clear e; have e := f; clear f
  have u9 := k9 u _ (by simp [ug, xu.symm, yu.symm, zu.symm]) u8
  have v9 := k9 v _ (by simp [vg, xv.symm, yv.symm, zv.symm]) v8
  have t9 := k9 t _ (by simp [tg, xt.symm, yt.symm, zt.symm]) t8
  obtain ⟨q5, f⟩ := inv_when e; clear e; have e := f; clear f
  rw [load_bind] at e
  obtain ⟨q6, f⟩ := inv_when e; clear e; have e := f; clear f
  rw [load_bind, load_step _ H9 u9] at e
  obtain ⟨q7, f⟩ := inv_when e; clear e; have e := f; clear f
  rw [load_bind, load_step _ H9 v9] at e
  obtain ⟨q8, f⟩ := inv_when e; clear e; have e := f; clear f
  rw [load_bind, load_step _ H9 t9] at e
  obtain ⟨q8z, f⟩ := inv_when e; clear e; have e := f; clear f
  rw [not_not] at q5 q6 q7 q8 q8z
  obtain ⟨x', H10, e10, n10, k10, f⟩ := inv_within (hw _ _ _ _) e; clear e; have e := f; clear f
  have u10 := k10 u _ (by simp [xu.symm, yu.symm, zu.symm]) u9
  have v10 := k10 v _ (by simp [xv.symm, yv.symm, zv.symm]) v9
  obtain ⟨q9, f⟩ := inv_when e; clear e; have e := f; clear f
  rw [load_bind] at e
  obtain ⟨q10, f⟩ := inv_when e; clear e; have e := f; clear f
  obtain ⟨y', H11, e11, n11, k11, f⟩ := inv_within (hw _ _ _ _) e; clear e; have e := f; clear f
  have v11 := k11 v _ (by simp [uv.symm, yv.symm, zv.symm]) v10
  obtain ⟨q11, f⟩ := inv_when e; clear e; have e := f; clear f
  rw [load_bind] at e
  obtain ⟨q12, f⟩ := inv_when e; clear e; have e := f; clear f
  obtain ⟨z', H12, e12, n12, k12, f⟩ := inv_within (hw _ _ _ _) e; clear e; have e := f; clear f
  obtain ⟨q13, f⟩ := inv_when e; clear e; have e := f; clear f
  rw [load_bind] at e
  have q14 := inv_end e
  rw [not_not] at q9 q10 q11 q12 q13 q14
  rw [q1] at e6
  rw [q5] at e9
  rw [q9] at e10
  rw [q11] at e11
  rw [q13] at e12
  exact ⟨x, y, z, u, v, r, g, H5, H6, H8, H9, H10, H11, H12, by simp [*], by simp [*],
    ⟨x5.2, y5.2, z5.2, r5.2, ⟨e6, q4⟩, q2, q3, q3z⟩, ⟨x8.2, y8.2, z8.2, by rw [g8.2, toNat_xor], ⟨e9, q6⟩, q7, q8, q8z⟩, ⟨e10, q10⟩,
    ⟨u10.2, e11, q12⟩, v11.2, e12, q14⟩

end Fuzz
end Uni
