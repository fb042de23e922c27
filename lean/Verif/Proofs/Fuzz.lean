import Verif.Spec.Fuzz
import Verif.Proofs.InPlace
/-! The checks of the fuzz harness -/
namespace Uni
namespace Fuzz
open Spec U256 InPlace

theorem pass {β : Type} {c : Prop} [Decidable c] (f : Unit → HM β) (h : Heap) (hc : ¬ c) :
    (whenM (decide c) crash >>= f) h = f () h := by
  rw [decide_eq_false hc]; rfl
theorem report {β : Type} {c : Prop} [Decidable c] (f : Unit → HM β) (h : Heap) (hc : c) :
    (whenM (decide c) crash >>= f) h = .error .panic := by
  rw [decide_eq_true hc]; rfl
theorem pass_end {c : Prop} [Decidable c] (h : Heap) (hc : ¬ c) : (whenM (decide c) crash) h = .ok ((), h) := by
  rw [decide_eq_false hc]; rfl

/-- a cell that is allocated and holds `v` -/
def Holds (h : Heap) (r : Nat) (v : U256) : Prop := r < h.next ∧ h.cell r = v

theorem new_step {β : Type} (v : U256) (f : Nat → HM β) (h : Heap) :
    ∃ h', (new v >>= f) h = f h.next h' ∧ Holds h' h.next v ∧ h'.next = h.next + 1 ∧ ∀ r w, Holds h r w → Holds h' r w := by
  refine ⟨_, bind_ok (new_eq v h), ⟨?_, ?_⟩, rfl, ?_⟩
  · show h.next < h.next + 1; omega
  · rw [cell_alloc, if_pos rfl]
  · rintro r w ⟨a, b⟩
    refine ⟨?_, ?_⟩
    · show r < h.next + 1; omega
    · rw [cell_alloc, if_neg (by omega), b]

theorem op_step {β : Type} {m : HM Nat} {z : Nat} {v : U256} (f : Nat → HM β) (h : Heap) (hz : z < h.next) (hm : Stores m h z v z) :
    ∃ h', (m >>= f) h = f z h' ∧ Holds h' z v ∧ ∀ r w, r ≠ z → Holds h r w → Holds h' r w := by
  obtain ⟨h', e, e1, e2, e3⟩ := hm
  refine ⟨h', bind_ok e, ⟨by omega, e2⟩, ?_⟩
  rintro r w hr ⟨a, b⟩
  exact ⟨by omega, by rw [e3 r a hr, b]⟩

theorem write_step {β : Type} {m : HM Unit} {z : Nat} {v : U256} (f : Unit → HM β) (h : Heap) (hz : z < h.next)
    (hm : m h = .ok ((), h.write z v)) :
    ∃ h', (m >>= f) h = f () h' ∧ Holds h' z v ∧ ∀ r w, r ≠ z → Holds h r w → Holds h' r w := by
  refine ⟨_, bind_ok hm, ⟨hz, ?_⟩, ?_⟩
  · rw [cell_write, if_pos rfl]
  · rintro r w hr ⟨a, b⟩
    exact ⟨a, by rw [cell_write, if_neg hr, b]⟩

theorem load_step {β : Type} {x : Nat} {v : U256} (f : U256 → HM β) (h : Heap) (hx : Holds h x v) : (load x >>= f) h = f v h := by
  rw [bind_ok (load_eq x h), hx.2]

/-- the value the harness expects -/
abbrev want (b : Int) : U256 := (fromBig b).1

theorem unary_pass {op : Nat → Nat → HM Nat} {f : U256 → U256} (ho : Computes1 op f) {big : Int → Int} {a : U256} (h : Heap)
    (hf : f a = want (big (toBig a))) : ∃ h', checkUnaryOp op big a h = .ok ((), h') ∧ ∀ q w, Holds h q w → Holds h' q w := by
  unfold checkUnaryOp
  obtain ⟨h1, e1, x1, n1, k1⟩ := new_step a _ h
  rw [e1]
  generalize hx : h.next = x at *
  rw [load_step _ h1 x1]
  obtain ⟨h2, e2, r2, n2, k2⟩ := new_step zero _ h1
  rw [e2]
  have x2 := k2 _ _ x1
  have lxr : x < h1.next := by omega
  have xr : x ≠ h1.next := by omega
  generalize h1.next = r at *
  have s3 := ho h2 r x r2.1 x2.1
  rw [x2.2] at s3
  obtain ⟨h3, e3, r3, k3⟩ := op_step _ h2 r2.1 s3
  rw [e3]
  have x3 := k3 _ _ xr x2
  rw [pass _ _ (by simp), load_step _ h3 x3, pass _ _ (by simp), load_step _ h3 x3]
  dsimp only
  rw [load_step _ h3 r3, pass _ _ (by simpa using hf)]
  obtain ⟨h4, e4, g4, n4, k4⟩ := new_step zero _ h3
  rw [e4]
  have x4 := k4 _ _ x3
  have lxg : x < h3.next := by have := x3.1; omega
  have xg : x ≠ h3.next := by omega
  generalize h3.next = g at *
  obtain ⟨h5, e5, o5, n5, k5⟩ := new_step (ofWord 1) _ h4
  rw [e5]
  have x5 := k5 _ _ x4
  have g5 := k5 _ _ g4
  obtain ⟨h6, e6, g6, k6⟩ := write_step _ h5 g5.1 (sub_eq g g h4.next h5)
  rw [e6]
  have x6 := k6 _ _ xg x5
  have s7 := ho h6 g x g6.1 x6.1
  rw [x6.2] at s7
  obtain ⟨h7, e7, g7, k7⟩ := op_step _ h6 g6.1 s7
  rw [e7]
  have x7 := k7 _ _ xg x6
  rw [pass _ _ (by simp), load_step _ h7 g7, pass _ _ (by simpa using hf)]
  have s8 := ho h7 x x x7.1 x7.1
  rw [x7.2] at s8
  obtain ⟨h8, e8, x8, k8⟩ := op_step _ h7 x7.1 s8
  rw [e8, pass _ _ (by simp), load_step _ h8 x8, pass_end _ (by simpa using hf)]
  refine ⟨_, rfl, fun q w hq => ?_⟩
  have hq1 := hq.1
  exact k8 _ _ (by omega) (k7 _ _ (by omega) (k6 _ _ (by omega) (k5 _ _ (k4 _ _ (k3 _ _ (by omega) (k2 _ _ (k1 _ _ hq)))))))

theorem unary_report {op : Nat → Nat → HM Nat} {f : U256 → U256} (ho : Computes1 op f) {big : Int → Int} {a : U256} (h : Heap)
    (hf : f a ≠ want (big (toBig a))) : checkUnaryOp op big a h = .error .panic := by
  unfold checkUnaryOp
  obtain ⟨h1, e1, x1, n1, k1⟩ := new_step a _ h
  rw [e1]
  generalize hx : h.next = x at *
  rw [load_step _ h1 x1]
  obtain ⟨h2, e2, r2, n2, k2⟩ := new_step zero _ h1
  rw [e2]
  have x2 := k2 _ _ x1
  have lxr : x < h1.next := by omega
  have xr : x ≠ h1.next := by omega
  generalize h1.next = r at *
  have s3 := ho h2 r x r2.1 x2.1
  rw [x2.2] at s3
  obtain ⟨h3, e3, r3, k3⟩ := op_step _ h2 r2.1 s3
  rw [e3]
  have x3 := k3 _ _ xr x2
  rw [pass _ _ (by simp), load_step _ h3 x3, pass _ _ (by simp), load_step _ h3 x3]
  dsimp only
  rw [load_step _ h3 r3, report _ _ hf]

theorem dual_check {op : Nat → Nat → Nat → HM Nat} {f : U256 → U256 → U256} (ho : Computes2 op f) {big : Int → Int → Int} {a b : U256}
    (h : Heap) : (f a b = want (big (toBig a) (toBig b)) → ∃ h', checkDualArgOp op big a b h = .ok ((), h') ∧ ∀ q w, Holds h q w → Holds h' q w) ∧
      (f a b ≠ want (big (toBig a) (toBig b)) → checkDualArgOp op big a b h = .error .panic) := by
  unfold checkDualArgOp
  obtain ⟨h1, e1, x1, n1, k1⟩ := new_step a _ h
  rw [e1]
  generalize hx : h.next = x at *
  obtain ⟨h2, e2, y2, n2, k2⟩ := new_step b _ h1
  rw [e2]
  have x2 := k2 _ _ x1
  have lxy : x < h1.next := by omega
  have xy : x ≠ h1.next := by omega
  generalize h1.next = y at *
  rw [load_step _ h2 x2]
  obtain ⟨h3, e3, u3, n3, k3⟩ := new_step a _ h2
  rw [e3]
  have x3 := k3 _ _ x2
  have y3 := k3 _ _ y2
  have lxu : x < h2.next := by have := x2.1; omega
  have xu : x ≠ h2.next := by omega
  have lyu : y < h2.next := by have := y2.1; omega
  have yu : y ≠ h2.next := by omega
  generalize h2.next = u at *
  rw [load_step _ h3 y3]
  obtain ⟨h4, e4, v4, n4, k4⟩ := new_step b _ h3
  rw [e4]
  have x4 := k4 _ _ x3
  have y4 := k4 _ _ y3
  have u4 := k4 _ _ u3
  have lxv : x < h3.next := by have := x3.1; omega
  have xv : x ≠ h3.next := by omega
  have lyv : y < h3.next := by have := y3.1; omega
  have yv : y ≠ h3.next := by omega
  have luv : u < h3.next := by have := u3.1; omega
  have uv : u ≠ h3.next := by omega
  generalize h3.next = v at *
  obtain ⟨h5, e5, r5, n5, k5⟩ := new_step zero _ h4
  rw [e5]
  have x5 := k5 _ _ x4
  have y5 := k5 _ _ y4
  have u5 := k5 _ _ u4
  have v5 := k5 _ _ v4
  have lxr : x < h4.next := by have := x4.1; omega
  have xr : x ≠ h4.next := by omega
  have lyr : y < h4.next := by have := y4.1; omega
  have yr : y ≠ h4.next := by omega
  have lur : u < h4.next := by have := u4.1; omega
  have ur : u ≠ h4.next := by omega
  have lvr : v < h4.next := by have := v4.1; omega
  have vr : v ≠ h4.next := by omega
  generalize h4.next = r at *
  have s6 := ho h5 r x y r5.1 x5.1 y5.1
  rw [x5.2, y5.2] at s6
  obtain ⟨h6, e6, r6, k6⟩ := op_step _ h5 r5.1 s6
  rw [e6]
  have x6 := k6 _ _ xr x5
  have y6 := k6 _ _ yr y5
  have u6 := k6 _ _ ur u5
  have v6 := k6 _ _ vr v5
  rw [pass _ _ (by simp), load_step _ h6 x6, load_step _ h6 u6, pass _ _ (by simp), load_step _ h6 y6, load_step _ h6 v6,
    pass _ _ (by simp), load_step _ h6 x6, load_step _ h6 y6]
  dsimp only
  rw [load_step _ h6 r6]
  refine ⟨fun hf => ?_, fun hf => report _ _ hf⟩
  rw [pass _ _ (by simpa using hf)]
  obtain ⟨h7, e7, g7, n7, k7⟩ := new_step zero _ h6
  rw [e7]
  have x7 := k7 _ _ x6
  have y7 := k7 _ _ y6
  have u7 := k7 _ _ u6
  have v7 := k7 _ _ v6
  have lxg : x < h6.next := by have := x6.1; omega
  have xg : x ≠ h6.next := by omega
  have lyg : y < h6.next := by have := y6.1; omega
  have yg : y ≠ h6.next := by omega
  have lug : u < h6.next := by have := u6.1; omega
  have ug : u ≠ h6.next := by omega
  have lvg : v < h6.next := by have := v6.1; omega
  have vg : v ≠ h6.next := by omega
  generalize h6.next = g at *
  obtain ⟨h8, e8, g8, k8⟩ := write_step _ h7 g7.1 (xor_eq g x y h7)
  rw [e8]
  have x8 := k8 _ _ xg x7
  have y8 := k8 _ _ yg y7
  have u8 := k8 _ _ ug u7
  have v8 := k8 _ _ vg v7
  have s9 := ho h8 g x y g8.1 x8.1 y8.1
  rw [x8.2, y8.2] at s9
  obtain ⟨h9, e9, g9, k9⟩ := op_step _ h8 g8.1 s9
  rw [e9]
  have x9 := k9 _ _ xg x8
  have y9 := k9 _ _ yg y8
  have u9 := k9 _ _ ug u8
  have v9 := k9 _ _ vg v8
  rw [pass _ _ (by simp), load_step _ h9 g9, pass _ _ (by simpa using hf), load_step _ h9 x9, load_step _ h9 u9, pass _ _ (by simp),
    load_step _ h9 y9, load_step _ h9 v9, pass _ _ (by simp)]
  have s10 := ho h9 x x y x9.1 x9.1 y9.1
  rw [x9.2, y9.2] at s10
  obtain ⟨h10, e10, x10, k10⟩ := op_step _ h9 x9.1 s10
  have y10 := k10 _ _ xy.symm y9
  have u10 := k10 _ _ xu.symm u9
  rw [e10, pass _ _ (by simp), load_step _ h10 x10, pass _ _ (by simpa using hf)]
  have s11 := ho h10 y u y y10.1 u10.1 y10.1
  rw [u10.2, y10.2] at s11
  obtain ⟨h11, e11, y11, k11⟩ := op_step _ h10 y10.1 s11
  rw [e11, pass _ _ (by simp), load_step _ h11 y11, pass_end _ (by simpa using hf)]
  refine ⟨_, rfl, fun q w hq => ?_⟩
  have hq1 := hq.1
  exact k11 _ _ (by omega) (k10 _ _ (by omega) (k9 _ _ (by omega) (k8 _ _ (by omega) (k7 _ _ (k6 _ _ (by omega) (k5 _ _ (k4 _ _ (k3 _ _ (k2 _ _ (k1 _ _ hq))))))))))

theorem three_check {op : Nat → Nat → Nat → Nat → HM Nat} {f : U256 → U256 → U256 → U256} (ho : Computes3 op f)
    {big : Int → Int → Int → Int} {a b c : U256} (h : Heap) :
    (f a b c = want (big (toBig a) (toBig b) (toBig c)) → ∃ h', checkThreeArgOp op big a b c h = .ok ((), h') ∧ ∀ q w, Holds h q w → Holds h' q w) ∧
      (f a b c ≠ want (big (toBig a) (toBig b) (toBig c)) → checkThreeArgOp op big a b c h = .error .panic) := by
  unfold checkThreeArgOp
  obtain ⟨h1, e1, x1, n1, k1⟩ := new_step a _ h
  rw [e1]
  generalize hx : h.next = x at *
  obtain ⟨h2, e2, y2, n2, k2⟩ := new_step b _ h1
  rw [e2]
  have x2 := k2 _ _ x1
  have lxy : x < h1.next := by omega
  have xy : x ≠ h1.next := by omega
  generalize h1.next = y at *
  obtain ⟨h3, e3, z3, n3, k3⟩ := new_step c _ h2
  rw [e3]
  have x3 := k3 _ _ x2
  have y3 := k3 _ _ y2
  have lxz : x < h2.next := by have := x2.1; omega
  have xz : x ≠ h2.next := by omega
  have lyz : y < h2.next := by have := y2.1; omega
  have yz : y ≠ h2.next := by omega
  generalize h2.next = z at *
  rw [load_step _ h3 x3]
  obtain ⟨h4, e4, u4, n4, k4⟩ := new_step a _ h3
  rw [e4]
  have x4 := k4 _ _ x3
  have y4 := k4 _ _ y3
  have z4 := k4 _ _ z3
  have lxu : x < h3.next := by have := x3.1; omega
  have xu : x ≠ h3.next := by omega
  have lyu : y < h3.next := by have := y3.1; omega
  have yu : y ≠ h3.next := by omega
  have lzu : z < h3.next := by have := z3.1; omega
  have zu : z ≠ h3.next := by omega
  generalize h3.next = u at *
  rw [load_step _ h4 y4]
  obtain ⟨h5, e5, v5, n5, k5⟩ := new_step b _ h4
  rw [e5]
  have x5 := k5 _ _ x4
  have y5 := k5 _ _ y4
  have z5 := k5 _ _ z4
  have u5 := k5 _ _ u4
  have lxv : x < h4.next := by have := x4.1; omega
  have xv : x ≠ h4.next := by omega
  have lyv : y < h4.next := by have := y4.1; omega
  have yv : y ≠ h4.next := by omega
  have lzv : z < h4.next := by have := z4.1; omega
  have zv : z ≠ h4.next := by omega
  generalize h4.next = v at *
  rw [load_step _ h5 z5]
  obtain ⟨h6, e6, w6, n6, k6⟩ := new_step c _ h5
  rw [e6]
  have x6 := k6 _ _ x5
  have y6 := k6 _ _ y5
  have z6 := k6 _ _ z5
  have u6 := k6 _ _ u5
  have v6 := k6 _ _ v5
  generalize h5.next = w at *
  obtain ⟨h7, e7, r7, n7, k7⟩ := new_step zero _ h6
  rw [e7]
  have x7 := k7 _ _ x6
  have y7 := k7 _ _ y6
  have z7 := k7 _ _ z6
  have u7 := k7 _ _ u6
  have v7 := k7 _ _ v6
  have w7 := k7 _ _ w6
  have lxr : x < h6.next := by have := x6.1; omega
  have xr : x ≠ h6.next := by omega
  have lyr : y < h6.next := by have := y6.1; omega
  have yr : y ≠ h6.next := by omega
  have lzr : z < h6.next := by have := z6.1; omega
  have zr : z ≠ h6.next := by omega
  have lur : u < h6.next := by have := u6.1; omega
  have ur : u ≠ h6.next := by omega
  have lvr : v < h6.next := by have := v6.1; omega
  have vr : v ≠ h6.next := by omega
  have lwr : w < h6.next := by have := w6.1; omega
  have wr : w ≠ h6.next := by omega
  generalize h6.next = r at *
  have s8 := ho h7 r x y z r7.1 x7.1 y7.1 z7.1
  rw [x7.2, y7.2, z7.2] at s8
  obtain ⟨h8, e8, r8, k8⟩ := op_step _ h7 r7.1 s8
  rw [e8]
  have x8 := k8 _ _ xr x7
  have y8 := k8 _ _ yr y7
  have z8 := k8 _ _ zr z7
  have u8 := k8 _ _ ur u7
  have v8 := k8 _ _ vr v7
  have w8 := k8 _ _ wr w7
  rw [pass _ _ (by simp), load_step _ h8 x8, load_step _ h8 u8, pass _ _ (by simp), load_step _ h8 y8, load_step _ h8 v8,
    pass _ _ (by simp), load_step _ h8 z8, load_step _ h8 w8, pass _ _ (by simp), load_step _ h8 x8, load_step _ h8 y8,
    load_step _ h8 z8]
  dsimp only
  rw [load_step _ h8 r8]
  refine ⟨fun hf => ?_, fun hf => report _ _ hf⟩
  rw [pass _ _ (by simpa using hf)]
  obtain ⟨h9, e9, g9, n9, k9⟩ := new_step zero _ h8
  rw [e9]
  have x9 := k9 _ _ x8
  have y9 := k9 _ _ y8
  have z9 := k9 _ _ z8
  have u9 := k9 _ _ u8
  have v9 := k9 _ _ v8
  have w9 := k9 _ _ w8
  have lxg : x < h8.next := by have := x8.1; omega
  have xg : x ≠ h8.next := by omega
  have lyg : y < h8.next := by have := y8.1; omega
  have yg : y ≠ h8.next := by omega
  have lzg : z < h8.next := by have := z8.1; omega
  have zg : z ≠ h8.next := by omega
  have lug : u < h8.next := by have := u8.1; omega
  have ug : u ≠ h8.next := by omega
  have lvg : v < h8.next := by have := v8.1; omega
  have vg : v ≠ h8.next := by omega
  have lwg : w < h8.next := by have := w8.1; omega
  have wg : w ≠ h8.next := by omega
  generalize h8.next = g at *
  obtain ⟨h10, e10, g10, k10⟩ := write_step _ h9 g9.1 (xor_eq g x y h9)
  rw [e10]
  have x10 := k10 _ _ xg x9
  have y10 := k10 _ _ yg y9
  have z10 := k10 _ _ zg z9
  have u10 := k10 _ _ ug u9
  have v10 := k10 _ _ vg v9
  have w10 := k10 _ _ wg w9
  have s11 := ho h10 g x y z g10.1 x10.1 y10.1 z10.1
  rw [x10.2, y10.2, z10.2] at s11
  obtain ⟨h11, e11, g11, k11⟩ := op_step _ h10 g10.1 s11
  rw [e11]
  have x11 := k11 _ _ xg x10
  have y11 := k11 _ _ yg y10
  have z11 := k11 _ _ zg z10
  have u11 := k11 _ _ ug u10
  have v11 := k11 _ _ vg v10
  have w11 := k11 _ _ wg w10
  rw [pass _ _ (by simp), load_step _ h11 g11, pass _ _ (by simpa using hf), load_step _ h11 x11, load_step _ h11 u11,
    pass _ _ (by simp), load_step _ h11 y11, load_step _ h11 v11, pass _ _ (by simp), load_step _ h11 z11, load_step _ h11 w11,
    pass _ _ (by simp)]
  have s12 := ho h11 x x y z x11.1 x11.1 y11.1 z11.1
  rw [x11.2, y11.2, z11.2] at s12
  obtain ⟨h12, e12, x12, k12⟩ := op_step _ h11 x11.1 s12
  have y12 := k12 _ _ xy.symm y11
  have z12 := k12 _ _ xz.symm z11
  have u12 := k12 _ _ xu.symm u11
  have v12 := k12 _ _ xv.symm v11
  rw [e12, pass _ _ (by simp), load_step _ h12 x12, pass _ _ (by simpa using hf)]
  have s13 := ho h12 y u y z y12.1 u12.1 y12.1 z12.1
  rw [u12.2, y12.2, z12.2] at s13
  obtain ⟨h13, e13, y13, k13⟩ := op_step _ h12 y12.1 s13
  have z13 := k13 _ _ yz.symm z12
  have u13 := k13 _ _ yu.symm u12
  have v13 := k13 _ _ yv.symm v12
  rw [e13, pass _ _ (by simp), load_step _ h13 y13, pass _ _ (by simpa using hf)]
  have s14 := ho h13 z u v z z13.1 u13.1 v13.1 z13.1
  rw [u13.2, v13.2, z13.2] at s14
  obtain ⟨h14, e14, z14, k14⟩ := op_step _ h13 z13.1 s14
  rw [e14, pass _ _ (by simp), load_step _ h14 z14, pass_end _ (by simpa using hf)]
  refine ⟨_, rfl, fun q w hq => ?_⟩
  have hq1 := hq.1
  exact k14 _ _ (by omega) (k13 _ _ (by omega) (k12 _ _ (by omega) (k11 _ _ (by omega) (k10 _ _ (by omega) (k9 _ _ (k8 _ _ (by omega) (k7 _ _ (k6 _ _ (k5 _ _ (k4 _ _ (k3 _ _ (k2 _ _ (k1 _ _ hq)))))))))))))

end Fuzz
end Uni
