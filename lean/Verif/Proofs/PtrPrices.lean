import Verif.Proofs.PtrWorld
import Verif.Model.PtrStrategy
/-! # Price histories on memory -/
namespace Uni
open InPlace Ptr U256

section
variable {c : Rights} {h : Heap}

/-- The numbers of the list exist and may be read. -/
def Reads (c : Rights) (h : Heap) (l : List Nat) : Prop := ∀ x ∈ l, x < h.next ∧ c.canRead x

theorem Reads.keep {h' : Heap} {l : List Nat} (r : Reads c h l) (k : Kept h h') : Reads c h' l :=
  fun x hx => ⟨lt_of_lt_of_le (r x hx).1 k.le, (r x hx).2⟩

theorem Reads.map_kept {h' : Heap} {l : List Nat} (r : Reads c h l) (k : Kept h h') : l.map h'.cell = l.map h.cell :=
  List.map_congr_left fun x hx => k.cell x (r x hx).1

theorem Reads.at_ {l : List Nat} (r : Reads c h l) (hb : c.base ≤ h.next) {x : Nat} (hx : x ∈ l) : At c h x (h.cell x) :=
  ⟨(r x hx).1, rfl, (r x hx).2, hb⟩

theorem tri_newNumbers : ∀ (n : Nat) {h : Heap}, c.base ≤ h.next →
    Tri c (newNumbers n) h (.ok (List.replicate n (ofWord 0))) (fun l h' v => v = l.map h'.cell ∧ Kept h h' ∧
      ∀ x ∈ l, h.next ≤ x ∧ x < h'.next)
  | 0, h, _ => Tri.ret ⟨rfl, Kept.refl _, by simp⟩
  | n + 1, h, hb => by
    unfold newNumbers
    refine (tri_new hb (ofWord 0)).fresh1 fun x h1 k1 ax lx => ?_
    refine (tri_newNumbers n ax.base).step ?_
    rintro l h2 ⟨e, k2, hl⟩
    refine Tri.ret ⟨?_, k1.trans k2, ?_⟩
    · rw [List.replicate_succ, e, List.map_cons, k2.cell x ax.lt, ax.val]
    · intro y hy
      rcases List.mem_cons.1 hy with rfl | hy
      · exact ⟨lx, lt_of_lt_of_le ax.lt k2.le⟩
      · exact ⟨le_trans k1.le (hl y hy).1, (hl y hy).2⟩

/-- The outcome of a call that makes or changes a history. -/
structure HistOk (h : Heap) (old : List Nat) (p : HPrices) (h' : Heap) (v : Prices) : Prop where
  view : v = p.view h'
  kept : Kept h h'
  mem : ∀ x ∈ p.prices, x ∈ old ∨ (h.next ≤ x ∧ x < h'.next)

theorem tri_newPrices (hb : c.base ≤ h.next) (n : Int) :
    Tri c (newPrices n) h (Prices.new n) (fun p h' v => HistOk h [] p h' v) := by
  unfold newPrices Prices.new
  by_cases hn : n < 0
  · rw [if_pos hn, if_pos hn]; exact ⟨trivial, rfl⟩
  · rw [if_neg hn, if_neg hn]
    have t := tri_newNumbers (c := c) n.toNat hb
    refine t.step (y := .ok _) ?_
    rintro l h' ⟨e, k, hl⟩
    refine Tri.ret ⟨?_, k, fun x hx => .inr (hl x hx)⟩
    rw [e]
    rfl

theorem setIdx_refines {α β : Type} (f : α → β) (l : List α) (i : Int) (a : α) :
    Refines (setIdx l i a) (setIdx (l.map f) i (f a)) (fun r v => v = r.map f ∧ ∀ x ∈ r, x = a ∨ x ∈ l) := by
  unfold setIdx
  rw [List.length_map]
  refine Refines.ite (fun _ => ?_) fun _ => ?_
  · exact ⟨(List.map_set).symm, fun x hx => (List.mem_or_eq_of_mem_set hx).symm⟩
  · exact rfl

theorem tri_addPrice {p : HPrices} (hr : Reads c h p.prices) {price : Nat} {v : U256} (a : At c h price v) :
    Tri c (addPrice p price) h ((p.view h).add v) (fun q h' b => HistOk h p.prices q h' b) := by
  unfold addPrice Prices.add
  dsimp only
  refine (mk_mul a a).fresh1 fun x h1 k1 ax lx => ?_
  refine (mk_rsh ax 230).fresh1 fun y h2 k2 ay _ => ?_
  refine Tri.load_bind ay (Tri.lift_bind fun _ => ?_)
  have k := k1.trans k2
  have e : (p.view h).prices = p.prices.map h2.cell := (hr.map_kept k).symm
  rw [e, ← (ax.keep k2).val]
  refine Tri.refines_bind (setIdx_refines h2.cell p.prices p.index x) ?_
  rintro l _ ⟨rfl, hl⟩
  refine Tri.ite (fun _ => ⟨trivial, rfl⟩) fun _ => ?_
  refine Tri.ret ⟨rfl, k, fun z hz => ?_⟩
  rcases hl z hz with rfl | h1
  · exact .inr ⟨lx, lt_of_lt_of_le ax.lt k2.le⟩
  · exact .inl h1

theorem tri_sumLoop {sum : Nat} (hw : c.canWrite sum) : ∀ (l : List Nat) {h : Heap} {v : U256}, At c h sum v → Reads c h l → sum ∉ l →
    Tri c (sumLoop sum l) h (.ok ((l.map h.cell).foldl (fun s x => U256.add s x) v)) (fun _ h' v => Stored h sum h' v)
  | [], h, v, a, _, _ => Tri.ret ⟨le_refl _, a.val, fun _ _ _ => rfl⟩
  | x :: l, h, v, a, hr, hs => by
    unfold sumLoop
    have ax : At c h x (h.cell x) := hr.at_ a.base List.mem_cons_self
    refine (tri_add hw a ax).step fun _ h1 s => ?_
    have hs' : sum ∉ l := fun hm => hs (List.mem_cons_of_mem _ hm)
    have hr' : Reads c h1 l := fun y hy => ⟨lt_of_lt_of_le (hr y (List.mem_cons_of_mem _ hy)).1 s.le, (hr y (List.mem_cons_of_mem _ hy)).2⟩
    have t := tri_sumLoop hw l (s.at_self a) hr' hs'
    have e : l.map h1.cell = l.map h.cell := List.map_congr_left fun y hy =>
      s.cell y (hr y (List.mem_cons_of_mem _ hy)).1 fun e => hs' (e ▸ hy)
    rw [e] at t
    exact t.mono fun _ h2 w s2 => ⟨le_trans s.le s2.le, s2.val, fun r hr hne =>
      (s2.cell r (lt_of_lt_of_le hr s.le) hne).trans (s.cell r hr hne)⟩

theorem tri_average (hb : c.base ≤ h.next) {p : HPrices} (hr : Reads c h p.prices) :
    Tri c (average p) h (p.view h).average (fun r h' v => Fresh c h r h' v) := by
  unfold average Prices.average
  dsimp only
  refine (tri_new hb zero).step fun x h1 f => ?_
  have k1 := f.kept
  refine (tri_sumLoop (f.write hb) p.prices f.at_ (hr.keep k1) fun hm => ?_).step fun _ h2 s => ?_
  · have := (hr x hm).1
    have := f.new
    omega
  rw [hr.map_kept k1] at s
  have f2 := f.stored s
  refine (tri_new f2.at_.base (ofWord (BitVec.ofInt 64 p.length))).fresh1 fun y h3 k3 ay _ => ?_
  exact (mk_div (f2.at_.keep k3) ay).tail (f2.kept.trans k3)

theorem tri_abs {z x : Nat} {a : U256} (hz : c.canWrite z) (hzl : z < h.next) (ax : At c h x a) :
    Tri c (abs z x) h (.ok (U256.abs a)) (fun _ h' v => Stored h z h' v) := by
  have e := abs_stores z x h hzl ax.lt
  rw [ax.val] at e
  exact tri_of_stores (fits_abs hz ax.can) ax.base e

theorem tri_squares {avg : Nat} {va : U256} : ∀ (l : List Nat) {h : Heap} (sum : Int), At c h avg va → Reads c h l →
    Tri c (squares avg l sum) h (Prices.squares va (l.map h.cell) sum) (fun r h' v => r = v ∧ Kept h h')
  | [], h, sum, _, _ => Tri.ret ⟨rfl, Kept.refl _⟩
  | x :: l, h, sum, a, hr => by
    unfold squares
    rw [List.map_cons]
    unfold Prices.squares
    dsimp only
    have ax : At c h x (h.cell x) := hr.at_ a.base List.mem_cons_self
    refine (mk_sub ax a).step fun d h1 f => ?_
    refine (tri_abs (f.write a.base) f.at_.lt f.at_).step fun _ h2 s => ?_
    have f2 := f.stored s
    refine Tri.load_bind f2.at_ (Tri.lift_bind fun _ => ?_)
    have hr' : Reads c h l := fun y hy => hr y (List.mem_cons_of_mem _ hy)
    have t := tri_squares l (sum + toBig (U256.abs (U256.sub (h.cell x) va)) * toBig (U256.abs (U256.sub (h.cell x) va)))
      (a.keep f2.kept) (hr'.keep f2.kept)
    rw [hr'.map_kept f2.kept] at t
    exact t.mono fun _ _ _ r => ⟨r.1, f2.kept.trans r.2⟩

theorem tri_volatility (hb : c.base ≤ h.next) {p : HPrices} (hr : Reads c h p.prices) :
    Tri c (volatility p) h (p.view h).volatility (fun r h' v => Fresh c h r h' v) := by
  unfold volatility Prices.volatility
  refine (tri_average hb hr).fresh fun x h1 v k1 ax _ => ?_
  have t := tri_squares p.prices 0 ax (hr.keep k1)
  rw [hr.map_kept k1] at t
  refine t.bind ?_
  rintro sum h2 _ ⟨rfl, k2⟩
  dsimp only
  refine Tri.ite (fun _ => ⟨trivial, rfl⟩) fun _ => Tri.lift_bind fun _ => Tri.lift_bind fun _ => ?_
  exact (tri_new (le_trans ax.base k2.le) _).tail (k1.trans k2)

end
end Uni
