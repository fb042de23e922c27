import Verif.Proofs.PtrSwap
import Verif.Proofs.HeapWorld
import Verif.Spec.PtrWorld
/-! # Callers with pointers -/
namespace Uni
open InPlace Ptr U256 Spec
open scoped List

section
variable {c : Rights} {h : Heap} {p : HPool}

/-! ### New pools and clones -/

/-- A new pool: in order, made of new numbers except for the price. -/
structure NewOk (c : Rights) (h : Heap) (q : HPool) (h' : Heap) (b : Pool) : Prop where
  view : b = q.view h'
  ok : PoolOk c h' q
  kept : Kept h h'
  new : ∀ r ∈ q.writes, h.next ≤ r

theorem tri_newPool (kc : Consts c h) (t0 t1 : String) (fee : Int) {price : Nat} {v : U256} (a : At c h price v) :
    Tri c (Ptr.newPool t0 t1 fee price) h (Pool.new t0 t1 fee v) (fun q h' b => NewOk c h q h' b ∧ q.price = price) := by
  unfold Ptr.newPool Pool.new
  refine Tri.lift_bind fun _ => ?_
  rw [ofWord_zero]
  refine (tri_new a.base zero).fresh1 fun x h1 k1 ax lx => ?_
  have kc1 := kc.keep k1
  refine (tri_getTickAtSqrtRatio kc1 (a.keep k1)).bind ?_
  rintro t _ _ ⟨rfl, rfl⟩
  refine (tri_clone kc1.zero).fresh1 fun y h2 k2 ay ly => ?_
  refine (tri_clone (kc1.zero.keep k2)).fresh1 fun z h3 k3 az lz => ?_
  have k := (k1.trans k2).trans k3
  have t1 := ax.lt
  have t2 := ay.lt
  have t3 := az.lt
  have e1 := k1.le
  have e2 := k2.le
  have e3 := k3.le
  have tp := a.lt
  have hc := kc.le
  have hb := a.base
  have hm : ∀ r ∈ [x, y, z] ++ [] ++ ([] : List Nat), h.next ≤ r ∧ r < h3.next := by
    intro r hr
    simp only [List.append_nil, List.mem_cons, List.not_mem_nil, or_false] at hr
    omega
  refine Tri.ret ⟨⟨?_, ⟨⟨⟨?_, ?_⟩, ?_, ?_⟩, ?_, ?_, kc.keep k, ?_, ?_⟩, k, fun r hr => (hm r hr).1⟩, rfl⟩
  · unfold HPool.view
    dsimp only
    rw [(a.keep k).val, ((ax.keep k2).keep k3).val, (ay.keep k3).val, az.val]
    rfl
  · show ([x, y, z] ++ [] ++ ([] : List Nat)).Nodup
    simp only [List.append_nil, List.nodup_cons, List.mem_cons, List.not_mem_nil, or_false, not_or, List.nodup_nil,
      not_false_eq_true, and_true]
    refine ⟨⟨?_, ?_⟩, ?_⟩ <;> omega
  · exact fun r hr => (hm r hr).2
  · intro hr
    have := (hm _ hr).1
    dsimp only at this
    omega
  · dsimp only; omega
  · exact fun r hr => .inr (le_trans hb (hm r hr).1)
  · exact a.can
  · exact fun r hr => le_trans hc (hm r hr).1
  · omega

theorem cloneInfo_eq (i : HInfo) (h : Heap) : Ptr.cloneInfo i h = .ok (i.clone h) := rfl

theorem clonePositions_eq : ∀ (l : List (String × HInfo)) (h : Heap), Ptr.clonePositions l h = .ok (HPool.clonePositions h l)
  | [], _ => rfl
  | e :: l, h => by
    unfold Ptr.clonePositions
    rw [bind_eq, cloneInfo_eq]
    show ((Ptr.clonePositions l >>= fun r => pure ((e.1, (e.2.clone h).1) :: r)) : HM _) (e.2.clone h).2 = _
    rw [bind_eq, clonePositions_eq l]
    rfl

theorem clonePool_eq (p : HPool) (h : Heap) : Ptr.clonePool p h = .ok ((p.clone h).2, (p.clone h).1) := by
  unfold Ptr.clonePool
  rw [bind_eq, clonePositions_eq]
  rfl

theorem fits_clone {x : Nat} (hx : c.canRead x) : Fits c (Ptr.clone x) := Fits.bind (Fits.load hx) fun _ => Fits.new _

theorem fits_cloneInfo {i : HInfo} (hr : ∀ r ∈ i.refs, c.canRead r) : Fits c (Ptr.cloneInfo i) := by
  unfold Ptr.cloneInfo
  exact Fits.bind (fits_clone (hr _ (by simp [HInfo.refs]))) fun _ => Fits.bind (fits_clone (hr _ (by simp [HInfo.refs]))) fun _ =>
    Fits.bind (fits_clone (hr _ (by simp [HInfo.refs]))) fun _ => Fits.bind (fits_clone (hr _ (by simp [HInfo.refs]))) fun _ =>
    Fits.bind (fits_clone (hr _ (by simp [HInfo.refs]))) fun _ => Fits.ret _

theorem fits_clonePositions : ∀ (l : List (String × HInfo)), (∀ r ∈ posRefs l, c.canRead r) → Fits c (Ptr.clonePositions l)
  | [], _ => Fits.ret _
  | e :: l, hr => by
    unfold Ptr.clonePositions
    exact Fits.bind (fits_cloneInfo fun r h => hr r (List.mem_append_left _ h)) fun _ =>
      Fits.bind (fits_clonePositions l fun r h => hr r (List.mem_append_right _ h)) fun _ => Fits.ret _

theorem fits_clonePool (hr : ∀ r ∈ p.price :: p.writes, c.canRead r) : Fits c (Ptr.clonePool p) := by
  unfold Ptr.clonePool
  exact Fits.bind (fits_clonePositions _ fun r h => hr r (by simp [HPool.writes, h])) fun _ =>
    Fits.bind (fits_clone (hr _ (by simp))) fun _ => Fits.bind (fits_clone (hr _ (by simp [HPool.writes]))) fun _ =>
    Fits.bind (fits_clone (hr _ (by simp [HPool.writes]))) fun _ => Fits.bind (fits_clone (hr _ (by simp [HPool.writes]))) fun _ =>
    Fits.ret _

/-- The clone of a pool without ticks. -/
theorem tri_clonePool (o : PoolOk c h p) (ht : p.ticks.refs = []) :
    Tri c (Ptr.clonePool p) h (.ok (p.view h).clone) (fun q h' b => NewOk c h q h' b ∧ h.next ≤ q.price ∧ q.ticks = p.ticks) := by
  obtain ⟨c1, c2, c3, c4, c5, c6, c7⟩ := clone_spec o.sep
  have new : ∀ r ∈ (p.clone h).2.writes, h.next ≤ r := by
    intro r hr
    rcases c6 r hr with h1 | h1
    · rw [ht] at h1; cases h1
    · exact h1
  refine ⟨fits_clonePool ?_ h o.base, ?_⟩
  · intro r hr
    rcases List.mem_cons.1 hr with rfl | hr
    · exact o.canPrice
    · exact canRead_of_write (o.can r hr)
  · rw [clonePool_eq]
    have k : Kept h (p.clone h).1 := ⟨c5, c4⟩
    exact ⟨⟨c1.symm, ⟨c3, fun r hr => .inr (le_trans o.base (new r hr)), .inr (.inr (le_trans o.base c7)), o.consts.keep k,
      fun r hr => le_trans o.consts.le (new r hr), le_trans o.base c5⟩, k, new⟩, c7, c2⟩

/-! ### The world of the caller -/

/-- What the caller holds is in order.  `K` are the positions of the numbers that may be prices of pools. -/
structure CallerOk (c : Rights) (K : Nat → Prop) (h : Heap) (w : PWorld) : Prop where
  consts : Consts c h
  base : c.base ≤ h.next
  high : constEnd ≤ c.base
  pool : ∀ p ∈ w.pools, PoolOk c h p
  apart : w.pools.Pairwise Apart
  num : ∀ x ∈ w.nums, c.base ≤ x ∧ x < h.next
  nodup : w.nums.Nodup
  off : ∀ x ∈ w.nums, ∀ p ∈ w.pools, x ∉ p.writes
  price : ∀ k x, w.nums[k]? = some x → ¬ K k → ∀ p ∈ w.pools, x ≠ p.price

namespace CallerOk
variable {K : Nat → Prop} {w : PWorld} {h' : Heap}

theorem at_ (ok : CallerOk c K h w) {x : Nat} (hx : x ∈ w.nums) : At c h x (h.cell x) :=
  ⟨(ok.num x hx).2, rfl, .inr (.inr (ok.num x hx).1), ok.base⟩

/-- a pool that is not the one that made the step -/
theorem poolOk_other {p p' q : HPool} (o : PoolOk c h p) (oq : PoolOk c h q) (k : StepOk h p h' p') (s : Sep h' q) : PoolOk c h' q :=
  ⟨s, oq.can, oq.canPrice, o.consts.evolve k.ev o.high, oq.high, le_trans o.base k.ev.le⟩

/-- one pool has changed, some numbers were returned -/
theorem step (ok : CallerOk c K h w) {i : Nat} {p' : HPool} (hi : w.pools[i]? = some p) (k : StepOk h p h' p') (rs : List Nat)
    (hr : ∀ r ∈ rs, ∃ v, Res c h p' h' r v) (hn : rs.Nodup) :
    CallerOk c K h' ⟨w.pools.set i p', w.nums ++ rs⟩ ∧
      (w.pools.set i p').map (HPool.view h') = (w.pools.map (HPool.view h)).set i (p'.view h') ∧
      w.nums.map h'.cell = w.nums.map h.cell := by
  have hp := List.mem_of_getElem? hi
  have o := ok.pool p hp
  obtain ⟨w1, w2, _⟩ := world_set (fun q hq => (ok.pool q hq).sep) ok.apart hi k
  have mem : ∀ q ∈ w.pools.set i p', q = p' ∨ q ∈ w.pools := fun q hq => (List.mem_or_eq_of_mem_set hq).symm
  have new : ∀ r ∈ rs, h.next ≤ r ∧ r < h'.next ∧ r ∉ p'.writes ∧ r ≠ p'.price := fun r h1 => by
    obtain ⟨v, hv⟩ := hr r h1
    exact ⟨hv.new, hv.at_.lt, hv.writes, hv.price⟩
  refine ⟨⟨o.consts.evolve k.ev o.high, le_trans ok.base k.ev.le, ok.high, ?_, w1.apart, ?_, ?_, ?_, ?_⟩, w2, ?_⟩
  · intro q hq
    rcases mem q hq with rfl | h1
    · exact o.step k
    · exact poolOk_other o (ok.pool q h1) k (w1.sep q hq)
  · intro x hx
    rcases List.mem_append.1 hx with h1 | h1
    · exact ⟨(ok.num x h1).1, lt_of_lt_of_le (ok.num x h1).2 k.ev.le⟩
    · exact ⟨le_trans ok.base (new x h1).1, (new x h1).2.1⟩
  · refine List.nodup_append'.2 ⟨ok.nodup, hn, fun x h1 h2 => ?_⟩
    have := (ok.num x h1).2
    have := (new x h2).1
    omega
  · intro x hx q hq
    rcases List.mem_append.1 hx with h1 | h1
    · rcases mem q hq with rfl | h2
      · exact k.not_mem (ok.num x h1).2 (ok.off x h1 p hp)
      · exact ok.off x h1 q h2
    · rcases mem q hq with rfl | h2
      · exact (new x h1).2.2.1
      · intro hm
        have := (ok.pool q h2).sep.safe.lt x hm
        have := (new x h1).1
        omega
  · intro n x hx hK q hq
    rcases lt_or_ge n w.nums.length with hl | hl
    · have hx' : w.nums[n]? = some x := by rw [← hx]; exact (List.getElem?_append_left hl).symm
      have hm := List.mem_of_getElem? hx'
      rcases mem q hq with rfl | h2
      · rcases k.price with e | e
        · rw [e]; exact ok.price n x hx' hK p hp
        · have := (ok.num x hm).2; omega
      · exact ok.price n x hx' hK q h2
    · have hx' : rs[n - w.nums.length]? = some x := by rw [← hx]; exact (List.getElem?_append_right hl).symm
      have hm := List.mem_of_getElem? hx'
      rcases mem q hq with rfl | h2
      · exact (new x hm).2.2.2
      · have := (ok.pool q h2).sep.priceLt
        have := (new x hm).1
        omega
  · exact List.map_congr_left fun x hx => k.ev.frame x (ok.num x hx).2 (ok.off x hx p hp)

/-- memory was added, and some numbers that are no part of a pool have changed -/
theorem other (ok : CallerOk c K h w) (Z : Nat → Prop) (hZ : ∀ r, Z r → c.base ≤ r ∧ ∀ p ∈ w.pools, r ∉ p.writes ∧ r ≠ p.price)
    (le : h.next ≤ h'.next) (fr : ∀ r, r < h.next → ¬ Z r → h'.cell r = h.cell r) :
    CallerOk c K h' w ∧ w.pools.map (HPool.view h') = w.pools.map (HPool.view h) := by
  have kc : Consts c h' := ok.consts.map fun r v hr a =>
    ⟨lt_of_lt_of_le a.lt le, by rw [fr r a.lt fun hz => by have := (hZ r hz).1; have := ok.high; omega]; exact a.val, a.can,
      le_trans a.base le⟩
  have hc : ∀ q ∈ w.pools, ∀ r ∈ q.price :: q.writes, r < h.next ∧ h'.cell r = h.cell r := by
    intro q hq r hr
    have sq := (ok.pool q hq).sep
    have hlt : r < h.next := by
      rcases List.mem_cons.1 hr with rfl | h1
      · exact sq.priceLt
      · exact sq.safe.lt r h1
    refine ⟨hlt, fr r hlt fun hz => ?_⟩
    obtain ⟨_, h2⟩ := hZ r hz
    rcases List.mem_cons.1 hr with h3 | h1
    · exact (h2 q hq).2 h3
    · exact (h2 q hq).1 h1
  refine ⟨⟨kc, le_trans ok.base le, ok.high, fun q hq => ?_, ok.apart, fun x hx => ⟨(ok.num x hx).1, lt_of_lt_of_le (ok.num x hx).2 le⟩,
    ok.nodup, ok.off, ok.price⟩, List.map_congr_left fun q hq => HPool.view_congr fun r hr => (hc q hq r hr).2⟩
  have oq := ok.pool q hq
  exact ⟨⟨⟨oq.sep.safe.nodup, fun r hr => lt_of_lt_of_le (oq.sep.safe.lt r hr) le⟩, oq.sep.price, lt_of_lt_of_le oq.sep.priceLt le⟩,
    oq.can, oq.canPrice, kc, oq.high, le_trans oq.base le⟩

theorem keep (ok : CallerOk c K h w) (k : Kept h h') :
    CallerOk c K h' w ∧ w.view h' = w.view h := by
  obtain ⟨h1, h2⟩ := ok.other (fun _ => False) (fun _ hz => hz.elim) k.le fun r hr _ => k.cell r hr
  refine ⟨h1, ?_⟩
  unfold PWorld.view
  rw [h2, List.map_congr_left fun x hx => k.cell x (ok.num x hx).2]

/-- a new number -/
theorem number (ok : CallerOk c K h w) {r : Nat} {v : U256} (f : Fresh c h r h' v) :
    CallerOk c K h' { w with nums := w.nums ++ [r] } := by
  have o := (ok.keep f.kept).1
  have hlt : ∀ x ∈ w.nums, x < h.next := fun x hx => (ok.num x hx).2
  refine ⟨o.consts, o.base, o.high, o.pool, o.apart, ?_, ?_, ?_, ?_⟩
  · intro x hx
    rcases List.mem_append.1 hx with h1 | h1
    · exact o.num x h1
    · rw [List.mem_singleton.1 h1]; exact ⟨le_trans ok.base f.new, f.at_.lt⟩
  · refine List.nodup_append'.2 ⟨o.nodup, List.nodup_singleton _, fun x h1 h2 => ?_⟩
    have := hlt x h1
    have := f.new
    have := List.mem_singleton.1 h2
    omega
  · intro x hx q hq
    rcases List.mem_append.1 hx with h1 | h1
    · exact o.off x h1 q hq
    · rw [List.mem_singleton.1 h1]
      intro hm
      have := (ok.pool q hq).sep.safe.lt _ hm
      have := f.new
      omega
  · intro n x hx hK q hq
    rcases lt_or_ge n w.nums.length with hl | hl
    · exact o.price n x (by rw [← hx]; exact (List.getElem?_append_left hl).symm) hK q hq
    · have hx' : [r][n - w.nums.length]? = some x := by rw [← hx]; exact (List.getElem?_append_right hl).symm
      rw [List.mem_singleton.1 (List.mem_of_getElem? hx')]
      have := (ok.pool q hq).sep.priceLt
      have := f.new
      omega

/-- a new pool -/
theorem newPool (ok : CallerOk c K h w) {q : HPool} {b : Pool} (n : NewOk c h q h' b)
    (hq : h.next ≤ q.price ∨ ∃ k x, w.nums[k]? = some x ∧ K k ∧ q.price = x) :
    CallerOk c K h' { w with pools := w.pools ++ [q] } ∧ (PWorld.view h' { w with pools := w.pools ++ [q] }) =
      { w.view h with pools := (w.view h).pools ++ [b] } := by
  obtain ⟨o, hv⟩ := ok.keep n.kept
  have mem : ∀ y ∈ w.pools ++ [q], y ∈ w.pools ∨ y = q := fun y hy =>
    (List.mem_append.1 hy).imp id List.mem_singleton.1
  refine ⟨⟨o.consts, o.base, o.high, ?_, ?_, o.num, o.nodup, ?_, ?_⟩, ?_⟩
  · intro y hy
    rcases mem y hy with h1 | rfl
    · exact o.pool y h1
    · exact n.ok
  · refine List.pairwise_append.2 ⟨ok.apart, List.pairwise_singleton _ _, ?_⟩
    intro y hy z hz
    rw [List.mem_singleton.1 hz]
    have sy := (ok.pool y hy).sep
    constructor
    · intro r hr hr'
      have g1 := sy.safe.lt r hr
      rcases List.mem_cons.1 hr' with h1 | h1
      · rcases hq with h2 | ⟨k, x, h2, _, h3⟩
        · omega
        · exact ok.off x (List.mem_of_getElem? h2) y hy (by rw [← h3, ← h1]; exact hr)
      · have := n.new r h1; omega
    · intro r hr hr'
      have g1 := n.new r hr
      rcases List.mem_cons.1 hr' with h1 | h1
      · have := sy.priceLt; omega
      · have := sy.safe.lt r h1; omega
  · intro x hx y hy
    rcases mem y hy with h1 | rfl
    · exact o.off x hx y h1
    · intro hm
      have := n.new x hm
      have := (ok.num x hx).2
      omega
  · intro k x hx hK y hy
    rcases mem y hy with h1 | rfl
    · exact o.price k x hx hK y h1
    · intro e
      rcases hq with h2 | ⟨k', x', h2, h3, h4⟩
      · have := (ok.num x (List.mem_of_getElem? hx)).2; omega
      · have e' : x' = x := by rw [← h4, ← e]
        subst e'
        have hl : k < w.nums.length := (List.getElem?_eq_some_iff.1 hx).1
        exact hK (((List.getElem?_inj hl ok.nodup).1 (hx.trans h2.symm)) ▸ h3)
  · unfold PWorld.view at hv ⊢
    dsimp only at hv ⊢
    rw [List.map_append, (VWorld.mk.inj hv).1, (VWorld.mk.inj hv).2, n.view]
    rfl

/-- an assignment to a number that is no price -/
theorem assign (ok : CallerOk c K h w) {k x : Nat} {v : U256} (hk : w.nums[k]? = some x) (nK : ¬ K k) (s : Stored h x h' v) :
    CallerOk c K h' w ∧ w.view h' = { w.view h with nums := (w.view h).nums.set k v } := by
  have hx := List.mem_of_getElem? hk
  obtain ⟨h1, h2⟩ := ok.other (fun r => r = x) (fun r hr => by
    subst hr
    exact ⟨(ok.num r hx).1, fun p hp => ⟨ok.off r hx p hp, ok.price k r hk nK p hp⟩⟩) s.le fun r hr hz => s.cell r hr hz
  refine ⟨h1, ?_⟩
  unfold PWorld.view
  rw [h2]
  dsimp only
  congr 1
  apply List.ext_getElem?
  intro n
  rw [List.getElem?_map, List.getElem?_set, List.getElem?_map, List.length_map]
  have hl : k < w.nums.length := (List.getElem?_eq_some_iff.1 hk).1
  by_cases e : k = n
  · subst e
    rw [if_pos rfl, if_pos hl, hk]
    exact congrArg some s.val
  · rw [if_neg e]
    cases hn : w.nums[n]? with
    | none => rfl
    | some y =>
      have hy := List.mem_of_getElem? hn
      refine congrArg some (s.cell y (ok.num y hy).2 fun e' => e ?_)
      subst e'
      exact (List.getElem?_inj hl ok.nodup).1 (hk.trans hn.symm)

end CallerOk

theorem pick_refines {α β : Type} (l : List α) (f : α → β) (i : Nat) :
    Refines (pick l i) (pick (l.map f) i) (fun a b => b = f a ∧ l[i]? = some a) := by
  unfold pick
  rw [List.getElem?_map]
  cases h : l[i]? with
  | none => exact rfl
  | some a => exact ⟨rfl, rfl⟩

theorem tri_store {z : Nat} {w : U256} (hz : c.canWrite z) (a : At c h z w) (v : U256) :
    Tri c (store z v) h (.ok v) (fun _ h' v => Stored h z h' v) := tri_of_eq (Fits.store hz v) a.base (store_eq z v h)

variable {K : Nat → Prop} {w : PWorld}

/-- The outcome of a step of the caller. -/
def CallRel (c : Rights) (K : Nat → Prop) (w' : PWorld) (h' : Heap) (v : VWorld) : Prop := v = w'.view h' ∧ CallerOk c K h' w'

theorem CallerOk.put (ok : CallerOk c K h w) {i : Nat} {q : HPool} {h' : Heap} (hi : w.pools[i]? = some p) (k : StepOk h p h' q) :
    CallRel c K (w.put i q) h' ((w.view h).put i (q.view h')) := by
  obtain ⟨h1, h2, h3⟩ := ok.step hi k [] (by simp) List.nodup_nil
  rw [List.append_nil] at h1
  refine ⟨?_, h1⟩
  unfold PWorld.view PWorld.put VWorld.put
  dsimp only
  rw [h2, h3]

theorem CallerOk.put2 (ok : CallerOk c K h w) {i : Nat} {x : Nat × Nat × HPool} {b : U256 × U256 × Pool} {h' : Heap}
    (hi : w.pools[i]? = some p) (k : OpOk c h p x h' b) : CallRel c K (w.put2 i x) h' ((w.view h).put2 i b) := by
  obtain ⟨h1, h2, h3⟩ := ok.step hi k.step [x.1, x.2.1] (by
    intro r hr
    simp only [List.mem_cons, List.not_mem_nil, or_false] at hr
    rcases hr with rfl | rfl
    · exact ⟨_, k.fst⟩
    · exact ⟨_, k.snd⟩) (by
    simp only [List.nodup_cons, List.mem_cons, List.not_mem_nil, or_false, List.nodup_nil, not_false_eq_true, and_true]
    exact k.ne)
  refine ⟨?_, h1⟩
  unfold PWorld.view PWorld.put2 VWorld.put2
  dsimp only
  rw [h2, List.map_append, h3, k.pool]
  show _ = VWorld.mk _ (_ ++ [h'.cell x.1, h'.cell x.2.1])
  rw [k.fst.at_.val, k.snd.at_.val]

theorem tri_call (fuel : Nat) (ok : CallerOk c K h w) (a : Call)
    (hcl : ∀ i p, a = .clone i → (w.view h).pools[i]? = some p → p.ticks.ticks = [])
    (hK : ∀ t0 t1 fee k, a = .newPool t0 t1 fee k → K k) (hA : ∀ k v, a = .assign k v → ¬ K k) :
    Tri c (a.onMemory fuel w) h (a.onValues fuel (w.view h)) (CallRel c K) := by
  have pool : ∀ {γ δ : Type} {f : HPool → HM γ} {k : Pool → Go δ} {S : γ → Heap → δ → Prop} (i : Nat)
      (_ : ∀ p, w.pools[i]? = some p → PoolOk c h p → Tri c (f p) h (k (p.view h)) S),
      Tri c (lift (pick w.pools i) >>= f) h (pick (w.view h).pools i >>= k) S := by
    intro γ δ f k S i hf
    refine Tri.refines_bind (pick_refines w.pools (HPool.view h) i) ?_
    rintro p _ ⟨rfl, hi⟩
    exact hf p hi (ok.pool p (List.mem_of_getElem? hi))
  have num : ∀ {γ δ : Type} {f : Nat → HM γ} {k : U256 → Go δ} {S : γ → Heap → δ → Prop} (i : Nat)
      (_ : ∀ x, w.nums[i]? = some x → At c h x (h.cell x) → (∀ p ∈ w.pools, x ∉ p.writes) → Tri c (f x) h (k (h.cell x)) S),
      Tri c (lift (pick w.nums i) >>= f) h (pick (w.view h).nums i >>= k) S := by
    intro γ δ f k S i hf
    refine Tri.refines_bind (pick_refines w.nums h.cell i) ?_
    rintro x _ ⟨rfl, hi⟩
    have hm := List.mem_of_getElem? hi
    exact hf x hi (ok.at_ hm) (ok.off x hm)
  cases a with
  | number v =>
    refine (tri_new ok.base v).step fun x h1 f => Tri.ret ⟨?_, ok.number f⟩
    unfold PWorld.view
    have hv := (VWorld.mk.inj (ok.keep f.kept).2)
    dsimp only
    rw [List.map_append, hv.1, hv.2]
    show _ = VWorld.mk _ (_ ++ [h1.cell x])
    rw [f.at_.val]
  | assign k v =>
    refine num k fun x hx a _ => ?_
    refine (tri_store (.inr (ok.num x (List.mem_of_getElem? hx)).1) a v).step fun _ h1 s => Tri.ret ?_
    obtain ⟨h2, h3⟩ := ok.assign hx (hA k v rfl) s
    exact ⟨h3.symm, h2⟩
  | newPool t0 t1 fee k =>
    refine num k fun x hx a _ => ?_
    refine (tri_newPool ok.consts t0 t1 fee a).bind ?_
    rintro q h1 b ⟨n, hp⟩
    obtain ⟨h2, h3⟩ := ok.newPool n (.inr ⟨k, x, hx, hK t0 t1 fee k rfl, hp⟩)
    exact Tri.ret ⟨h3.symm, h2⟩
  | clone i =>
    refine pool i fun p hi o => ?_
    have ht : p.ticks.refs = [] := by
      have h1 := hcl i (p.view h) rfl (by show (w.pools.map _)[i]? = _; rw [List.getElem?_map, hi]; rfl)
      have h2 : p.ticks.ticks.map (HTick.view h) = [] := h1
      have h3 : p.ticks.ticks = [] := List.map_eq_nil_iff.1 h2
      unfold HTickData.refs
      rw [h3]; rfl
    refine (tri_clonePool o ht).step ?_
    rintro q h1 ⟨n, hp, _⟩
    obtain ⟨h2, h3⟩ := ok.newPool n (.inl hp)
    exact Tri.ret ⟨h3.symm, h2⟩
  | mint i l u a =>
    refine pool i fun p hi o => num a fun x hx ax off => ?_
    refine (tri_mint o l u ax (off p (List.mem_of_getElem? hi))).bind ?_
    rintro q h1 _ ⟨rfl, k⟩
    exact Tri.ret (ok.put hi k)
  | burn i l u a =>
    refine pool i fun p hi o => num a fun x hx ax off => ?_
    refine (tri_burn o l u ax).bind ?_
    rintro q h1 _ ⟨rfl, k⟩
    exact Tri.ret (ok.put hi k)
  | mintStrategy i l u a =>
    refine pool i fun p hi o => num a fun x hx ax off => ?_
    exact (tri_mintStrategy o l u ax (off p (List.mem_of_getElem? hi))).bind fun r h1 b k => Tri.ret (ok.put2 hi k)
  | burnStrategy i l u a =>
    refine pool i fun p hi o => num a fun x hx ax off => ?_
    exact (tri_burnStrategy o l u ax).bind fun r h1 b k => Tri.ret (ok.put2 hi k)
  | collectStrategy i l u =>
    refine pool i fun p hi o => ?_
    exact (tri_collectStrategy o l u).bind fun r h1 b k => Tri.ret (ok.put2 hi k)
  | flash i a b =>
    refine pool i fun p hi o => num a fun x hx ax offx => num b fun y hy ay offy => ?_
    refine (tri_flash o ax ay).bind ?_
    rintro q h1 _ ⟨rfl, k⟩
    exact Tri.ret (ok.put hi k)
  | exactInput i a t l =>
    refine pool i fun p hi o => num a fun x hx ax offx => num l fun y hy ay offy => ?_
    exact (tri_exactInputSwap o fuel t ax ay (offx p (List.mem_of_getElem? hi))).bind fun r h1 b k => Tri.ret (ok.put2 hi k)
  | exactOutput i a t l =>
    refine pool i fun p hi o => num a fun x hx ax offx => num l fun y hy ay offy => ?_
    exact (tri_exactOutputSwap o fuel t ax ay (offx p (List.mem_of_getElem? hi))).bind fun r h1 b k => Tri.ret (ok.put2 hi k)

theorem tri_calls (fuel : Nat) : ∀ (l : List Call) {h : Heap} {w : PWorld}, CallerOk c K h w → UntickedClones fuel l (w.view h) →
    (∀ t0 t1 fee k, Call.newPool t0 t1 fee k ∈ l → K k) → (∀ k v, Call.assign k v ∈ l → ¬ K k) →
    Tri c (runMemory fuel l w) h (runCalls fuel l (w.view h)) (CallRel c K)
  | [], _, _, ok, _, _, _ => Tri.ret ⟨rfl, ok⟩
  | a :: l, h, w, ok, hc, h1, h2 => by
    unfold runMemory runCalls
    have t := tri_call fuel ok a hc.1 (fun t0 t1 fee k e => h1 t0 t1 fee k (by rw [e]; exact List.mem_cons_self))
      (fun k v e => h2 k v (by rw [e]; exact List.mem_cons_self))
    refine (t.mono_run (S := fun w' h' v => CallRel c K w' h' v ∧ a.onValues fuel (w.view h) = .ok v)
      fun _ _ _ _ hy hr => ⟨hr, hy⟩).bind ?_
    rintro w' h' _ ⟨⟨rfl, ok'⟩, hv⟩
    exact tri_calls fuel l ok' (hc.2 _ hv) (fun t0 t1 fee k hm => h1 t0 t1 fee k (List.mem_cons_of_mem _ hm))
      (fun k v hm => h2 k v (List.mem_cons_of_mem _ hm))

/-- The caller at the beginning. -/
theorem caller_start (ld : Loaded h) (K : Nat → Prop) : CallerOk (callerRights h) K h ⟨[], []⟩ := by
  have e : constEnd = 1774561 := by decide
  have r := ld.room
  have at_ : ∀ x v, x < constEnd → h.cell x = v → At (callerRights h) h x v := fun x v hx hv =>
    ⟨lt_of_lt_of_le hx r, hv, .inl hx, le_refl _⟩
  have hl : ∀ r, r < 16 → r < constEnd := fun r hr => by omega
  refine ⟨⟨at_ _ _ (hl _ (by decide)) ld.zero, at_ _ _ (hl _ (by decide)) ld.one, at_ _ _ (hl _ (by decide)) ld.maxUint256,
    at_ _ _ (hl _ (by decide)) ld.q128, at_ _ _ (hl _ (by decide)) ld.q96, at_ _ _ (hl _ (by decide)) ld.q192,
    at_ _ _ (hl _ (by decide)) ld.maxUint160, at_ _ _ (hl _ (by decide)) ld.maxFee, at_ _ _ (hl _ (by decide)) ld.minSqrtRatio,
    at_ _ _ (hl _ (by decide)) ld.maxSqrtRatio, fun i v hv => at_ _ _ (table_lt hv) (ld.table i v hv)⟩, le_refl _, r, by simp,
    List.Pairwise.nil, by simp, List.nodup_nil, by simp, by simp⟩

end
end Uni
