import Verif.Proofs.HeapWorld
import Verif.Proofs.Demo
/-! # C34: pools on one heap

What a user can rely on when a pool is cloned and the copies are used in turns, in any order; and what fails. -/
namespace Uni
namespace Props
open U256 Spec
open scoped List

/-! ### Helpers -/

theorem run_append (fuel : Nat) : ∀ (l1 l2 : List Act) (w : HWorld),
    HWorld.run fuel (l1 ++ l2) w = HWorld.run fuel l1 w >>= fun w' => HWorld.run fuel l2 w'
  | [], _, _ => rfl
  | a :: l1, l2, w => by
    show (w.act fuel a >>= fun w' => HWorld.run fuel (l1 ++ l2) w') = (w.act fuel a >>= fun w' => HWorld.run fuel l1 w') >>= _
    cases w.act fuel a with
    | error e => rfl
    | ok w' => exact run_append fuel l1 l2 w'

theorem unticked_append (fuel : Nat) : ∀ (l1 l2 : List Act) {v v' : List Pool}, ClonesUnticked fuel (l1 ++ l2) v →
    runValues fuel l1 v = .ok v' → ClonesUnticked fuel l1 v ∧ ClonesUnticked fuel l2 v'
  | [], _, v, v', h, hr => by
    cases hr
    exact ⟨trivial, h⟩
  | a :: l1, l2, v, v', h, hr => by
    obtain ⟨v1, h1, h2⟩ := Pool.bind_ok (show (a.onValues fuel v >>= fun w' => runValues fuel l1 w') = .ok v' from hr)
    obtain ⟨h3, h4⟩ := h
    obtain ⟨h5, h6⟩ := unticked_append fuel l1 l2 (h4 v1 h1) h2
    refine ⟨⟨h3, fun w' hw' => ?_⟩, h6⟩
    rw [h1] at hw'
    cases hw'
    exact h5

/-- The world that `NewPool` leaves is in order. -/
theorem new_ok {h h0 : Heap} {p : HPool} {t0 t1 : String} {fee : Int} {price : Nat} (hp : price < h.next)
    (hn : HPool.new h t0 t1 fee price = .ok (h0, p)) :
    Pool.new t0 t1 fee (h.cell price) = .ok (p.view h0) ∧ WorldOk ⟨h0, [p]⟩ := by
  obtain ⟨b, h1, rfl, h2, _⟩ := (new_refines t0 t1 fee hp).inv_ok hn
  refine ⟨h1, ⟨?_, List.pairwise_singleton _ _⟩⟩
  intro q hq
  rw [List.mem_singleton.1 hq]
  exact h2

/-! ### C34 -/

/-- C34: whatever is done to a new pool and to its clones, in whatever order, the pools on the heap show exactly what
independent pool values show: the schedule on the heap returns if and only if the schedule on independent values
returns, with the same pools, and panics in the same way otherwise.  Condition: pools are cloned while they have no
ticks. -/
theorem C34_isolated {h h0 : Heap} {p : HPool} {t0 t1 : String} {fee : Int} {price : Nat} (hp : price < h.next)
    (hn : HPool.new h t0 t1 fee price = .ok (h0, p)) (fuel : Nat) (l : List Act)
    (hc : ClonesUnticked fuel l [p.view h0]) :
    Pool.new t0 t1 fee (h.cell price) = .ok (p.view h0) ∧
    (∀ w, HWorld.run fuel l ⟨h0, [p]⟩ = .ok w → runValues fuel l [p.view h0] = .ok w.view) ∧
    (∀ v, runValues fuel l [p.view h0] = .ok v → ∃ w, HWorld.run fuel l ⟨h0, [p]⟩ = .ok w ∧ w.view = v) ∧
    (∀ e, HWorld.run fuel l ⟨h0, [p]⟩ = .error e ↔ runValues fuel l [p.view h0] = .error e) := by
  obtain ⟨h1, h2⟩ := new_ok hp hn
  have h3 := run_refines fuel l h2 hc
  refine ⟨h1, ?_, ?_, fun e => h3.inv_error e⟩
  · intro w hw
    obtain ⟨v, h4, rfl, _⟩ := h3.inv_ok hw
    exact h4
  · intro v hv
    obtain ⟨w, h4, rfl, _⟩ := h3.inv_ok' hv
    exact ⟨w, h4, rfl⟩

/-- C34: from any point of such a schedule on, each pool shows what its own operations alone make of what it showed at
that point: the operations on the other pools have no effect on it. -/
theorem C34_alone {h h0 : Heap} {p : HPool} {t0 t1 : String} {fee : Int} {price : Nat} (hp : price < h.next)
    (hn : HPool.new h t0 t1 fee price = .ok (h0, p)) (fuel : Nat) (l1 l2 : List Act)
    (hc : ClonesUnticked fuel (l1 ++ l2) [p.view h0]) {w1 w2 : HWorld}
    (r1 : HWorld.run fuel l1 ⟨h0, [p]⟩ = .ok w1) (r2 : HWorld.run fuel l2 w1 = .ok w2) (i : Nat) (q : Pool)
    (hi : w1.view[i]? = some q) : ∃ q', w2.view[i]? = some q' ∧ runAlone fuel (opsOf i l2) q = .ok q' := by
  obtain ⟨_, h2⟩ := new_ok hp hn
  have hr : HWorld.run fuel (l1 ++ l2) ⟨h0, [p]⟩ = .ok w2 := by
    rw [run_append, r1]; exact r2
  obtain ⟨v, h4, _, _⟩ := (run_refines fuel (l1 ++ l2) h2 hc).inv_ok hr
  have hv : ∃ v1, runValues fuel l1 [p.view h0] = .ok v1 := by
    have : ∀ (l : List Act) (x : List Pool) (y : List Pool), runValues fuel (l ++ l2) x = .ok y → ∃ z, runValues fuel l x = .ok z := by
      intro l
      induction l with
      | nil => intro x y _; exact ⟨x, rfl⟩
      | cons a l ih =>
        intro x y hxy
        obtain ⟨z, g1, g2⟩ := Pool.bind_ok (show (a.onValues fuel x >>= fun w' => runValues fuel (l ++ l2) w') = .ok y from hxy)
        obtain ⟨u, g3⟩ := ih z y g2
        refine ⟨u, ?_⟩
        show (a.onValues fuel x >>= fun w' => runValues fuel l w') = .ok u
        rw [g1]; exact g3
    exact this l1 _ _ h4
  obtain ⟨v1, hv1⟩ := hv
  obtain ⟨c1, c2⟩ := unticked_append fuel l1 l2 hc hv1
  obtain ⟨b1, e1, e2, ok1⟩ := (run_refines fuel l1 h2 c1).inv_ok r1
  have : v1 = w1.view := by
    rw [← e2]
    exact Except.ok.inj (hv1.symm.trans e1)
  subst this
  obtain ⟨b2, e3, e4, _⟩ := (run_refines fuel l2 ok1 c2).inv_ok r2
  subst e4
  exact run_project fuel l2 e3 hi

/-- C34: `Clone` changes no existing pool, and the clone shows what the pool shows, except that in every position the
owed token0 is replaced by the owed token1.  (This is also true of pools with ticks.) -/
theorem C34_clone {h h0 : Heap} {p : HPool} {t0 t1 : String} {fee : Int} {price : Nat} (hp : price < h.next)
    (hn : HPool.new h t0 t1 fee price = .ok (h0, p)) (fuel : Nat) (l : List Act)
    (hc : ClonesUnticked fuel l [p.view h0]) {w1 w2 : HWorld} (r1 : HWorld.run fuel l ⟨h0, [p]⟩ = .ok w1) (i : Nat) (q : Pool)
    (hi : w1.view[i]? = some q) (r2 : w1.act fuel (.clone i) = .ok w2) :
    w2.view = w1.view ++
      [{ q with positions := fun k => (q.positions k).map fun x => { x with owed0 := x.owed1 } }] := by
  obtain ⟨_, h2⟩ := new_ok hp hn
  obtain ⟨_, _, _, ok1⟩ := (run_refines fuel l h2 hc).inv_ok r1
  have hv : w1.view[i]? = (w1.pools[i]?).map (HPool.view w1.heap) := List.getElem?_map
  cases hx : w1.pools[i]? with
  | none => rw [hv, hx] at hi; cases hi
  | some x =>
    rw [hv, hx] at hi
    have hq : x.view w1.heap = q := Option.some.inj hi
    subst hq
    unfold HWorld.act at r2
    dsimp only at r2
    rw [hx] at r2
    have hw : w2 = ⟨(x.clone w1.heap).1, w1.pools ++ [(x.clone w1.heap).2]⟩ := (Except.ok.inj r2).symm
    subst hw
    have sx := ok1.sep x (List.mem_of_getElem? hx)
    obtain ⟨c1, _, _, c4, _⟩ := clone_spec sx
    show (w1.pools ++ [(x.clone w1.heap).2]).map (HPool.view (x.clone w1.heap).1) = _
    rw [List.map_append]
    congr 1
    · apply List.map_congr_left
      intro y hy
      have sy := ok1.sep y hy
      apply HPool.view_congr
      intro r hr
      rcases List.mem_cons.1 hr with rfl | h1
      · exact c4 _ sy.priceLt
      · exact c4 r (sy.safe.lt r h1)
    · show [_] = [_]
      rw [c1]
      rfl

/-- A pool from `NewPool` has no ticks and no positions. -/
theorem new_empty {t0 t1 : String} {fee : Int} {x : U256} {p : Pool} (h : Pool.new t0 t1 fee x = .ok p) :
    p.ticks.ticks = [] ∧ p.clone = p := by
  unfold Pool.new at h
  obtain ⟨_, _, h⟩ := Pool.bind_ok h
  obtain ⟨_, _, h⟩ := Pool.bind_ok h
  cases h
  exact ⟨rfl, rfl⟩

/-- Only the first pool is ever cloned, and it is not used otherwise. -/
def Original (l : List Act) : Prop := (∀ i, Act.clone i ∈ l → i = 0) ∧ ∀ o, Act.op 0 o ∉ l

theorem original_unticked (fuel : Nat) : ∀ (l : List Act) {v : List Pool} {p0 : Pool}, Original l → v[0]? = some p0 →
    p0.ticks.ticks = [] → ClonesUnticked fuel l v
  | [], _, _, _, _, _ => trivial
  | a :: l, v, p0, ho, h0, ht => by
    have ho' : Original l := ⟨fun i hi => ho.1 i (List.mem_cons_of_mem _ hi), fun o hi => ho.2 o (List.mem_cons_of_mem _ hi)⟩
    refine ⟨?_, ?_⟩
    · rintro i q rfl hq
      have := ho.1 i List.mem_cons_self
      subst this
      rw [h0] at hq
      cases hq
      exact ht
    · intro v' hv'
      refine original_unticked fuel l ho' ?_ ht
      cases a with
      | op j o =>
        unfold Act.onValues at hv'
        dsimp only at hv'
        cases hj : v[j]? with
        | none => rw [hj] at hv'; cases hv'
        | some q =>
          rw [hj] at hv'
          obtain ⟨q', _, h3⟩ := Pool.bind_ok hv'
          have h3 : v.set j q' = v' := Except.ok.inj h3
          have hj0 : j ≠ 0 := by
            rintro rfl
            exact ho.2 o List.mem_cons_self
          rw [← h3, List.getElem?_set_ne hj0]
          exact h0
      | clone j =>
        unfold Act.onValues at hv'
        dsimp only at hv'
        cases hj : v[j]? with
        | none => rw [hj] at hv'; cases hv'
        | some q =>
          rw [hj] at hv'
          have h3 : v ++ [q.clone] = v' := Except.ok.inj hv'
          have hlt : 0 < v.length := by
            rw [List.getElem?_eq_some_iff] at h0
            exact h0.1
          rw [← h3, List.getElem?_append_left hlt]
          exact h0

theorem original_run (fuel : Nat) {p0 : Pool} (hcl : p0.clone = p0) : ∀ (l : List Act) {v v' : List Pool}, Original l →
    v[0]? = some p0 → runValues fuel l v = .ok v' → v'[0]? = some p0 ∧
    ∀ k q, v'[k]? = some q → v.length ≤ k → runAlone fuel (opsOf k l) p0 = .ok q
  | [], v, v', _, h0, hr => by
    cases hr
    refine ⟨h0, ?_⟩
    intro k q hk hle
    rw [List.getElem?_eq_none hle] at hk
    cases hk
  | .op j o :: l, v, v', ho, h0, hr => by
    have ho' : Original l := ⟨fun i hi => ho.1 i (List.mem_cons_of_mem _ hi), fun o hi => ho.2 o (List.mem_cons_of_mem _ hi)⟩
    have hj0 : j ≠ 0 := by
      rintro rfl
      exact ho.2 o List.mem_cons_self
    obtain ⟨v1, h1, h2⟩ := Pool.bind_ok (show (Act.onValues fuel v (.op j o) >>= fun w' => runValues fuel l w') = .ok v' from hr)
    unfold Act.onValues at h1
    dsimp only at h1
    cases hj : v[j]? with
    | none => rw [hj] at h1; cases h1
    | some q =>
      rw [hj] at h1
      obtain ⟨q', _, h3⟩ := Pool.bind_ok h1
      have h3 : v.set j q' = v1 := Except.ok.inj h3
      obtain ⟨e1, e2⟩ := original_run fuel hcl l ho' (by rw [← h3, List.getElem?_set_ne hj0]; exact h0) h2
      refine ⟨e1, ?_⟩
      intro k x hk hle
      have hlt : j < v.length := by
        rw [List.getElem?_eq_some_iff] at hj
        exact hj.1
      unfold opsOf
      rw [if_neg (by omega)]
      exact e2 k x hk (by rw [← h3, List.length_set]; exact hle)
  | .clone j :: l, v, v', ho, h0, hr => by
    have ho' : Original l := ⟨fun i hi => ho.1 i (List.mem_cons_of_mem _ hi), fun o hi => ho.2 o (List.mem_cons_of_mem _ hi)⟩
    have hj0 : j = 0 := ho.1 j List.mem_cons_self
    subst hj0
    obtain ⟨v1, h1, h2⟩ := Pool.bind_ok (show (Act.onValues fuel v (.clone 0) >>= fun w' => runValues fuel l w') = .ok v' from hr)
    unfold Act.onValues at h1
    dsimp only at h1
    rw [h0] at h1
    have h3 : v ++ [p0.clone] = v1 := Except.ok.inj h1
    have hlt : 0 < v.length := by
      rw [List.getElem?_eq_some_iff] at h0
      exact h0.1
    obtain ⟨e1, e2⟩ := original_run fuel hcl l ho' (by rw [← h3, List.getElem?_append_left hlt]; exact h0) h2
    refine ⟨e1, ?_⟩
    intro k x hk hle
    unfold opsOf
    by_cases hk1 : k = v.length
    · subst hk1
      obtain ⟨y, g1, g2⟩ := run_project fuel l (i := v.length) (p := p0.clone) h2 (by
        rw [← h3, List.getElem?_append_right (Nat.le_refl _), Nat.sub_self]; rfl)
      rw [hk] at g1
      cases g1
      rw [hcl] at g2
      exact g2
    · exact e2 k x hk (by rw [← h3, List.length_append]; show v.length + 1 ≤ k; omega)

/-- C34, as the program uses it: one pool is made, it is only ever cloned, and each simulation works on its own clone;
clones are made and used in any order.  At the end the first pool is as it was made, and every clone shows what its own
operations alone make of that pool. -/
theorem C34_main {h h0 : Heap} {p : HPool} {t0 t1 : String} {fee : Int} {price : Nat} (hp : price < h.next)
    (hn : HPool.new h t0 t1 fee price = .ok (h0, p)) (fuel : Nat) (l : List Act) (ho : Original l) {w : HWorld}
    (hr : HWorld.run fuel l ⟨h0, [p]⟩ = .ok w) :
    w.view[0]? = some (p.view h0) ∧ Pool.new t0 t1 fee (h.cell price) = .ok (p.view h0) ∧
    ∀ k q, w.view[k + 1]? = some q → runAlone fuel (opsOf (k + 1) l) (p.view h0) = .ok q := by
  obtain ⟨h1, h2⟩ := new_ok hp hn
  obtain ⟨h3, h4⟩ := new_empty h1
  have hc := original_unticked fuel l (v := [p.view h0]) ho rfl h3
  obtain ⟨v, g1, g2, _⟩ := (run_refines fuel l h2 hc).inv_ok hr
  subst g2
  obtain ⟨e1, e2⟩ := original_run fuel h4 l (v := [p.view h0]) ho rfl g1
  exact ⟨e1, h1, fun k q hk => e2 (k + 1) q hk (by show 1 ≤ k + 1; omega)⟩

/-- C34, what fails: the ticks of a clone are those of the original, not copies.  After a swap on the original (which
flips the growths of the ticks it crosses) the ticks that the clone shows are exactly those that the original shows. -/
theorem C34_shared {h h0 : Heap} {p : HPool} {t0 t1 : String} {fee : Int} {price : Nat} (hp : price < h.next)
    (hn : HPool.new h t0 t1 fee price = .ok (h0, p)) (fuel : Nat) (l : List Act)
    (hc : ClonesUnticked fuel l [p.view h0]) {w1 w2 : HWorld} (r1 : HWorld.run fuel l ⟨h0, [p]⟩ = .ok w1)
    (i : Nat) (amount limit : U256) (token : String)
    (r2 : HWorld.run fuel [.clone i, .op i (.exactInput amount token limit)] w1 = .ok w2) :
    ∃ o c, w2.view[i]? = some o ∧ w2.view[w1.pools.length]? = some c ∧ c.ticks = o.ticks := by
  cases hx : w1.pools[i]? with
  | none =>
    unfold HWorld.run HWorld.act at r2
    dsimp only at r2
    rw [hx] at r2
    cases r2
  | some x =>
    have hlt : i < w1.pools.length := by
      rw [List.getElem?_eq_some_iff] at hx
      exact hx.1
    obtain ⟨wa, h1, h2⟩ := Pool.bind_ok (show (w1.act fuel (.clone i) >>= fun w' => HWorld.run fuel _ w') = .ok w2 from r2)
    obtain ⟨wb, h3, h4⟩ := Pool.bind_ok (show (wa.act fuel _ >>= fun w' => HWorld.run fuel [] w') = .ok w2 from h2)
    cases h4
    unfold HWorld.act at h1
    dsimp only at h1
    rw [hx] at h1
    have hw : wa = ⟨(x.clone w1.heap).1, w1.pools ++ [(x.clone w1.heap).2]⟩ := (Except.ok.inj h1).symm
    subst hw
    unfold HWorld.act at h3
    dsimp only at h3
    rw [List.getElem?_append_left hlt, hx] at h3
    obtain ⟨⟨hb, xb⟩, h5, h6⟩ := Pool.bind_ok h3
    have hxb : xb.ticks = x.ticks := by
      obtain ⟨⟨a, b, hc', xc⟩, h7, h8⟩ := Pool.bind_ok h5
      cases h8
      unfold HPool.swap at h7
      obtain ⟨_, _, h7⟩ := Pool.bind_ok h7
      dsimp only at h7
      obtain ⟨_, _, h7⟩ := Pool.bind_ok h7
      obtain ⟨s, _, h7⟩ := Pool.bind_ok h7
      cases h7
      rfl
    have hw2 : w2 = ⟨hb, (w1.pools ++ [(x.clone w1.heap).2]).set i xb⟩ := (Except.ok.inj h6).symm
    subst hw2
    refine ⟨xb.view hb, (x.clone w1.heap).2.view hb, ?_, ?_, ?_⟩
    · show (((w1.pools ++ [_]).set i xb).map _)[i]? = _
      rw [List.getElem?_map, List.getElem?_set_self (by rw [List.length_append]; omega)]
      rfl
    · show (((w1.pools ++ [_]).set i xb).map _)[w1.pools.length]? = _
      rw [List.getElem?_map, List.getElem?_set_ne (by omega), List.getElem?_append_right (Nat.le_refl _), Nat.sub_self]
      rfl
    · show x.ticks.view hb = xb.ticks.view hb
      rw [hxb]

/-! ### A concrete world -/

namespace HeapDemo

/-- A heap with one number, the price `2^96`. -/
def h : Heap := ⟨fun _ => ofNat (2 ^ 96), 1⟩

/-- Did the schedule return, and what are then the ticks of the `i`-th pool? -/
def ticksOf (x : Go HWorld) (i : Nat) : Option TickData :=
  match x with
  | .ok w => (w.view[i]?).map (·.ticks)
  | .error _ => none

/-- The same on values. -/
def ticksOfValues (x : Go (List Pool)) (i : Nat) : Option TickData :=
  match x with
  | .ok v => (v[i]?).map (·.ticks)
  | .error _ => none

/-- A position of the `i`-th pool. -/
def owedOf (x : Go HWorld) (i : Nat) (l u : Int) : Option (U256 × U256) :=
  match x with
  | .ok w => ((w.view[i]?).bind fun p => p.positions (Pool.posKey l u)).map fun x => (x.owed0, x.owed1)
  | .error _ => none

def world : Heap × HPool := getOk (HPool.new h "WETH" "USDC" 3000 0) (by decide +kernel)
theorem hn : HPool.new h "WETH" "USDC" 3000 0 = .ok (world.1, world.2) := eq_getOk _ (by decide +kernel)

/-- Two simulations: clones made one after the other, while the first is already in use. -/
def l1 : List Act := [.clone 0, .op 1 Demo.op1, .clone 0, .op 2 Demo.op2, .op 1 Demo.op2, .op 1 Demo.op3, .op 2 Demo.op1]
theorem l1_original : Original l1 := by
  constructor
  · intro i hi
    simp only [l1, List.mem_cons, reduceCtorEq, Act.clone.injEq, List.not_mem_nil, or_false, false_or] at hi
    omega
  · intro o ho
    simp [l1] at ho

/-- `C34_main` applies to this schedule. -/
example : ∃ w, HWorld.run 10 l1 ⟨world.1, [world.2]⟩ = .ok w ∧ w.view.length = 3 ∧
    ∀ k q, w.view[k + 1]? = some q → runAlone 10 (opsOf (k + 1) l1) (world.2.view world.1) = .ok q := by
  refine ⟨getOk (HWorld.run 10 l1 ⟨world.1, [world.2]⟩) (by decide +kernel), eq_getOk _ _, by decide +kernel, ?_⟩
  exact (C34_main (by decide) hn 10 l1 l1_original (eq_getOk _ (by decide +kernel))).2.2

/-- A pool that is cloned after a mint. -/
def l2 : List Act := [.op 0 Demo.op2, .clone 0, .op 0 Demo.op2]

end HeapDemo

open HeapDemo in
/-- C34, what fails: minting on the original changes the ticks of a clone that was made after the ticks.  (The independent
copy has 2000000 at the tick, the clone on the heap 4000000.) -/
theorem C34_shared_mint :
    (ticksOf (HWorld.run 10 l2 ⟨world.1, [world.2]⟩) 1).map (fun t => t.ticks.map (·.gross)) =
      some [ofNat 4000000, ofNat 4000000] ∧
    (ticksOfValues (runValues 10 l2 [world.2.view world.1]) 1).map (fun t => t.ticks.map (·.gross)) =
      some [ofNat 2000000, ofNat 2000000] := by
  decide +kernel

open HeapDemo in
/-- C34, what fails: a clone of a pool in which a position is owed different amounts of the two tokens shows a different amount of
token0.  (The burn of nothing credits the fees.) -/
theorem C34_owed : ∃ a b, a ≠ b ∧
    owedOf (HWorld.run 10 [.op 0 Demo.op1, .op 0 (.exactInput (ofNat 4000) "USDC" zero), .op 0 (.burnStrategy (-120) 180 zero),
      .clone 0] ⟨world.1, [world.2]⟩) 0 (-120) 180 = some (a, b) ∧
    owedOf (HWorld.run 10 [.op 0 Demo.op1, .op 0 (.exactInput (ofNat 4000) "USDC" zero), .op 0 (.burnStrategy (-120) 180 zero),
      .clone 0] ⟨world.1, [world.2]⟩) 1 (-120) 180 = some (b, b) := by
  refine ⟨zero, ofNat 11, ?_⟩
  decide +kernel

end Props
end Uni
