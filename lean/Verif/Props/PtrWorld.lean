import Verif.Proofs.PtrWorld
import Verif.Props.Heap
/-! # C76: callers with pointers

Every number of the library is a pointer to four words in memory, and every method writes through its receiver.  A caller may pass
the same number to several calls, pass returned numbers on, and assign to its numbers between calls.  The theorems below are about
every program of such calls. -/
namespace Uni
namespace Props
open U256 Spec InPlace

/-! ### Helpers -/

/-- A program that keeps to its rights changes no number it may not write. -/
theorem keeps_frame {α : Type} {c : Rights} (m : HM α) : ∀ {h h' : Heap} {a : α}, m.Keeps c h → m h = .ok (a, h') →
    ∀ x, x < h.next → ¬ c.canWrite x → h'.cell x = h.cell x := by
  induction m with
  | ret b => intro h h' a _ e x _ _; cases e; rfl
  | fail e => intro h h' a _ e' x _ _; cases e'
  | rd y i k ih => intro h h' a hk e x hx hw; exact ih _ hk.2 e x hx hw
  | wr z i w k ih =>
    intro h h' a hk e x hx hw
    rw [ih hk.2 e x hx hw]
    have : x ≠ z := fun e' => hw (e' ▸ hk.1)
    simp [this]
  | new v k ih =>
    intro h h' a hk e x hx hw
    rw [ih _ hk e x (lt_of_lt_of_le hx (Nat.le_succ _)) hw]
    simp [Nat.ne_of_lt hx]

theorem tri_start {h : Heap} (ld : Loaded h) (fuel : Nat) (l : List Call) (hp : PricesKept l) (hc : UntickedClones fuel l ⟨[], []⟩) :
    Tri (callerRights h) (runMemory fuel l ⟨[], []⟩) h (runCalls fuel l ⟨[], []⟩)
      (CallRel (callerRights h) (fun k => ∃ t0 t1 fee, Call.newPool t0 t1 fee k ∈ l)) :=
  tri_calls fuel l (caller_start ld _) hc (fun t0 t1 fee k hm => ⟨t0, t1, fee, hm⟩)
    (fun k v hm ⟨t0, t1, fee, hn⟩ => hp k v hm t0 t1 fee hn)

/-- The `k`-th number of the caller after a call that does not assign to it. -/
theorem onValues_num {fuel : Nat} {v v' : VWorld} {a : Call} (hr : a.onValues fuel v = .ok v') {k : Nat} (hk : k < v.nums.length)
    (ha : ∀ u, a ≠ .assign k u) : v'.nums[k]? = v.nums[k]? ∧ k < v'.nums.length := by
  have app : ∀ l : List U256, (v.nums ++ l)[k]? = v.nums[k]? ∧ k < (v.nums ++ l).length := fun l =>
    ⟨List.getElem?_append_left hk, by rw [List.length_append]; omega⟩
  cases a with
  | number u => cases hr; exact app _
  | assign j u =>
    obtain ⟨_, _, hr⟩ := Pool.bind_ok hr
    cases hr
    exact ⟨List.getElem?_set_ne fun e => ha u (by rw [e]), by dsimp only; rw [List.length_set]; exact hk⟩
  | newPool t0 t1 fee j =>
    obtain ⟨_, _, hr⟩ := Pool.bind_ok hr
    obtain ⟨_, _, hr⟩ := Pool.bind_ok hr
    cases hr; exact ⟨rfl, hk⟩
  | clone i =>
    obtain ⟨_, _, hr⟩ := Pool.bind_ok hr
    cases hr; exact ⟨rfl, hk⟩
  | mint i l u a =>
    obtain ⟨_, _, hr⟩ := Pool.bind_ok hr
    obtain ⟨_, _, hr⟩ := Pool.bind_ok hr
    obtain ⟨_, _, hr⟩ := Pool.bind_ok hr
    cases hr; exact ⟨rfl, hk⟩
  | burn i l u a =>
    obtain ⟨_, _, hr⟩ := Pool.bind_ok hr
    obtain ⟨_, _, hr⟩ := Pool.bind_ok hr
    obtain ⟨_, _, hr⟩ := Pool.bind_ok hr
    cases hr; exact ⟨rfl, hk⟩
  | mintStrategy i l u a =>
    obtain ⟨_, _, hr⟩ := Pool.bind_ok hr
    obtain ⟨_, _, hr⟩ := Pool.bind_ok hr
    obtain ⟨_, _, hr⟩ := Pool.bind_ok hr
    cases hr; exact app _
  | burnStrategy i l u a =>
    obtain ⟨_, _, hr⟩ := Pool.bind_ok hr
    obtain ⟨_, _, hr⟩ := Pool.bind_ok hr
    obtain ⟨_, _, hr⟩ := Pool.bind_ok hr
    cases hr; exact app _
  | collectStrategy i l u =>
    obtain ⟨_, _, hr⟩ := Pool.bind_ok hr
    obtain ⟨_, _, hr⟩ := Pool.bind_ok hr
    cases hr; exact app _
  | flash i a b =>
    obtain ⟨_, _, hr⟩ := Pool.bind_ok hr
    obtain ⟨_, _, hr⟩ := Pool.bind_ok hr
    obtain ⟨_, _, hr⟩ := Pool.bind_ok hr
    obtain ⟨_, _, hr⟩ := Pool.bind_ok hr
    cases hr; exact ⟨rfl, hk⟩
  | exactInput i a t l =>
    obtain ⟨_, _, hr⟩ := Pool.bind_ok hr
    obtain ⟨_, _, hr⟩ := Pool.bind_ok hr
    obtain ⟨_, _, hr⟩ := Pool.bind_ok hr
    obtain ⟨_, _, hr⟩ := Pool.bind_ok hr
    cases hr; exact app _
  | exactOutput i a t l =>
    obtain ⟨_, _, hr⟩ := Pool.bind_ok hr
    obtain ⟨_, _, hr⟩ := Pool.bind_ok hr
    obtain ⟨_, _, hr⟩ := Pool.bind_ok hr
    obtain ⟨_, _, hr⟩ := Pool.bind_ok hr
    cases hr; exact app _

theorem runCalls_num {fuel : Nat} : ∀ {l : List Call} {v v' : VWorld}, runCalls fuel l v = .ok v' → ∀ {k : Nat}, k < v.nums.length →
    (∀ u, Call.assign k u ∉ l) → v'.nums[k]? = v.nums[k]?
  | [], v, v', hr, k, _, _ => by cases hr; rfl
  | a :: l, v, v', hr, k, hk, ha => by
    obtain ⟨v1, h1, h2⟩ := Pool.bind_ok hr
    obtain ⟨h3, h4⟩ := onValues_num h1 hk fun u e => ha u (by rw [e]; exact List.mem_cons_self)
    rw [runCalls_num h2 h4 fun u hm => ha u (List.mem_cons_of_mem _ hm), h3]

theorem bind_run {α β : Type} {m : HM α} {f : α → HM β} {h h' : Heap} {b : β} (e : (m >>= f) h = .ok (b, h')) :
    ∃ a h1, m h = .ok (a, h1) ∧ f a h1 = .ok (b, h') := by
  rw [bind_eq] at e
  cases hm : m h with
  | error e' => rw [hm] at e; cases e
  | ok r => rw [hm] at e; exact ⟨r.1, r.2, rfl, e⟩

theorem run_of {α β : Type} {m : HM α} {f : α → HM β} {h h1 : Heap} {a : α} (e : m h = .ok (a, h1)) : (m >>= f) h = f a h1 := by
  rw [bind_eq, e]

/-- Positions keep their pointers. -/
theorem onMemory_num {fuel : Nat} {w w' : PWorld} {h h' : Heap} {a : Call} (hr : a.onMemory fuel w h = .ok (w', h')) :
    ∃ l, w'.nums = w.nums ++ l := by
  have same : ∃ l, w.nums = w.nums ++ l := ⟨[], by rw [List.append_nil]⟩
  cases a with
  | number u =>
    obtain ⟨_, _, _, hr⟩ := bind_run hr
    cases hr; exact ⟨_, rfl⟩
  | assign j u =>
    obtain ⟨_, _, _, hr⟩ := bind_run hr
    obtain ⟨_, _, _, hr⟩ := bind_run hr
    cases hr; exact same
  | newPool t0 t1 fee j =>
    obtain ⟨_, _, _, hr⟩ := bind_run hr
    obtain ⟨_, _, _, hr⟩ := bind_run hr
    cases hr; exact same
  | clone i =>
    obtain ⟨_, _, _, hr⟩ := bind_run hr
    obtain ⟨_, _, _, hr⟩ := bind_run hr
    cases hr; exact same
  | mint i l u a =>
    obtain ⟨_, _, _, hr⟩ := bind_run hr
    obtain ⟨_, _, _, hr⟩ := bind_run hr
    obtain ⟨_, _, _, hr⟩ := bind_run hr
    cases hr; exact same
  | burn i l u a =>
    obtain ⟨_, _, _, hr⟩ := bind_run hr
    obtain ⟨_, _, _, hr⟩ := bind_run hr
    obtain ⟨_, _, _, hr⟩ := bind_run hr
    cases hr; exact same
  | mintStrategy i l u a =>
    obtain ⟨_, _, _, hr⟩ := bind_run hr
    obtain ⟨_, _, _, hr⟩ := bind_run hr
    obtain ⟨_, _, _, hr⟩ := bind_run hr
    cases hr; exact ⟨_, rfl⟩
  | burnStrategy i l u a =>
    obtain ⟨_, _, _, hr⟩ := bind_run hr
    obtain ⟨_, _, _, hr⟩ := bind_run hr
    obtain ⟨_, _, _, hr⟩ := bind_run hr
    cases hr; exact ⟨_, rfl⟩
  | collectStrategy i l u =>
    obtain ⟨_, _, _, hr⟩ := bind_run hr
    obtain ⟨_, _, _, hr⟩ := bind_run hr
    cases hr; exact ⟨_, rfl⟩
  | flash i a b =>
    obtain ⟨_, _, _, hr⟩ := bind_run hr
    obtain ⟨_, _, _, hr⟩ := bind_run hr
    obtain ⟨_, _, _, hr⟩ := bind_run hr
    obtain ⟨_, _, _, hr⟩ := bind_run hr
    cases hr; exact same
  | exactInput i a t l =>
    obtain ⟨_, _, _, hr⟩ := bind_run hr
    obtain ⟨_, _, _, hr⟩ := bind_run hr
    obtain ⟨_, _, _, hr⟩ := bind_run hr
    obtain ⟨_, _, _, hr⟩ := bind_run hr
    cases hr; exact ⟨_, rfl⟩
  | exactOutput i a t l =>
    obtain ⟨_, _, _, hr⟩ := bind_run hr
    obtain ⟨_, _, _, hr⟩ := bind_run hr
    obtain ⟨_, _, _, hr⟩ := bind_run hr
    obtain ⟨_, _, _, hr⟩ := bind_run hr
    cases hr; exact ⟨_, rfl⟩

theorem runMemory_num {fuel : Nat} : ∀ {l : List Call} {w w' : PWorld} {h h' : Heap}, runMemory fuel l w h = .ok (w', h') →
    ∃ l, w'.nums = w.nums ++ l
  | [], w, w', h, h', hr => by cases hr; exact ⟨[], by rw [List.append_nil]⟩
  | a :: l, w, w', h, h', hr => by
    obtain ⟨w1, h1, e1, e2⟩ := bind_run hr
    obtain ⟨l1, g1⟩ := onMemory_num e1
    obtain ⟨l2, g2⟩ := runMemory_num e2
    exact ⟨l1 ++ l2, by rw [g2, g1, List.append_assoc]⟩

theorem unticked_split (fuel : Nat) : ∀ (l1 l2 : List Call) {v v' : VWorld}, UntickedClones fuel (l1 ++ l2) v →
    runCalls fuel l1 v = .ok v' → UntickedClones fuel l1 v ∧ UntickedClones fuel l2 v'
  | [], _, v, v', h, hr => by
    cases hr
    exact ⟨trivial, h⟩
  | a :: l1, l2, v, v', h, hr => by
    obtain ⟨v1, h1, h2⟩ := Pool.bind_ok hr
    obtain ⟨h3, h4⟩ := h
    obtain ⟨h5, h6⟩ := unticked_split fuel l1 l2 (h4 v1 h1) h2
    refine ⟨⟨h3, fun w' hw' => ?_⟩, h6⟩
    rw [h1] at hw'
    cases hw'
    exact h5

theorem unticked_left (fuel : Nat) : ∀ (l1 l2 : List Call) {v : VWorld}, UntickedClones fuel (l1 ++ l2) v → UntickedClones fuel l1 v
  | [], _, _, _ => trivial
  | a :: l1, l2, _, h => ⟨h.1, fun w' hw' => unticked_left fuel l1 l2 (h.2 w' hw')⟩

/-! ### C76 -/

/-- C76: whatever numbers a caller passes to the methods of its pools — the same number twice, a number it assigned to since, an
amount returned by an earlier call — the program on memory does what the program on values does, where no number can influence
another one or a pool: it returns if and only if that one returns, with the same pools and the same numbers, and panics in the same
way otherwise.  Conditions: pools are cloned while they have no ticks, and the number given to `NewPool` as its price is not
assigned to, because the pool keeps the pointer (`C76_price_is_shared`). -/
theorem C76_agrees {h : Heap} (ld : Loaded h) (fuel : Nat) (l : List Call) (hp : PricesKept l)
    (hc : UntickedClones fuel l ⟨[], []⟩) :
    (∀ w h', runMemory fuel l ⟨[], []⟩ h = .ok (w, h') → runCalls fuel l ⟨[], []⟩ = .ok (w.view h')) ∧
    (∀ v, runCalls fuel l ⟨[], []⟩ = .ok v → ∃ w h', runMemory fuel l ⟨[], []⟩ h = .ok (w, h') ∧ w.view h' = v) ∧
    (∀ e, runMemory fuel l ⟨[], []⟩ h = .error e ↔ runCalls fuel l ⟨[], []⟩ = .error e) := by
  have t := (tri_start ld fuel l hp hc).2
  refine ⟨?_, ?_, fun e => t.inv_error e⟩
  · intro w h' hr
    obtain ⟨v, h1, rfl, _⟩ := t.inv_ok hr
    exact h1
  · intro v hv
    obtain ⟨⟨w, h'⟩, h1, rfl, _⟩ := t.inv_ok' hv
    exact ⟨w, h', h1, rfl⟩

/-- C76: no call writes to a package-level number, to the table of prices or to any other number that existed before the program:
of those, it does not even read any but the package-level numbers and the table.  So the constants and the table are what they were
after any program of calls, and also after a panic. -/
theorem C76_constants {h : Heap} (ld : Loaded h) (fuel : Nat) (l : List Call) (hp : PricesKept l)
    (hc : UntickedClones fuel l ⟨[], []⟩) :
    (runMemory fuel l ⟨[], []⟩).Keeps (callerRights h) h ∧
    ∀ w h', runMemory fuel l ⟨[], []⟩ h = .ok (w, h') → (∀ x, x < h.next → h'.cell x = h.cell x) ∧ Loaded h' := by
  have k := (tri_start ld fuel l hp hc).1
  refine ⟨k, fun w h' hr => ?_⟩
  have fr : ∀ x, x < h.next → h'.cell x = h.cell x := fun x hx => keeps_frame _ k hr x hx fun hw => by
    rcases hw with h1 | h1
    · exact h1
    · exact absurd hx (not_lt.2 h1)
  have hl : ∀ {x}, x < 16 → h'.cell x = h.cell x := fun {x} hx => fr x (lt_of_lt_of_le (Nat.lt_of_lt_of_le hx (Nat.le_add_right _ _)) ld.room)
  exact ⟨fr, le_trans ld.room (run_next _ hr), (hl (by decide)).trans ld.zero, (hl (by decide)).trans ld.one,
    (hl (by decide)).trans ld.maxUint256, (hl (by decide)).trans ld.q128, (hl (by decide)).trans ld.q96,
    (hl (by decide)).trans ld.q192, (hl (by decide)).trans ld.maxUint160, (hl (by decide)).trans ld.maxFee,
    (hl (by decide)).trans ld.minSqrtRatio, (hl (by decide)).trans ld.maxSqrtRatio,
    fun i v hv => (fr _ (lt_of_lt_of_le (table_lt hv) ld.room)).trans (ld.table i v hv)⟩

/-- C76: a number the caller holds — one it made, an amount it passed to calls, an amount an earlier call returned — changes
only when the caller assigns to it: whatever calls follow, in any number and on any pools, the number stays what it is. -/
theorem C76_stable {h : Heap} (ld : Loaded h) (fuel : Nat) (l1 l2 : List Call) (hp : PricesKept (l1 ++ l2))
    (hc : UntickedClones fuel (l1 ++ l2) ⟨[], []⟩) {w1 w2 : PWorld} {h1 h2 : Heap}
    (r1 : runMemory fuel l1 ⟨[], []⟩ h = .ok (w1, h1)) (r2 : runMemory fuel l2 w1 h1 = .ok (w2, h2)) {k x : Nat}
    (hk : w1.nums[k]? = some x) (ha : ∀ u, Call.assign k u ∉ l2) : w2.nums[k]? = some x ∧ h2.cell x = h1.cell x := by
  have hx : w2.nums[k]? = some x := by
    obtain ⟨l, e⟩ := runMemory_num r2
    rw [e, ← hk]
    exact List.getElem?_append_left (List.getElem?_eq_some_iff.1 hk).1
  refine ⟨hx, ?_⟩
  have t1 : Tri (callerRights h) (runMemory fuel l1 ⟨[], []⟩) h (runCalls fuel l1 ⟨[], []⟩)
      (CallRel (callerRights h) (fun k => ∃ t0 t1 fee, Call.newPool t0 t1 fee k ∈ l1 ++ l2)) :=
    tri_calls fuel l1 (caller_start ld _) (unticked_left fuel l1 l2 hc)
      (fun t0 t1 fee k hm => ⟨t0, t1, fee, List.mem_append_left _ hm⟩)
      (fun k v hm ⟨t0, t1, fee, hn⟩ => hp k v (List.mem_append_left _ hm) t0 t1 fee hn)
  obtain ⟨v1, e1, rfl, ok1⟩ := t1.2.inv_ok r1
  have t2 := tri_calls fuel l2 ok1 (unticked_split fuel l1 l2 hc e1).2
    (fun t0 t1 fee k hm => ⟨t0, t1, fee, List.mem_append_right _ hm⟩)
    (fun k v hm ⟨t0, t1, fee, hn⟩ => hp k v (List.mem_append_right _ hm) t0 t1 fee hn)
  obtain ⟨v2, e2, rfl, _⟩ := t2.2.inv_ok r2
  have hl : k < (w1.view h1).nums.length := by
    show k < (w1.nums.map _).length
    rw [List.length_map]
    exact (List.getElem?_eq_some_iff.1 hk).1
  have e := runCalls_num e2 hl ha
  have g1 : (w1.view h1).nums[k]? = some (h1.cell x) := by
    show (w1.nums.map _)[k]? = _
    rw [List.getElem?_map, hk]; rfl
  have g2 : (w2.view h2).nums[k]? = some (h2.cell x) := by
    show (w2.nums.map _)[k]? = _
    rw [List.getElem?_map, hx]; rfl
  rw [g1, g2] at e
  exact Option.some.inj e

/-- C76: why the price of a new pool must not be assigned to: `NewPool` keeps the pointer it is given, so that an assignment to the
caller's number changes the price of the pool, while its current tick stays. -/
theorem C76_price_is_shared {h : Heap} (ld : Loaded h) (fuel : Nat) {t0 t1 : String} {fee : Int} {s : U256} {p : Pool}
    (hn : Pool.new t0 t1 fee s = .ok p) (s' : U256) :
    ∃ w h', runMemory fuel [.number s, .newPool t0 t1 fee 0, .assign 0 s'] ⟨[], []⟩ h = .ok (w, h') ∧
      (w.view h').pools = [{ p with price := s' }] := by
  have c0 := caller_start ld fun _ => True
  obtain ⟨x, h1, e1, f1⟩ : ∃ x h1, InPlace.new s h = .ok (x, h1) ∧ Fresh (callerRights h) h x h1 s := by
    obtain ⟨⟨x, h1⟩, e, f⟩ := (tri_new (c := callerRights h) c0.base s).2.inv_ok' rfl
    exact ⟨x, h1, e, f⟩
  have c1 := c0.number f1
  obtain ⟨⟨q, h2⟩, e2, n, hq⟩ := (tri_newPool c1.consts t0 t1 fee f1.at_).2.inv_ok' hn
  have hv : p = q.view h2 := n.view
  have hx : x < h2.next := lt_of_lt_of_le f1.at_.lt n.kept.le
  refine ⟨⟨[q], [x]⟩, h2.write x s', ?_, ?_⟩
  · have a1 : (Call.number s).onMemory fuel ⟨[], []⟩ h = .ok (⟨[], [x]⟩, h1) := by
      show (InPlace.new s >>= _) h = _
      rw [run_of e1]; rfl
    have a2 : (Call.newPool t0 t1 fee 0).onMemory fuel ⟨[], [x]⟩ h1 = .ok (⟨[q], [x]⟩, h2) := by
      show (lift (pick [x] 0) >>= fun x => Ptr.newPool t0 t1 fee x >>= _) h1 = _
      rw [run_of (show lift (pick [x] 0) h1 = .ok (x, h1) from rfl), run_of e2]; rfl
    have a3 : (Call.assign 0 s').onMemory fuel ⟨[q], [x]⟩ h2 = .ok (⟨[q], [x]⟩, h2.write x s') := by
      show (lift (pick [x] 0) >>= fun x => store x s' >>= _) h2 = _
      rw [run_of (show lift (pick [x] 0) h2 = .ok (x, h2) from rfl), run_of (store_eq x s' h2)]; rfl
    unfold runMemory
    rw [run_of a1]
    unfold runMemory
    rw [run_of a2]
    unfold runMemory
    rw [run_of a3]
    rfl
  · have nw : ∀ r ∈ q.writes, (h2.write x s').cell r = h2.cell r := fun r hr => by
      have := n.new r hr
      have := f1.at_.lt
      exact write_other _ _ (by omega)
    show [q.view (h2.write x s')] = _
    rw [hv]
    refine congrArg (fun y => [y]) ?_
    unfold HPool.view
    rw [nw q.liquidity (by simp [HPool.writes]), nw q.growth0 (by simp [HPool.writes]), nw q.growth1 (by simp [HPool.writes]),
      HTickData.view_congr fun r hr => nw r (by simp [HPool.writes, hr]),
      positions_congr fun r hr => nw r (by simp [HPool.writes, hr]), hq]
    simp

/-! ### A concrete caller -/

namespace PtrDemo

/-- A memory with the package-level numbers and the table of prices and nothing else. -/
def memory : Heap :=
  ⟨fun x => if x = 0 then zero else if x = 1 then one else if x = 2 then Cons.maxUint256 else if x = 3 then Cons.q128
    else if x = 4 then Cons.q96 else if x = 5 then Cons.q192 else if x = 6 then SqrtPriceMath.maxUint160
    else if x = 7 then SwapMath.maxFee else if x = 8 then TickMath.minSqrtRatio else if x = 9 then TickMath.maxSqrtRatio
    else match TickMath.ticksAt ((x : Int) - 16) with
      | .ok v => v
      | .error _ => zero, Ptr.constEnd⟩

theorem loaded : Loaded memory := by
  refine ⟨le_refl _, rfl, rfl, rfl, rfl, rfl, rfl, rfl, rfl, rfl, rfl, fun i v hv => ?_⟩
  have hi : 0 ≤ i := by
    by_contra hn
    unfold TickMath.ticksAt at hv
    rw [if_neg fun h => hn h.1] at hv
    cases hv
  have e : ((Ptr.tableAt i : Nat) : Int) - 16 = i := by unfold Ptr.tableAt; omega
  have hge : 16 ≤ Ptr.tableAt i := by unfold Ptr.tableAt; omega
  unfold memory
  dsimp only
  rw [e, hv, if_neg (by omega), if_neg (by omega), if_neg (by omega), if_neg (by omega), if_neg (by omega), if_neg (by omega),
    if_neg (by omega), if_neg (by omega), if_neg (by omega), if_neg (by omega)]

/-- A caller that makes a pool and a clone, uses one number for two mints and for the amount of a swap, assigns to it in between,
and passes an amount returned by a mint on as the amount of a flash and as a price limit. -/
def calls : List Call :=
  [.number (ofNat (2 ^ 96)), .newPool "WETH" "USDC" 3000 0, .clone 0,
   .number (ofNat 1000000), .mintStrategy 1 (-120) 180 1, .mint 1 60 240 1, .assign 1 (ofNat 8000), .number zero,
   .exactInput 1 1 "USDC" 4, .flash 1 2 2, .mint 0 0 60 1, .burn 1 60 240 1, .collectStrategy 1 (-120) 180]

theorem prices : PricesKept calls := by
  intro k v hk t0 t1 fee hn
  have h1 : k = 1 := by
    simp only [calls, List.mem_cons, List.not_mem_nil, or_false, reduceCtorEq, false_or, Call.assign.injEq] at hk
    exact hk.1
  subst h1
  simp [calls] at hn

theorem unticked_of (fuel : Nat) : ∀ (l : List Call) (v : VWorld), (∀ i, Call.clone i ∉ l) → UntickedClones fuel l v
  | [], _, _ => trivial
  | a :: l, _, h => ⟨fun i _ e _ => absurd (by rw [e]; exact List.mem_cons_self) (h i),
      fun w' _ => unticked_of fuel l w' fun i hm => h i (List.mem_cons_of_mem _ hm)⟩

theorem unticked : UntickedClones 10 calls ⟨[], []⟩ := by
  unfold calls
  refine ⟨fun i p e _ => (Call.noConfusion e), fun w1 h1 => ?_⟩
  cases h1
  refine ⟨fun i p e _ => (Call.noConfusion e), fun w2 h2 => ?_⟩
  obtain ⟨x, _, h2⟩ := Pool.bind_ok h2
  obtain ⟨q, hq, h2⟩ := Pool.bind_ok h2
  cases h2
  refine ⟨fun i p e hp => ?_, fun w3 _ => unticked_of _ _ _ (by simp)⟩
  have : p = q := List.mem_singleton.1 (List.mem_of_getElem? hp)
  rw [this]
  exact (new_empty hq).1

theorem returns : isOk (runCalls 10 calls ⟨[], []⟩) = true := by decide +kernel

/-- The program of the example returns on memory; it leaves two pools, the table and the constants, and the numbers of the caller
are the price, the assigned amount, the amounts of the mint, the limit, the amounts of the swap and the collected amounts. -/
theorem run : ∃ w h', runMemory 10 calls ⟨[], []⟩ memory = .ok (w, h') ∧ w.pools.length = 2 ∧ Loaded h' ∧
    w.nums.map h'.cell = (getOk _ returns).nums := by
  obtain ⟨w, h', e, hv⟩ := (C76_agrees loaded 10 calls prices unticked).2.1 _ (eq_getOk _ returns)
  refine ⟨w, h', e, ?_, ((C76_constants loaded 10 calls prices unticked).2 w h' e).2, congrArg VWorld.nums hv⟩
  rw [show w.pools.length = (w.view h').pools.length from (List.length_map _).symm, hv]
  decide +kernel

theorem amounts : (getOk _ returns).nums = [ofNat (2 ^ 96), ofNat 8000, ofNat 8960, ofNat 5982, zero,
    ofNat (2 ^ 256 - 7923), ofNat 8000, zero, zero] := by decide +kernel

end PtrDemo

end Props
end Uni
