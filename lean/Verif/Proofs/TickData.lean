import Verif.Model.TickData
import Verif.Spec.Ticks
import Verif.Proofs.Arith
import Mathlib.Tactic.Linarith
import Mathlib.Data.List.Pairwise
/-! # Tick store -/
namespace Uni
open U256 Spec
namespace TickData

theorem idx_nat {α : Type} (xs : List α) (i : Nat) (h : i < xs.length) : idx xs (i : Int) = .ok xs[i] := by
  unfold idx
  rw [if_pos (by omega), Int.toNat_natCast, List.getElem?_eq_getElem h]

theorem idx_int {α : Type} (xs : List α) (i : Int) (h0 : 0 ≤ i) (h : i.toNat < xs.length) : idx xs i = .ok xs[i.toNat] := by
  unfold idx
  rw [if_pos h0, List.getElem?_eq_getElem h]

theorem inc_lt {ts : List Tick} (h : Increasing ts) {i j : Nat} (hij : i < j) (hj : j < ts.length) :
    ts[i].index < ts[j].index := List.pairwise_iff_getElem.1 h i j (by omega) hj hij

theorem inc_le {ts : List Tick} (h : Increasing ts) {i j : Nat} (hij : i ≤ j) (hj : j < ts.length) :
    ts[i].index ≤ ts[j].index := by
  rcases Nat.lt_or_eq_of_le hij with h1 | h1
  · exact le_of_lt (inc_lt h h1 hj)
  · subst h1; exact le_refl _

/-! ### Lookup -/

theorem lookup_none {ts : List Tick} {i : Int} : lookup ts i = none ↔ ∀ x ∈ ts, x.index ≠ i := by
  unfold lookup
  rw [List.find?_eq_none]
  constructor
  · intro h x hx; have := h x hx; simpa using this
  · intro h x hx; have := h x hx; simpa using this

theorem lookup_index {ts : List Tick} {i : Int} {x : Tick} (h : lookup ts i = some x) : x.index = i := by
  unfold lookup at h
  have := List.find?_some h
  exact of_decide_eq_true this

theorem lookup_mem {ts : List Tick} {i : Int} {x : Tick} (h : lookup ts i = some x) : x ∈ ts :=
  List.mem_of_find?_eq_some h

theorem lookup_of_mem {ts : List Tick} (hs : Increasing ts) {x : Tick} (h : x ∈ ts) : lookup ts x.index = some x := by
  induction ts with
  | nil => cases h
  | cons y ys ih =>
    unfold lookup
    rw [List.find?_cons]
    rcases List.mem_cons.1 h with h1 | h1
    · subst h1; simp
    · have hlt : y.index < x.index := (List.pairwise_cons.1 hs).1 x h1
      have : decide (y.index = x.index) = false := decide_eq_false (by omega)
      rw [this]
      exact ih (List.pairwise_cons.1 hs).2 h1

theorem lookup_some_iff {ts : List Tick} (hs : Increasing ts) {i : Int} {x : Tick} :
    lookup ts i = some x ↔ x ∈ ts ∧ x.index = i := by
  constructor
  · intro h; exact ⟨lookup_mem h, lookup_index h⟩
  · rintro ⟨h1, h2⟩; rw [← h2]; exact lookup_of_mem hs h1

theorem lookup_append (a b : List Tick) (i : Int) : lookup (a ++ b) i = (lookup a i).or (lookup b i) := by
  unfold lookup; exact List.find?_append

theorem lookup_cons (x : Tick) (b : List Tick) (i : Int) : lookup (x :: b) i = if x.index = i then some x else lookup b i := by
  unfold lookup
  rw [List.find?_cons]
  by_cases h : x.index = i
  · rw [if_pos h, decide_eq_true h]
  · rw [if_neg h, decide_eq_false h]

/-- Replacing (or inserting, or removing) the entry at one tick. -/
theorem lookup_split {a b : List Tick} {t : Int} (ha : ∀ x ∈ a, x.index < t) (x : Tick) (hx : x.index = t)
    (i : Int) : lookup (a ++ x :: b) i = if i = t then some x else lookup (a ++ b) i := by
  rw [lookup_append, lookup_cons, lookup_append]
  by_cases h : i = t
  · subst h
    rw [if_pos hx, if_pos rfl, lookup_none.2 (fun y hy => by have := ha y hy; omega)]
    rfl
  · rw [if_neg h, if_neg (by omega)]

theorem lookup_gap {a b : List Tick} {t : Int} (ha : ∀ x ∈ a, x.index < t) (hb : ∀ x ∈ b, t < x.index) :
    lookup (a ++ b) t = none := by
  rw [lookup_none]
  intro x hx
  rcases List.mem_append.1 hx with h | h
  · have := ha x h; omega
  · have := hb x h; omega

theorem inc_split {a b : List Tick} {x : Tick} (h : Increasing (a ++ x :: b)) :
    (∀ y ∈ a, y.index < x.index) ∧ (∀ y ∈ b, x.index < y.index) ∧ Increasing (a ++ b) := by
  unfold Increasing at *
  rw [List.pairwise_append] at h ⊢
  obtain ⟨h1, h2, h3⟩ := h
  rw [List.pairwise_cons] at h2
  refine ⟨fun y hy => h3 y hy x List.mem_cons_self, h2.1, h1, h2.2, fun y hy z hz => h3 y hy z (List.mem_cons_of_mem _ hz)⟩

theorem inc_insert {a b : List Tick} {x : Tick} (h : Increasing (a ++ b)) (ha : ∀ y ∈ a, y.index < x.index)
    (hb : ∀ y ∈ b, x.index < y.index) : Increasing (a ++ x :: b) := by
  unfold Increasing at *
  rw [List.pairwise_append] at h ⊢
  obtain ⟨h1, h2, h3⟩ := h
  rw [List.pairwise_cons]
  refine ⟨h1, ⟨hb, h2⟩, ?_⟩
  intro y hy z hz
  rcases List.mem_cons.1 hz with h | h
  · subst h; exact ha y hy
  · exact h3 y hy z h

/-! ### Bounds tests -/

theorem isBelowSmallest_eq {t : TickData} (h : t.ticks ≠ []) (tick : Int) :
    isBelowSmallest t tick = .ok (decide (tick < (t.ticks[0]'(List.length_pos_iff.2 h)).index)) := by
  have hl := List.length_pos_iff.2 h
  unfold isBelowSmallest
  have h1 : invariant (decide (t.len > 0)) = .ok () := by
    rw [decide_eq_true (by unfold len; omega)]; rfl
  have h2 := idx_nat t.ticks 0 hl
  rw [h1, Except_bind_ok]
  rw [show idx t.ticks 0 = _ from h2, Except_bind_ok]
  rfl

theorem idx_last {t : TickData} (h : t.ticks ≠ []) :
    idx t.ticks (t.len - 1) = .ok (t.ticks[t.ticks.length - 1]'(by have := List.length_pos_iff.2 h; omega)) := by
  have hl := List.length_pos_iff.2 h
  have e : t.len - 1 = ((t.ticks.length - 1 : Nat) : Int) := by unfold len; omega
  rw [e, idx_nat]

theorem isAtOrAboveLargest_eq {t : TickData} (h : t.ticks ≠ []) (tick : Int) :
    isAtOrAboveLargest t tick =
      .ok (decide (tick ≥ (t.ticks[t.ticks.length - 1]'(by have := List.length_pos_iff.2 h; omega)).index)) := by
  have hl := List.length_pos_iff.2 h
  unfold isAtOrAboveLargest
  have h1 : invariant (decide (t.len > 0)) = .ok () := by
    rw [decide_eq_true (by unfold len; omega)]; rfl
  rw [h1, Except_bind_ok, idx_last h, Except_bind_ok]
  rfl

theorem isAboveLargest_eq {t : TickData} (h : t.ticks ≠ []) (tick : Int) :
    isAboveLargest t tick =
      .ok (decide (tick > (t.ticks[t.ticks.length - 1]'(by have := List.length_pos_iff.2 h; omega)).index)) := by
  unfold isAboveLargest
  rw [idx_last h, Except_bind_ok]
  rfl

theorem isBelowSmallest_empty {t : TickData} (h : t.ticks = []) (tick : Int) : isBelowSmallest t tick = .error .panic := by
  unfold isBelowSmallest len; rw [h]; rfl
theorem isAtOrAboveLargest_empty {t : TickData} (h : t.ticks = []) (tick : Int) : isAtOrAboveLargest t tick = .error .panic := by
  unfold isAtOrAboveLargest len; rw [h]; rfl

/-! ### `binarySearch` -/

/-- `k` is the position of the last entry that is at or below `tick`. -/
def IsPos (ts : List Tick) (tick : Int) (k : Nat) : Prop :=
  ∀ j (hj : j < ts.length), ts[j].index ≤ tick ↔ j ≤ k

theorem isPos_exists {ts : List Tick} (hs : Increasing ts) (hne : 0 < ts.length) {tick : Int} (h0 : ts[0].index ≤ tick) :
    ∃ k, k < ts.length ∧ IsPos ts tick k := by
  induction ts with
  | nil => simp at hne
  | cons x xs ih =>
    rcases Nat.eq_zero_or_pos xs.length with hx | hx
    · refine ⟨0, by simp, ?_⟩
      intro j hj
      have : j = 0 := by simp at hj; omega
      subst this
      simpa using h0
    · by_cases h1 : xs[0].index ≤ tick
      · obtain ⟨k, hk, hp⟩ := ih (List.pairwise_cons.1 hs).2 hx h1
        refine ⟨k + 1, by simp; omega, ?_⟩
        intro j hj
        cases j with
        | zero => simpa using h0
        | succ j =>
          have := hp j (by simpa using hj)
          simp only [List.getElem_cons_succ]
          rw [this]; omega
      · refine ⟨0, by simp, ?_⟩
        intro j hj
        cases j with
        | zero => simpa using h0
        | succ j =>
          simp only [List.getElem_cons_succ]
          have hj' : j < xs.length := by simpa using hj
          have := inc_le (List.pairwise_cons.1 hs).2 (Nat.zero_le j) hj'
          constructor
          · intro h; omega
          · intro h; omega

theorem lastBefore_eq {t : TickData} {tick : Int} {i : Nat} (hi : i < t.ticks.length) :
    lastBefore t tick i = .ok (decide (∀ (h : i + 1 < t.ticks.length), tick < t.ticks[i + 1].index)) := by
  unfold lastBefore
  by_cases h : (i : Int) = t.len - 1
  · rw [if_pos h]
    congr 1
    symm
    apply decide_eq_true
    intro h'
    unfold len at h; omega
  · rw [if_neg h]
    have h' : i + 1 < t.ticks.length := by unfold len at h; omega
    have e : ((i : Int) + 1) = ((i + 1 : Nat) : Int) := by push_cast; rfl
    rw [e, idx_nat _ _ h', Except_bind_ok]
    show Except.ok _ = _
    congr 1
    apply decide_eq_decide.2
    constructor
    · intro h2 _; exact h2
    · intro h2; exact h2 h'

theorem bsLoop_spec {t : TickData} (hs : Increasing t.ticks) {tick : Int} {k : Nat} (hk : k < t.ticks.length)
    (hp : IsPos t.ticks tick k) (fuel : Nat) (l r : Nat) (hl : l ≤ k) (hr : k ≤ r) (hrl : r < t.ticks.length)
    (hf : r - l < fuel) : bsLoop t tick fuel l r = .ok k := by
  induction fuel generalizing l r with
  | zero => omega
  | succ fuel ih =>
    unfold bsLoop
    dsimp only
    have e : Int.tdiv ((l : Int) + r) 2 = (((l + r) / 2 : Nat) : Int) := by
      rw [Int.tdiv_eq_ediv_of_nonneg (by omega)]; push_cast; rfl
    have hi : (l + r) / 2 < t.ticks.length := by omega
    rw [e, idx_nat _ _ hi, Except_bind_ok]
    have hpi := hp _ hi
    unfold foundAt
    by_cases h1 : t.ticks[(l + r) / 2].index ≤ tick
    · rw [if_pos h1, lastBefore_eq hi, Except_bind_ok]
      have h2 := hpi.1 h1
      by_cases h3 : (l + r) / 2 = k
      · have : ∀ h : (l + r) / 2 + 1 < t.ticks.length, tick < t.ticks[(l + r) / 2 + 1].index := by
          intro h
          by_contra hc
          have := (hp _ h).1 (by omega)
          omega
        rw [if_pos (decide_eq_true this), h3]
        rfl
      · have : ¬ ∀ h : (l + r) / 2 + 1 < t.ticks.length, tick < t.ticks[(l + r) / 2 + 1].index := by
          intro h
          have h4 := h (by omega)
          have := (hp ((l + r) / 2 + 1) (by omega)).2 (by omega)
          omega
        rw [if_neg (fun h => this (of_decide_eq_true h))]
        clear this
        have h5 : t.ticks[(l + r) / 2].index < tick := by
          have h6 := inc_lt hs (show (l + r) / 2 < k by omega) hk
          have := (hp k hk).2 (le_refl _)
          omega
        rw [if_pos h5]
        have e2 : (((l + r) / 2 : Nat) : Int) + 1 = (((l + r) / 2 + 1 : Nat) : Int) := by push_cast; rfl
        rw [e2]
        exact ih _ _ (by omega) hr hrl (by omega)
    · rw [if_neg h1, Except_bind_ok, if_neg (by decide), if_neg (by omega)]
      have h2 : ¬ (l + r) / 2 ≤ k := fun h => h1 (hpi.2 h)
      have e2 : (((l + r) / 2 : Nat) : Int) - 1 = (((l + r) / 2 - 1 : Nat) : Int) := by omega
      rw [e2]
      exact ih _ _ hl (by omega) (by omega) (by omega)

theorem binarySearch_spec {t : TickData} (hs : Increasing t.ticks) (hne : 0 < t.ticks.length) {tick : Int}
    (h0 : t.ticks[0].index ≤ tick) :
    ∃ k, k < t.ticks.length ∧ IsPos t.ticks tick k ∧ binarySearch t tick = .ok (k : Int) := by
  obtain ⟨k, hk, hp⟩ := isPos_exists hs hne h0
  refine ⟨k, hk, hp, ?_⟩
  unfold binarySearch
  have hne' : t.ticks ≠ [] := List.length_pos_iff.1 hne
  rw [isBelowSmallest_eq hne', Except_bind_ok, decide_eq_false (by omega)]
  have e : t.len - 1 = ((t.ticks.length - 1 : Nat) : Int) := by unfold len; omega
  rw [e]
  show (invariant true >>= fun _ => bsLoop t tick (t.ticks.length + 1) ((0 : Nat) : Int) ((t.ticks.length - 1 : Nat) : Int)) = _
  show bsLoop t tick (t.ticks.length + 1) ((0 : Nat) : Int) ((t.ticks.length - 1 : Nat) : Int) = _
  exact bsLoop_spec hs hk hp _ 0 _ (Nat.zero_le _) (by omega) (by omega) (by omega)

theorem binarySearch_below {t : TickData} (hne : t.ticks ≠ []) {tick : Int}
    (h0 : tick < (t.ticks[0]'(List.length_pos_iff.2 hne)).index) : binarySearch t tick = .error .panic := by
  unfold binarySearch
  rw [isBelowSmallest_eq hne, Except_bind_ok, decide_eq_true h0]
  rfl

theorem binarySearch_empty {t : TickData} (h : t.ticks = []) (tick : Int) : binarySearch t tick = .error .panic := by
  unfold binarySearch
  rw [isBelowSmallest_empty h]; rfl

/-! ### `GetTick` -/

theorem getTickAt_spec {t : TickData} (hs : Increasing t.ticks) (i : Int) :
    (∃ (k : Nat) (hk : k < t.ticks.length), getTickAt t i = .ok ((k : Int), t.ticks[k]) ∧
        lookup t.ticks i = some t.ticks[k]) ∨
    (getTickAt t i = .error .panic ∧ lookup t.ticks i = none) := by
  unfold getTickAt
  by_cases hne : t.ticks = []
  · right
    rw [binarySearch_empty hne]
    exact ⟨rfl, by rw [hne]; rfl⟩
  · have hl := List.length_pos_iff.2 hne
    by_cases h0 : t.ticks[0].index ≤ i
    · obtain ⟨k, hk, hp, hb⟩ := binarySearch_spec hs hl h0
      rw [hb, Except_bind_ok, idx_nat _ _ hk, Except_bind_ok]
      by_cases h1 : t.ticks[k].index = i
      · left
        refine ⟨k, hk, ?_, ?_⟩
        · rw [decide_eq_true h1]; rfl
        · have := lookup_of_mem hs (List.getElem_mem hk)
          rw [h1] at this; exact this
      · right
        refine ⟨by rw [decide_eq_false h1]; rfl, ?_⟩
        rw [lookup_none]
        intro x hx hxi
        obtain ⟨j, hj, rfl⟩ := List.mem_iff_getElem.1 hx
        have h2 := (hp j hj).1 (by omega)
        have h3 := inc_le hs h2 hk
        have h4 := (hp k hk).2 (le_refl _)
        omega
    · right
      rw [binarySearch_below hne (by omega)]
      refine ⟨rfl, ?_⟩
      rw [lookup_none]
      intro x hx hxi
      obtain ⟨j, hj, rfl⟩ := List.mem_iff_getElem.1 hx
      have h3 := inc_le hs (Nat.zero_le j) hj
      omega

theorem getTick_some {t : TickData} (hs : Increasing t.ticks) {i : Int} {x : Tick} (h : lookup t.ticks i = some x) :
    getTick t i = .ok x := by
  unfold getTick
  rcases getTickAt_spec hs i with ⟨k, hk, h1, h2⟩ | ⟨_, h2⟩
  · rw [h1, Except_bind_ok]
    rw [h] at h2; cases h2; rfl
  · rw [h] at h2; cases h2

theorem getTick_none {t : TickData} (hs : Increasing t.ticks) {i : Int} (h : lookup t.ticks i = none) :
    getTick t i = .error .panic := by
  unfold getTick
  rcases getTickAt_spec hs i with ⟨k, hk, h1, h2⟩ | ⟨h1, h2⟩
  · rw [h] at h2; cases h2
  · rw [h1]; rfl

theorem split_at {ts : List Tick} (k : Nat) (hk : k < ts.length) : ts = ts.take k ++ ts[k] :: ts.drop (k + 1) := by
  rw [List.getElem_cons_drop, List.take_append_drop]

theorem set_split {ts : List Tick} (k : Nat) (hk : k < ts.length) (x : Tick) :
    ts.set k x = ts.take k ++ x :: ts.drop (k + 1) := by
  rw [List.set_eq_take_append_cons_drop, if_pos hk]

theorem setIdx_nat {ts : List Tick} (k : Nat) (hk : k < ts.length) (x : Tick) : setIdx ts (k : Int) x = .ok (ts.set k x) := by
  unfold setIdx
  rw [if_pos ⟨by omega, by omega⟩, Int.toNat_natCast]

/-- Replacing the entry at position `k` by one with the same index. -/
theorem set_spec {ts : List Tick} (hs : Increasing ts) (k : Nat) (hk : k < ts.length) (x : Tick) (hx : x.index = ts[k].index) :
    Increasing (ts.set k x) ∧ ∀ i, lookup (ts.set k x) i = if i = x.index then some x else lookup ts i := by
  have e := split_at k hk
  have hs' := hs
  rw [e] at hs'
  obtain ⟨h1, h2, h3⟩ := inc_split hs'
  rw [set_split k hk]
  refine ⟨inc_insert h3 (by rw [hx]; exact h1) (by rw [hx]; exact h2), ?_⟩
  intro i
  rw [lookup_split (t := x.index) (by rw [hx]; exact h1) x rfl]
  by_cases h : i = x.index
  · rw [if_pos h, if_pos h]
  · rw [if_neg h, if_neg h]
    conv_rhs => rw [e]
    rw [lookup_split (t := ts[k].index) h1 _ rfl, if_neg (by rw [← hx]; exact h)]

theorem cross_some {t : TickData} (hs : Increasing t.ticks) {i : Int} {x : Tick} (h : lookup t.ticks i = some x) (g0 g1 : U256) :
    ∃ ts', cross t i g0 g1 = .ok (x.net, { t with ticks := ts' }) ∧ Increasing ts' ∧
      ∀ j, lookup ts' j = if j = i then some { x with out0 := sub g0 x.out0, out1 := sub g1 x.out1 } else lookup t.ticks j := by
  unfold cross
  rcases getTickAt_spec hs i with ⟨k, hk, h1, h2⟩ | ⟨_, h2⟩
  · rw [h] at h2; cases h2
    rw [h1, Except_bind_ok]
    dsimp only
    rw [setIdx_nat k hk, Except_bind_ok]
    have hi := lookup_index h
    obtain ⟨h3, h4⟩ := set_spec hs k hk { t.ticks[k] with out0 := sub g0 t.ticks[k].out0, out1 := sub g1 t.ticks[k].out1 } rfl
    refine ⟨_, rfl, h3, ?_⟩
    intro j
    rw [h4 j]
    dsimp only
    rw [hi]
  · rw [h] at h2; cases h2

theorem cross_none {t : TickData} (hs : Increasing t.ticks) {i : Int} (h : lookup t.ticks i = none) (g0 g1 : U256) :
    cross t i g0 g1 = .error .panic := by
  unfold cross
  rcases getTickAt_spec hs i with ⟨k, hk, h1, h2⟩ | ⟨h1, h2⟩
  · rw [h] at h2; cases h2
  · rw [h1]; rfl

/-! ### `binarySearch2` -/

/-- `p` is the insertion position of `tick`. -/
def IsIns (ts : List Tick) (tick : Int) (p : Nat) : Prop :=
  (∀ j (hj : j < ts.length), j < p → ts[j].index < tick) ∧ (∀ j (hj : j < ts.length), p ≤ j → tick < ts[j].index)

theorem bs2Loop_spec {t : TickData} (hs : Increasing t.ticks) {tick : Int} (fuel : Nat) (l r : Nat) (hlr : l ≤ r)
    (hr : r < t.ticks.length) (hri : tick ≤ t.ticks[r].index)
    (hl : ∀ j (hj : j < t.ticks.length), j < l → t.ticks[j].index < tick) (hf : r - l < fuel) :
    (∃ (i : Nat) (hi : i < t.ticks.length), bs2Loop t tick fuel l r = .ok (.inl (i : Int)) ∧ t.ticks[i].index = tick) ∨
    (∃ (p : Nat) (hp : p < t.ticks.length), bs2Loop t tick fuel l r = .ok (.inr (p : Int)) ∧ tick ≤ t.ticks[p].index ∧
      ∀ j (hj : j < t.ticks.length), j < p → t.ticks[j].index < tick) := by
  induction fuel generalizing l r with
  | zero => omega
  | succ fuel ih =>
    unfold bs2Loop
    by_cases h : l < r
    · rw [if_pos (by omega)]
      dsimp only
      have e : (l : Int) + Int.tdiv ((r : Int) - l) 2 = ((l + (r - l) / 2 : Nat) : Int) := by
        rw [Int.tdiv_eq_ediv_of_nonneg (by omega)]; omega
      have hi : l + (r - l) / 2 < t.ticks.length := by omega
      rw [e, idx_nat _ _ hi, Except_bind_ok]
      by_cases h1 : tick = t.ticks[l + (r - l) / 2].index
      · left
        rw [if_pos h1]
        exact ⟨_, hi, rfl, h1.symm⟩
      · rw [if_neg h1]
        by_cases h2 : t.ticks[l + (r - l) / 2].index < tick
        · rw [if_pos h2]
          have e2 : ((l + (r - l) / 2 : Nat) : Int) + 1 = ((l + (r - l) / 2 + 1 : Nat) : Int) := by push_cast; rfl
          rw [e2]
          refine ih _ _ (by omega) hr hri ?_ (by omega)
          intro j hj hjl
          have := inc_le hs (show j ≤ l + (r - l) / 2 by omega) hi
          omega
        · rw [if_neg h2]
          exact ih _ _ (by omega) hi (by omega) hl (by omega)
    · rw [if_neg (by omega)]
      right
      have : l = r := by omega
      subst this
      exact ⟨l, hr, rfl, hri, hl⟩

/-- Result of the search used by updates and clears. -/
theorem binarySearch2_spec {t : TickData} (hs : Increasing t.ticks) (tick : Int) :
    (∃ (k : Nat) (hk : k < t.ticks.length), binarySearch2 t tick = .ok ((k : Int), true) ∧ t.ticks[k].index = tick) ∨
    (lookup t.ticks tick = none ∧
      ((binarySearch2 t tick = .ok (-2, false) ∧ ∀ x ∈ t.ticks, x.index < tick) ∨
       (binarySearch2 t tick = .ok (-1, false) ∧ ∀ x ∈ t.ticks, tick < x.index) ∨
       (∃ k : Nat, binarySearch2 t tick = .ok ((k : Int), false) ∧
          (∀ x ∈ t.ticks.take k, x.index < tick) ∧ (∀ x ∈ t.ticks.drop k, tick < x.index)))) := by
  unfold binarySearch2
  by_cases hne : t.ticks.length = 0
  · right
    rw [if_pos hne]
    have h0 := List.length_eq_zero_iff.1 hne
    refine ⟨by rw [h0]; rfl, Or.inl ⟨rfl, by rw [h0]; simp⟩⟩
  · rw [if_neg hne]
    have hl : 0 < t.ticks.length := by omega
    have hne' := List.length_pos_iff.1 hl
    rw [isBelowSmallest_eq hne', Except_bind_ok]
    by_cases h0 : tick < t.ticks[0].index
    · right
      rw [if_pos (decide_eq_true h0)]
      have hall : ∀ x ∈ t.ticks, tick < x.index := by
        intro x hx
        obtain ⟨j, hj, rfl⟩ := List.mem_iff_getElem.1 hx
        have := inc_le hs (Nat.zero_le j) hj
        omega
      refine ⟨lookup_none.2 (fun x hx => by have := hall x hx; omega), Or.inr (Or.inl ⟨rfl, hall⟩)⟩
    · rw [if_neg (fun h => h0 (of_decide_eq_true h)), isAboveLargest_eq hne', Except_bind_ok]
      by_cases h1 : tick > t.ticks[t.ticks.length - 1].index
      · right
        rw [if_pos (decide_eq_true h1)]
        have hall : ∀ x ∈ t.ticks, x.index < tick := by
          intro x hx
          obtain ⟨j, hj, rfl⟩ := List.mem_iff_getElem.1 hx
          have := inc_le hs (show j ≤ t.ticks.length - 1 by omega) (by omega)
          omega
        refine ⟨lookup_none.2 (fun x hx => by have := hall x hx; omega), Or.inl ⟨rfl, hall⟩⟩
      · rw [if_neg (fun h => h1 (of_decide_eq_true h))]
        unfold bs2Search
        have e : t.len - 1 = ((t.ticks.length - 1 : Nat) : Int) := by unfold len; omega
        rw [e]
        rcases bs2Loop_spec hs (tick := tick) (t.ticks.length + 1) 0 (t.ticks.length - 1) (Nat.zero_le _) (by omega) (by omega)
          (by intro j hj h; omega) (by omega) with ⟨i, hi, h2, h3⟩ | ⟨p, hp, h2, h3, h4⟩
        · left
          refine ⟨i, hi, ?_, h3⟩
          rw [show ((0 : Int)) = ((0 : Nat) : Int) from rfl, h2, Except_bind_ok]
          rfl
        · rw [show ((0 : Int)) = ((0 : Nat) : Int) from rfl, h2, Except_bind_ok]
          dsimp only
          rw [idx_nat _ _ hp, Except_bind_ok]
          by_cases h5 : tick = t.ticks[p].index
          · left
            refine ⟨p, hp, ?_, h5.symm⟩
            rw [decide_eq_true h5]; rfl
          · right
            have ha : ∀ x ∈ t.ticks.take p, x.index < tick := by
              intro x hx
              obtain ⟨j, hj, rfl⟩ := List.mem_iff_getElem.1 hx
              rw [List.getElem_take]
              rw [List.length_take] at hj
              exact h4 j _ (by omega)
            have hb : ∀ x ∈ t.ticks.drop p, tick < x.index := by
              intro x hx
              obtain ⟨j, hj, rfl⟩ := List.mem_iff_getElem.1 hx
              rw [List.getElem_drop]
              rw [List.length_drop] at hj
              have := inc_le hs (Nat.le_add_right p j) (by omega)
              omega
            refine ⟨?_, Or.inr (Or.inr ⟨p, ?_, ha, hb⟩)⟩
            · have := lookup_gap ha hb
              rwa [List.take_append_drop] at this
            · rw [decide_eq_false h5]; rfl

/-! ### `UpdateTick`, `ClearTick` -/

/-- The entry stored after an update. -/
def updated (old : Option Tick) (i cur : Int) (delta g0 g1 : U256) (upper : Bool) : Tick :=
  match old with
  | some x => { x with net := if upper then sub x.net delta else add x.net delta, gross := add x.gross delta }
  | none => makeTick i cur (if upper then neg delta else delta) delta g0 g1

/-- The flag returned by an update. -/
def nowEmpty (old : Option Tick) (delta : U256) : Bool :=
  match old with
  | some x => (add x.gross delta).isZero
  | none => false

theorem makeTick_index (i cur : Int) (n g a b : U256) : (makeTick i cur n g a b).index = i := by
  unfold makeTick; split <;> rfl

theorem updateTick_spec {t : TickData} (hs : Increasing t.ticks) (i cur : Int) (delta g0 g1 : U256) (upper : Bool) :
    ∃ ts', updateTick t i cur delta g0 g1 upper = .ok (nowEmpty (lookup t.ticks i) delta, { t with ticks := ts' }) ∧
      Increasing ts' ∧
      ∀ j, lookup ts' j = if j = i then some (updated (lookup t.ticks i) i cur delta g0 g1 upper) else lookup t.ticks j := by
  unfold updateTick
  have hm := makeTick_index i cur (if upper then neg delta else delta) delta g0 g1
  rcases binarySearch2_spec hs i with ⟨k, hk, h1, h2⟩ | ⟨h0, h⟩
  · rw [h1, Except_bind_ok]
    dsimp only
    rw [if_pos rfl, idx_nat _ _ hk, Except_bind_ok, setIdx_nat _ hk, Except_bind_ok]
    have hlk : lookup t.ticks i = some t.ticks[k] := by
      have := lookup_of_mem hs (List.getElem_mem hk); rwa [h2] at this
    obtain ⟨h3, h4⟩ := set_spec hs k hk
      { t.ticks[k] with net := if upper then sub t.ticks[k].net delta else add t.ticks[k].net delta, gross := add t.ticks[k].gross delta } rfl
    refine ⟨_, ?_, h3, ?_⟩
    · rw [hlk]; rfl
    · intro j
      rw [h4 j]
      rw [hlk]
      by_cases hj : j = i
      · rw [if_pos (by dsimp only; rw [h2]; exact hj), if_pos hj]; rfl
      · rw [if_neg (by dsimp only; rw [h2]; exact hj), if_neg hj]
  · rw [h0]
    rcases h with ⟨h1, h2⟩ | ⟨h1, h2⟩ | ⟨k, h1, h2, h3⟩
    · rw [h1, Except_bind_ok]
      refine ⟨_, rfl, ?_, ?_⟩
      · exact inc_insert (b := []) (by simpa using hs) (by rw [hm]; exact h2) (by simp)
      · intro j
        rw [lookup_split (t := i) h2 _ hm, List.append_nil]
        rfl
    · rw [h1, Except_bind_ok]
      refine ⟨_, rfl, ?_, ?_⟩
      · exact inc_insert (a := []) hs (by simp) (by rw [hm]; exact h2)
      · intro j
        have := lookup_split (a := []) (b := t.ticks) (t := i) (by simp) _ hm j
        exact this
    · rw [h1, Except_bind_ok]
      dsimp only
      rw [if_neg (by decide), if_neg (by omega), if_neg (by omega), Int.toNat_natCast]
      refine ⟨_, rfl, ?_, ?_⟩
      · exact inc_insert (by rw [List.take_append_drop]; exact hs) (by rw [hm]; exact h2) (by rw [hm]; exact h3)
      · intro j
        rw [lookup_split (t := i) h2 _ hm, List.take_append_drop]
        rfl

theorem clearTick_spec {t : TickData} (hs : Increasing t.ticks) (i : Int) :
    ∃ ts', clearTick t i = .ok { t with ticks := ts' } ∧ Increasing ts' ∧
      ∀ j, lookup ts' j = if j = i then none else lookup t.ticks j := by
  unfold clearTick
  rcases binarySearch2_spec hs i with ⟨k, hk, h1, h2⟩ | ⟨h0, h⟩
  · rw [h1, Except_bind_ok]
    dsimp only
    rw [if_pos rfl, Int.toNat_natCast]
    have e := split_at k hk
    have hs' := hs
    rw [e] at hs'
    obtain ⟨h3, h4, h5⟩ := inc_split hs'
    rw [h2] at h3 h4
    refine ⟨_, rfl, ?_, ?_⟩
    · rw [List.eraseIdx_eq_take_drop_succ]; exact h5
    · intro j
      rw [List.eraseIdx_eq_take_drop_succ]
      by_cases hj : j = i
      · rw [if_pos hj, hj]; exact lookup_gap h3 h4
      · rw [if_neg hj]
        conv_rhs => rw [e]
        rw [lookup_split (t := i) h3 _ h2, if_neg hj]
  · have hg : clearTick t i = .ok t := by
      unfold clearTick
      rcases h with ⟨h1, h2⟩ | ⟨h1, h2⟩ | ⟨k, h1, h2, h3⟩ <;> rw [h1, Except_bind_ok] <;> rfl
    unfold clearTick at hg
    refine ⟨t.ticks, hg, hs, ?_⟩
    intro j
    by_cases hj : j = i
    · rw [if_pos hj, hj, h0]
    · rw [if_neg hj]

/-! ### Fee growth inside -/

theorem getFeeGrowthInside_some {t : TickData} (hs : Increasing t.ticks) {l u : Int} {x y : Tick}
    (hx : lookup t.ticks l = some x) (hy : lookup t.ticks u = some y) (cur : Int) (g0 g1 : U256) :
    getFeeGrowthInside t l u cur g0 g1 =
      .ok (sub (sub g0 (growthBelow l cur g0 x.out0)) (growthAbove u cur g0 y.out0),
           sub (sub g1 (growthBelow l cur g1 x.out1)) (growthAbove u cur g1 y.out1)) := by
  unfold getFeeGrowthInside
  rw [getTick_some hs hx, Except_bind_ok, getTick_some hs hy, Except_bind_ok]
  rfl

theorem getFeeGrowthInside_none {t : TickData} (hs : Increasing t.ticks) {l u : Int}
    (h : lookup t.ticks l = none ∨ lookup t.ticks u = none) (cur : Int) (g0 g1 : U256) :
    getFeeGrowthInside t l u cur g0 g1 = .error .panic := by
  unfold getFeeGrowthInside
  rcases h with h | h
  · rw [getTick_none hs h]; rfl
  · rcases hl : lookup t.ticks l with _ | x
    · rw [getTick_none hs hl]; rfl
    · rw [getTick_some hs hl, Except_bind_ok, getTick_none hs h]; rfl

/-! ### Next initialized tick -/

/-- There is an entry for tick `i`. -/
def Has (t : TickData) (i : Int) : Prop := (lookup t.ticks i).isSome

theorem has_iff {t : TickData} (hs : Increasing t.ticks) {i : Int} : Has t i ↔ ∃ j, ∃ hj : j < t.ticks.length, t.ticks[j].index = i := by
  unfold Has
  rw [Option.isSome_iff_exists]
  constructor
  · rintro ⟨x, hx⟩
    obtain ⟨j, hj, e⟩ := List.mem_iff_getElem.1 (lookup_mem hx)
    exact ⟨j, hj, by rw [e]; exact lookup_index hx⟩
  · rintro ⟨j, hj, e⟩
    exact ⟨t.ticks[j], by rw [← e]; exact lookup_of_mem hs (List.getElem_mem hj)⟩

theorem nextInit_le {t : TickData} (hs : Increasing t.ticks) (hne : 0 < t.ticks.length) {tick : Int}
    (h0 : t.ticks[0].index ≤ tick) :
    ∃ x, nextInitializedTick t tick true = .ok x ∧ Has t x.index ∧ x.index ≤ tick ∧
      ∀ j, Has t j → j ≤ tick → j ≤ x.index := by
  have hne' := List.length_pos_iff.1 hne
  obtain ⟨k, hk, hp, hb⟩ := binarySearch_spec hs hne h0
  have hkt := (hp k hk).2 (le_refl _)
  have key : nextInitializedTick t tick true = .ok t.ticks[k] := by
    unfold nextInitializedTick
    rw [if_pos rfl, isBelowSmallest_eq hne', Except_bind_ok, decide_eq_false (by omega)]
    rw [show invariant (!false) = .ok () from rfl, Except_bind_ok, isAtOrAboveLargest_eq hne', Except_bind_ok]
    by_cases h : tick ≥ t.ticks[t.ticks.length - 1].index
    · rw [if_pos (decide_eq_true h), idx_last hne']
      have : t.ticks.length - 1 = k := by
        have := (hp _ (show t.ticks.length - 1 < t.ticks.length by omega)).1 h
        omega
      congr 2
    · rw [if_neg (fun h' => h (of_decide_eq_true h')), hb, Except_bind_ok, idx_nat _ _ hk]
  refine ⟨_, key, (has_iff hs).2 ⟨k, hk, rfl⟩, hkt, ?_⟩
  intro j hj hjt
  obtain ⟨m, hm, rfl⟩ := (has_iff hs).1 hj
  exact inc_le hs ((hp m hm).1 hjt) hk

theorem nextInit_gt {t : TickData} (hs : Increasing t.ticks) (hne : 0 < t.ticks.length) {tick : Int}
    (h1 : tick < t.ticks[t.ticks.length - 1].index) :
    ∃ x, nextInitializedTick t tick false = .ok x ∧ Has t x.index ∧ tick < x.index ∧
      ∀ j, Has t j → tick < j → x.index ≤ j := by
  have hne' := List.length_pos_iff.1 hne
  unfold nextInitializedTick
  rw [if_neg (by decide), isAtOrAboveLargest_eq hne', Except_bind_ok, decide_eq_false (by omega)]
  rw [show invariant (!false) = .ok () from rfl, Except_bind_ok, isBelowSmallest_eq hne', Except_bind_ok]
  by_cases h0 : tick < t.ticks[0].index
  · rw [if_pos (decide_eq_true h0)]
    refine ⟨_, idx_nat _ 0 hne, (has_iff hs).2 ⟨0, hne, rfl⟩, h0, ?_⟩
    intro j hj hjt
    obtain ⟨m, hm, rfl⟩ := (has_iff hs).1 hj
    exact inc_le hs (Nat.zero_le _) hm
  · rw [if_neg (fun h' => h0 (of_decide_eq_true h'))]
    obtain ⟨k, hk, hp, hb⟩ := binarySearch_spec hs hne (tick := tick) (by omega)
    have hk1 : k + 1 < t.ticks.length := by
      by_contra hc
      have : k = t.ticks.length - 1 := by omega
      have := (hp k hk).2 (le_refl _)
      subst k
      omega
    have hgt : tick < t.ticks[k + 1].index := by
      by_contra hc
      have := (hp _ hk1).1 (by omega)
      omega
    rw [hb, Except_bind_ok]
    refine ⟨_, by rw [show (k : Int) + 1 = ((k + 1 : Nat) : Int) by push_cast; rfl, idx_nat _ _ hk1], (has_iff hs).2 ⟨_, hk1, rfl⟩, hgt, ?_⟩
    intro j hj hjt
    obtain ⟨m, hm, rfl⟩ := (has_iff hs).1 hj
    refine inc_le hs ?_ hm
    by_contra hc
    have := (hp m hm).2 (by omega)
    omega

/-- Lower end of the word searched downwards from `tick`. -/
def wordMin (t : TickData) (tick : Int) : Int := Int.tdiv tick t.spacing / 256 * 256 * t.spacing
/-- Upper end of the word searched upwards from `tick`. -/
def wordMax (t : TickData) (tick : Int) : Int := ((Int.tdiv tick t.spacing + 1) / 256 + 1) * 256 * t.spacing - t.spacing

theorem goDiv_ok {a b : Int} (h : b ≠ 0) : goDiv a b = .ok (Int.tdiv a b) := by unfold goDiv; rw [if_neg h]

theorem next_down {t : TickData} (hs : Increasing t.ticks) (hne : t.ticks ≠ []) (hsp : t.spacing ≠ 0) (tick : Int) :
    ∃ n b, nextInitializedTickWithinOneWord t tick true = .ok (n, b) ∧
      (b = true → Has t n ∧ n ≤ tick ∧ wordMin t tick ≤ n) ∧ (b = false → n = wordMin t tick) ∧
      (∀ j, Has t j → j ≤ tick → j ≤ n ∧ (j = n → b = true)) := by
  have hl := List.length_pos_iff.2 hne
  unfold nextInitializedTickWithinOneWord
  rw [goDiv_ok hsp, Except_bind_ok, if_pos rfl]
  dsimp only
  rw [isBelowSmallest_eq hne, Except_bind_ok]
  by_cases h0 : tick < t.ticks[0].index
  · rw [if_pos (decide_eq_true h0)]
    refine ⟨wordMin t tick, false, rfl, (by intro h; cases h), (fun _ => rfl), ?_⟩
    intro j hj hjt
    obtain ⟨m, hm, rfl⟩ := (has_iff hs).1 hj
    have := inc_le hs (Nat.zero_le m) hm
    omega
  · rw [if_neg (fun h => h0 (of_decide_eq_true h))]
    obtain ⟨x, h1, h2, h3, h4⟩ := nextInit_le hs hl (tick := tick) (by omega)
    rw [h1, Except_bind_ok]
    change ∃ n b, (.ok ((if wordMin t tick > x.index then wordMin t tick else x.index), decide ((if wordMin t tick > x.index then wordMin t tick else x.index) = x.index)) : Go (Int × Bool)) = _ ∧ _
    by_cases h5 : wordMin t tick > x.index
    · rw [if_pos h5, decide_eq_false (by omega)]
      refine ⟨_, _, rfl, (by intro h; cases h), (fun _ => rfl), ?_⟩
      intro j hj hjt
      have := h4 j hj hjt
      omega
    · rw [if_neg h5, decide_eq_true rfl]
      refine ⟨_, _, rfl, (fun _ => ⟨h2, h3, by omega⟩), (by intro h; cases h), ?_⟩
      intro j hj hjt
      exact ⟨h4 j hj hjt, fun _ => rfl⟩

theorem next_up {t : TickData} (hs : Increasing t.ticks) (hne : t.ticks ≠ []) (hsp : t.spacing ≠ 0) (tick : Int) :
    ∃ n b, nextInitializedTickWithinOneWord t tick false = .ok (n, b) ∧
      (b = true → Has t n ∧ tick < n ∧ n ≤ wordMax t tick) ∧ (b = false → n = wordMax t tick) ∧
      (∀ j, Has t j → tick < j → n ≤ j ∧ (j = n → b = true)) := by
  have hl := List.length_pos_iff.2 hne
  unfold nextInitializedTickWithinOneWord
  have e : (((Int.tdiv tick t.spacing + 1) / 256 + 1) * 256 - 1) * t.spacing = wordMax t tick := by
    unfold wordMax; ring
  rw [goDiv_ok hsp, Except_bind_ok, if_neg (by decide)]
  dsimp only
  rw [isAtOrAboveLargest_eq hne, Except_bind_ok, e]
  by_cases h0 : tick ≥ t.ticks[t.ticks.length - 1].index
  · rw [if_pos (decide_eq_true h0)]
    refine ⟨_, _, rfl, (by intro h; cases h), (fun _ => rfl), ?_⟩
    intro j hj hjt
    obtain ⟨m, hm, rfl⟩ := (has_iff hs).1 hj
    have := inc_le hs (show m ≤ t.ticks.length - 1 by omega) (by omega)
    omega
  · rw [if_neg (fun h => h0 (of_decide_eq_true h))]
    obtain ⟨x, h1, h2, h3, h4⟩ := nextInit_gt hs hl (tick := tick) (by omega)
    rw [h1, Except_bind_ok]
    change ∃ n b, (.ok ((if wordMax t tick < x.index then wordMax t tick else x.index), decide ((if wordMax t tick < x.index then wordMax t tick else x.index) = x.index)) : Go (Int × Bool)) = _ ∧ _
    by_cases h5 : wordMax t tick < x.index
    · rw [if_pos h5, decide_eq_false (by omega)]
      refine ⟨_, _, rfl, (by intro h; cases h), (fun _ => rfl), ?_⟩
      intro j hj hjt
      have := h4 j hj hjt
      omega
    · rw [if_neg h5, decide_eq_true rfl]
      refine ⟨_, _, rfl, (fun _ => ⟨h2, h3, by omega⟩), (by intro h; cases h), ?_⟩
      intro j hj hjt
      exact ⟨h4 j hj hjt, fun _ => rfl⟩

theorem next_empty {t : TickData} (h : t.ticks = []) (tick : Int) (lte : Bool) :
    nextInitializedTickWithinOneWord t tick lte = .error .panic := by
  unfold nextInitializedTickWithinOneWord
  by_cases hsp : t.spacing = 0
  · unfold goDiv; rw [if_pos hsp]; rfl
  · rw [goDiv_ok hsp, Except_bind_ok]
    cases lte
    · rw [if_neg (by decide)]
      dsimp only
      rw [isAtOrAboveLargest_empty h]; rfl
    · rw [if_pos rfl]
      dsimp only
      rw [isBelowSmallest_empty h]; rfl

/-- Upwards the word end is always beyond the tick. -/
theorem lt_wordMax {t : TickData} (hsp : 0 < t.spacing) (tick : Int) : tick < wordMax t tick := by
  unfold wordMax
  have h1 : tick < (Int.tdiv tick t.spacing + 1) * t.spacing := by
    have := Int.lt_tdiv_add_one_mul_self tick hsp
    linarith
  have h2 : Int.tdiv tick t.spacing + 1 ≤ ((Int.tdiv tick t.spacing + 1) / 256 + 1) * 256 - 1 := by omega
  have h3 := Int.mul_le_mul_of_nonneg_right h2 (le_of_lt hsp)
  have h4 : (((Int.tdiv tick t.spacing + 1) / 256 + 1) * 256 - 1) * t.spacing = ((Int.tdiv tick t.spacing + 1) / 256 + 1) * 256 * t.spacing - t.spacing := by ring
  omega

/-- Downwards the word end is at or below a non-negative tick. -/
theorem wordMin_le {t : TickData} (hsp : 0 < t.spacing) {tick : Int} (h : 0 ≤ tick) : 0 ≤ wordMin t tick ∧ wordMin t tick ≤ tick := by
  unfold wordMin
  rw [Int.tdiv_eq_ediv_of_nonneg h]
  have h0 : 0 ≤ tick / t.spacing := Int.ediv_nonneg h (le_of_lt hsp)
  have h1 : tick / t.spacing * t.spacing ≤ tick := Int.ediv_mul_le tick (by omega)
  have h2 : tick / t.spacing / 256 * 256 ≤ tick / t.spacing := by omega
  have h3 := Int.mul_le_mul_of_nonneg_right h2 (le_of_lt hsp)
  have h4 : 0 ≤ tick / t.spacing / 256 * 256 := by omega
  refine ⟨Int.mul_nonneg h4 (le_of_lt hsp), by omega⟩

/-- Truncating division: the quotient is the ceiling for negative dividends. -/
theorem tdiv_neg_bounds {a s : Int} (hs : 0 < s) (ha : a < 0) : (Int.tdiv a s - 1) * s < a ∧ a ≤ Int.tdiv a s * s := by
  have h := Int.tdiv_mul_add_tmod a s
  have h1 : Int.tmod a s ≤ 0 := by
    have := Int.tmod_nonneg s (show 0 ≤ -a by omega)
    rw [Int.neg_tmod] at this
    omega
  have h2 : -s < Int.tmod a s := by
    have := Int.tmod_lt_of_pos (-a) hs
    rw [Int.neg_tmod] at this
    omega
  refine ⟨by rw [sub_mul]; omega, by omega⟩

/-- Exactly when the downward search starts from a word end above the tick. -/
theorem wordMin_gt_iff {t : TickData} (hsp : 0 < t.spacing) (tick : Int) :
    tick < wordMin t tick ↔ ∃ k : Int, k ≤ 0 ∧ 256 * k * t.spacing - t.spacing < tick ∧ tick < 256 * k * t.spacing := by
  constructor
  · intro h
    have hneg : tick < 0 := by
      by_contra hc
      have := (wordMin_le hsp (show 0 ≤ tick by omega)).2
      omega
    obtain ⟨h1, h2⟩ := tdiv_neg_bounds hsp hneg
    unfold wordMin at h
    have hmod : Int.tdiv tick t.spacing / 256 * 256 = Int.tdiv tick t.spacing := by
      by_contra hc
      have h3 : Int.tdiv tick t.spacing / 256 * 256 ≤ Int.tdiv tick t.spacing - 1 := by omega
      have h4 := Int.mul_le_mul_of_nonneg_right h3 (le_of_lt hsp)
      omega
    refine ⟨Int.tdiv tick t.spacing / 256, ?_, ?_, ?_⟩
    · have h5 : Int.tdiv tick t.spacing ≤ 0 := by
        by_contra hc
        have h6 : 1 * t.spacing ≤ Int.tdiv tick t.spacing * t.spacing := Int.mul_le_mul_of_nonneg_right (by omega) (le_of_lt hsp)
        have h7 : 0 ≤ (Int.tdiv tick t.spacing - 1) * t.spacing := Int.mul_nonneg (by omega) (le_of_lt hsp)
        omega
      omega
    · rw [show 256 * (Int.tdiv tick t.spacing / 256) = Int.tdiv tick t.spacing by omega]
      rw [sub_mul] at h1; omega
    · rw [show 256 * (Int.tdiv tick t.spacing / 256) = Int.tdiv tick t.spacing / 256 * 256 by omega]
      exact h
  · rintro ⟨k, hk, h1, h2⟩
    have h0 : 256 * k * t.spacing ≤ 0 := Int.mul_nonpos_of_nonpos_of_nonneg (by omega) (le_of_lt hsp)
    have hneg : tick < 0 := by omega
    obtain ⟨h3, h4⟩ := tdiv_neg_bounds hsp hneg
    have h5 : Int.tdiv tick t.spacing = 256 * k := by
      apply le_antisymm
      · have : (Int.tdiv tick t.spacing - 1) * t.spacing < 256 * k * t.spacing := by omega
        have := lt_of_mul_lt_mul_right this (le_of_lt hsp)
        omega
      · have : (256 * k - 1) * t.spacing < Int.tdiv tick t.spacing * t.spacing := by rw [sub_mul]; omega
        have := lt_of_mul_lt_mul_right this (le_of_lt hsp)
        omega
    unfold wordMin
    rw [h5, show 256 * k / 256 * 256 = 256 * k by omega]
    exact h2

end TickData
end Uni
