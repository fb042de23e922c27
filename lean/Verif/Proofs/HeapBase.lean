import Verif.Model.Heap
import Mathlib.Data.List.Perm.Basic
import Mathlib.Data.List.Perm.Subperm
import Mathlib.Data.List.Nodup
/-! # Heaps: framing, footprints and refinement of Go computations -/
namespace Uni
open U256
open scoped List

/-! ### Refinement -/

/-- Two computations fail in the same way, or both return and the results are related. -/
def Refines {α β : Type} (x : Go α) (y : Go β) (R : α → β → Prop) : Prop :=
  match x, y with
  | .ok a, .ok b => R a b
  | .error e, .error f => e = f
  | _, _ => False

theorem Refines.bind {α β γ δ : Type} {x : Go α} {y : Go β} {R : α → β → Prop} {f : α → Go γ} {g : β → Go δ}
    {S : γ → δ → Prop} (h : Refines x y R) (hf : ∀ a b, R a b → Refines (f a) (g b) S) : Refines (x >>= f) (y >>= g) S := by
  cases x with
  | error e =>
    cases y with
    | error e' => exact h
    | ok b => exact h.elim
  | ok a =>
    cases y with
    | error e' => exact h.elim
    | ok b => exact hf a b h

theorem Refines.ok {α β : Type} {a : α} {b : β} {R : α → β → Prop} (h : R a b) : Refines (.ok a) (.ok b) R := h

theorem Refines.pure {α β : Type} {a : α} {b : β} {R : α → β → Prop} (h : R a b) :
    Refines (Pure.pure a : Go α) (Pure.pure b : Go β) R := h

theorem Refines.refl {α : Type} (x : Go α) : Refines x x Eq := by
  cases x <;> rfl

theorem Refines.of_eq {α : Type} {x y : Go α} (h : x = y) : Refines x y Eq := h ▸ Refines.refl x

theorem Refines.mono {α β : Type} {x : Go α} {y : Go β} {R S : α → β → Prop} (h : Refines x y R)
    (hs : ∀ a b, R a b → S a b) : Refines x y S := by
  cases x with
  | error e =>
    cases y with
    | error e' => exact h
    | ok b => exact h.elim
  | ok a =>
    cases y with
    | error e' => exact h.elim
    | ok b => exact hs a b h

theorem Refines.ite {α β : Type} {c : Prop} [Decidable c] {x x' : Go α} {y y' : Go β} {R : α → β → Prop}
    (h1 : c → Refines x y R) (h2 : ¬ c → Refines x' y' R) :
    Refines (if c then x else x') (if c then y else y') R := by
  by_cases h : c
  · rw [if_pos h, if_pos h]; exact h1 h
  · rw [if_neg h, if_neg h]; exact h2 h

theorem Refines.inv_ok {α β : Type} {x : Go α} {y : Go β} {R : α → β → Prop} (h : Refines x y R) {a : α}
    (hx : x = .ok a) : ∃ b, y = .ok b ∧ R a b := by
  subst hx
  cases y with
  | error e => exact h.elim
  | ok b => exact ⟨b, rfl, h⟩

theorem Refines.inv_ok' {α β : Type} {x : Go α} {y : Go β} {R : α → β → Prop} (h : Refines x y R) {b : β}
    (hy : y = .ok b) : ∃ a, x = .ok a ∧ R a b := by
  subst hy
  cases x with
  | error e => exact h.elim
  | ok a => exact ⟨a, rfl, h⟩

theorem Refines.inv_error {α β : Type} {x : Go α} {y : Go β} {R : α → β → Prop} (h : Refines x y R) (e : Err) :
    x = .error e ↔ y = .error e := by
  cases x with
  | error e' =>
    cases y with
    | error e'' =>
      have : e' = e'' := h
      rw [this]
      constructor <;> intro h' <;> (rw [Except.error.inj h'])
    | ok b => exact h.elim
  | ok a =>
    cases y with
    | error e' => exact h.elim
    | ok b => constructor <;> intro h' <;> cases h'

/-! ### Footprints -/

/-- From `h` to `h'` only cells of `W` and new cells have changed; the cells `W'` are old cells of `W` and new ones, each
used once. -/
structure Evolve (h h' : Heap) (W W' : List Nat) : Prop where
  le : h.next ≤ h'.next
  frame : ∀ r, r < h.next → r ∉ W → h'.cell r = h.cell r
  foot : ∃ F : List Nat, F.Nodup ∧ (∀ r ∈ F, h.next ≤ r ∧ r < h'.next) ∧ W' <+~ F ++ W

/-- The cells `W` are allocated and each is used once. -/
structure Safe (h : Heap) (W : List Nat) : Prop where
  nodup : W.Nodup
  lt : ∀ r ∈ W, r < h.next

theorem Evolve.refl (h : Heap) (W : List Nat) : Evolve h h W W :=
  ⟨Nat.le_refl _, fun _ _ _ => rfl, [], List.nodup_nil, by simp, List.Subperm.refl _⟩

theorem Evolve.mem {h h' : Heap} {W W' : List Nat} (e : Evolve h h' W W') {r : Nat} (hr : r ∈ W') :
    r ∈ W ∨ (h.next ≤ r ∧ r < h'.next) := by
  obtain ⟨F, _, h2, h3⟩ := e.foot
  rcases List.mem_append.1 (h3.subset hr) with h | h
  · exact Or.inr (h2 r h)
  · exact Or.inl h

theorem Evolve.trans {h h' h'' : Heap} {W W' W'' : List Nat} (e : Evolve h h' W W') (f : Evolve h' h'' W' W'') :
    Evolve h h'' W W'' := by
  refine ⟨Nat.le_trans e.le f.le, ?_, ?_⟩
  · intro r hr hW
    rw [f.frame r (Nat.lt_of_lt_of_le hr e.le) ?_, e.frame r hr hW]
    intro hr'
    rcases e.mem hr' with h | h
    · exact hW h
    · omega
  · obtain ⟨F, h1, h2, h3⟩ := e.foot
    obtain ⟨G, k1, k2, k3⟩ := f.foot
    refine ⟨G ++ F, ?_, ?_, ?_⟩
    · refine List.nodup_append'.2 ⟨k1, h1, ?_⟩
      intro r hg hf
      have := h2 r hf
      have := k2 r hg
      omega
    · intro r hr
      rcases List.mem_append.1 hr with h | h
      · have := k2 r h; exact ⟨Nat.le_trans e.le this.1, this.2⟩
      · have := h2 r h; exact ⟨this.1, Nat.lt_of_lt_of_le this.2 f.le⟩
    · refine k3.trans ?_
      rw [List.append_assoc]
      exact (List.subperm_append_left G).2 h3

theorem Evolve.safe {h h' : Heap} {W W' : List Nat} (e : Evolve h h' W W') (s : Safe h W) : Safe h' W' := by
  obtain ⟨F, h1, h2, h3⟩ := e.foot
  constructor
  · have : (F ++ W).Nodup := by
      refine List.nodup_append'.2 ⟨h1, s.nodup, ?_⟩
      intro r hf hw
      have := h2 r hf
      have := s.lt r hw
      omega
    obtain ⟨l, hl, hs⟩ := h3
    exact hl.nodup_iff.1 (hs.nodup this)
  · intro r hr
    rcases e.mem hr with h | h
    · exact Nat.lt_of_lt_of_le (s.lt r h) e.le
    · exact h.2

/-- A change that keeps to `W` also keeps to a larger set of cells. -/
theorem Evolve.ctx {h h' : Heap} {W W' : List Nat} (e : Evolve h h' W W') (A B : List Nat) :
    Evolve h h' (A ++ W ++ B) (A ++ W' ++ B) := by
  refine ⟨e.le, ?_, ?_⟩
  · intro r hr hW
    apply e.frame r hr
    intro hw
    exact hW (by simp [hw])
  · obtain ⟨F, h1, h2, h3⟩ := e.foot
    refine ⟨F, h1, h2, ?_⟩
    have e1 : A ++ W' ++ B <+~ A ++ (F ++ W) ++ B := by
      rw [List.append_assoc, List.append_assoc]
      exact (List.subperm_append_left A).2 ((List.subperm_append_right B).2 h3)
    refine e1.trans (List.Perm.subperm ?_)
    have e2 : A ++ (F ++ W) ~ F ++ (A ++ W) := by
      rw [← List.append_assoc, ← List.append_assoc]
      exact List.Perm.append_right _ List.perm_append_comm
    have e3 := e2.append_right B
    rwa [List.append_assoc F] at e3

theorem Evolve.perm {h h' : Heap} {W W' V V' : List Nat} (e : Evolve h h' W W') (p : V.Perm W) (p' : V' <+~ W') :
    Evolve h h' V V' := by
  refine ⟨e.le, fun r hr hW => e.frame r hr fun h => hW (p.mem_iff.2 h), ?_⟩
  obtain ⟨F, h1, h2, h3⟩ := e.foot
  exact ⟨F, h1, h2, p'.trans (h3.trans (List.Perm.subperm (p.symm.append_left F)))⟩

theorem Evolve.write (h : Heap) (r : Nat) (v : U256) : Evolve h (h.write r v) [r] [r] := by
  refine ⟨Nat.le_refl _, ?_, [], List.nodup_nil, by simp, List.Subperm.refl _⟩
  intro k _ hk
  have : k ≠ r := by simpa using hk
  show (if k = r then v else h.cell k) = _
  rw [if_neg this]

theorem Evolve.alloc (h : Heap) (v : U256) : Evolve h (h.alloc v).2 [] [(h.alloc v).1] := by
  refine ⟨Nat.le_succ _, ?_, [h.next], by simp, ?_, ?_⟩
  · intro k hk _
    show (if k = h.next then v else h.cell k) = _
    rw [if_neg (by omega)]
  · intro r hr
    have : r = h.next := by simpa using hr
    subst this
    exact ⟨Nat.le_refl _, Nat.lt_succ_self _⟩
  · exact List.Subperm.refl _

theorem write_same (h : Heap) (r : Nat) (v : U256) : (h.write r v).cell r = v := if_pos rfl

theorem write_other (h : Heap) {r k : Nat} (v : U256) (hk : k ≠ r) : (h.write r v).cell k = h.cell k := if_neg hk

theorem write_next (h : Heap) (r : Nat) (v : U256) : (h.write r v).next = h.next := rfl

theorem alloc_same (h : Heap) (v : U256) : (h.alloc v).2.cell (h.alloc v).1 = v := if_pos rfl

theorem alloc_other (h : Heap) {k : Nat} (v : U256) (hk : k < h.next) : (h.alloc v).2.cell k = h.cell k :=
  if_neg (Nat.ne_of_lt hk)

theorem alloc_ref (h : Heap) (v : U256) : (h.alloc v).1 = h.next := rfl

theorem alloc_next (h : Heap) (v : U256) : (h.alloc v).2.next = h.next + 1 := rfl

/-! ### Footprints of the structs -/

/-- The references of a tick. -/
def HTick.refs (t : HTick) : List Nat := [t.net, t.gross, t.out0, t.out1]

/-- The references of a tick store. -/
def HTickData.refs (t : HTickData) : List Nat := t.ticks.flatMap HTick.refs

/-- The references of a position. -/
def HInfo.refs (i : HInfo) : List Nat := [i.liquidity, i.inside0, i.inside1, i.owed0, i.owed1]

/-- The references of the positions. -/
def posRefs (l : List (String × HInfo)) : List Nat := l.flatMap fun e => e.2.refs

/-- The cells a pool may write to. -/
def HPool.writes (p : HPool) : List Nat := [p.liquidity, p.growth0, p.growth1] ++ p.ticks.refs ++ posRefs p.positions

/-- A pool is in order: the cells it may write to are allocated, each is used once, and the price is not one of them. -/
structure Sep (h : Heap) (p : HPool) : Prop where
  safe : Safe h p.writes
  price : p.price ∉ p.writes
  priceLt : p.price < h.next

theorem HTick.view_congr {h h' : Heap} {t : HTick} (e : ∀ r ∈ t.refs, h'.cell r = h.cell r) : t.view h' = t.view h := by
  unfold HTick.view
  rw [e _ (by simp [HTick.refs]), e _ (by simp [HTick.refs]), e _ (by simp [HTick.refs]), e _ (by simp [HTick.refs])]

theorem HTickData.view_congr {h h' : Heap} {t : HTickData} (e : ∀ r ∈ t.refs, h'.cell r = h.cell r) :
    t.view h' = t.view h := by
  unfold HTickData.view
  congr 1
  apply List.map_congr_left
  intro x hx
  exact HTick.view_congr fun r hr => e r (List.mem_flatMap.2 ⟨x, hx, hr⟩)

theorem HInfo.view_congr {h h' : Heap} {i : HInfo} (e : ∀ r ∈ i.refs, h'.cell r = h.cell r) : i.view h' = i.view h := by
  unfold HInfo.view
  rw [e _ (by simp [HInfo.refs]), e _ (by simp [HInfo.refs]), e _ (by simp [HInfo.refs]), e _ (by simp [HInfo.refs]),
    e _ (by simp [HInfo.refs])]

theorem hlookup_refs {l : List (String × HInfo)} {k : String} {i : HInfo} (h : hlookup l k = some i) :
    ∀ r ∈ i.refs, r ∈ posRefs l := by
  induction l with
  | nil => cases h
  | cons e l ih =>
    intro r hr
    unfold hlookup at h
    by_cases hk : e.1 = k
    · rw [if_pos hk] at h
      cases h
      exact List.mem_append_left _ hr
    · rw [if_neg hk] at h
      exact List.mem_append_right _ (ih h r hr)

theorem positions_congr {h h' : Heap} {l : List (String × HInfo)} (e : ∀ r ∈ posRefs l, h'.cell r = h.cell r) :
    (fun k => (hlookup l k).map (HInfo.view h')) = fun k => (hlookup l k).map (HInfo.view h) := by
  funext k
  cases hk : hlookup l k with
  | none => rfl
  | some i =>
    show some (i.view h') = some (i.view h)
    rw [HInfo.view_congr fun r hr => e r (hlookup_refs hk r hr)]

/-- A pool whose cells are the same on two heaps shows the same. -/
theorem HPool.view_congr {h h' : Heap} {p : HPool} (e : ∀ r ∈ p.price :: p.writes, h'.cell r = h.cell r) :
    p.view h' = p.view h := by
  unfold HPool.view
  rw [e p.price (by simp), e p.liquidity (by simp [HPool.writes]), e p.growth0 (by simp [HPool.writes]),
    e p.growth1 (by simp [HPool.writes]),
    HTickData.view_congr fun r hr => e r (by simp [HPool.writes, hr]),
    positions_congr fun r hr => e r (by simp [HPool.writes, hr])]

theorem hlookup_hset (l : List (String × HInfo)) (k : String) (v : HInfo) (k' : String) :
    hlookup (hset l k v) k' = if k' = k then some v else hlookup l k' := by
  induction l with
  | nil =>
    show (if k = k' then some v else none) = _
    by_cases hk : k' = k
    · rw [if_pos hk, if_pos hk.symm]
    · rw [if_neg hk, if_neg (Ne.symm hk)]; rfl
  | cons e l ih =>
    unfold hset
    by_cases he : e.1 = k
    · rw [if_pos he]
      show (if k = k' then some v else hlookup l k') = _
      by_cases hk : k' = k
      · rw [if_pos hk, if_pos hk.symm]
      · rw [if_neg hk, if_neg (Ne.symm hk)]
        show _ = if e.1 = k' then some e.2 else hlookup l k'
        rw [he, if_neg (Ne.symm hk)]
    · rw [if_neg he]
      show (if e.1 = k' then some e.2 else hlookup (hset l k v) k') = _
      rw [ih]
      show _ = if k' = k then some v else if e.1 = k' then some e.2 else hlookup l k'
      by_cases hk : k' = k
      · rw [if_pos hk, if_pos hk, if_neg (by rw [hk]; exact he)]
      · rw [if_neg hk, if_neg hk]

/-- The cells of the position stored under a key. -/
def refsAt (l : List (String × HInfo)) (k : String) : List Nat :=
  match hlookup l k with
  | none => []
  | some i => i.refs

theorem posRefs_hset (l : List (String × HInfo)) (k : String) (v : HInfo) :
    ∃ rest, (posRefs l).Perm (refsAt l k ++ rest) ∧ (posRefs (hset l k v)).Perm (v.refs ++ rest) := by
  induction l with
  | nil =>
    refine ⟨[], ?_, ?_⟩
    · exact List.Perm.refl _
    · show (v.refs ++ []).Perm (v.refs ++ [])
      exact List.Perm.refl _
  | cons e l ih =>
    by_cases he : e.1 = k
    · refine ⟨posRefs l, ?_, ?_⟩
      · unfold refsAt hlookup
        rw [if_pos he]
        exact List.Perm.refl _
      · unfold hset
        rw [if_pos he]
        exact List.Perm.refl _
    · obtain ⟨rest, h1, h2⟩ := ih
      refine ⟨e.2.refs ++ rest, ?_, ?_⟩
      · have e1 : refsAt (e :: l) k = refsAt l k := by
          unfold refsAt
          rw [show hlookup (e :: l) k = hlookup l k from if_neg he]
        rw [e1]
        show (e.2.refs ++ posRefs l).Perm _
        refine (h1.append_left _).trans ?_
        rw [← List.append_assoc, ← List.append_assoc]
        exact List.Perm.append_right _ List.perm_append_comm
      · rw [show hset (e :: l) k v = e :: hset l k v from if_neg he]
        show (e.2.refs ++ posRefs (hset l k v)).Perm _
        refine (h2.append_left _).trans ?_
        rw [← List.append_assoc, ← List.append_assoc]
        exact List.Perm.append_right _ List.perm_append_comm

end Uni
