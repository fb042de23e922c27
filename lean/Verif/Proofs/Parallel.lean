import Verif.Model.Parallel
import Verif.Spec.Parallel
import Mathlib.Data.List.Nodup
import Mathlib.Order.Nat
import Mathlib.Data.Nat.Find
import Mathlib.Algebra.BigOperators.Group.List.Basic
/-! # Invariant, progress and termination of the goroutines -/
namespace Uni
namespace Parallel
open Spec

variable {σ β : Type} {N B : Nat} {start : Nat → σ} {step : σ → σ ⊕ β}

theorem returnsIn_unique : ∀ {n m : Nat} {s : σ} {v w : β}, ReturnsIn step n s v → ReturnsIn step m s w → n = m ∧ v = w := by
  intro n
  induction n with
  | zero => intro m s v w h; exact h.elim
  | succ n ih =>
    intro m s v w h1 h2
    cases m with
    | zero => exact h2.elim
    | succ m =>
      unfold ReturnsIn at h1 h2
      cases hs : step s with
      | inl s' =>
        rw [hs] at h1 h2
        obtain ⟨e1, e2⟩ := ih h1 h2
        exact ⟨by omega, e2⟩
      | inr u =>
        rw [hs] at h1 h2
        exact ⟨by omega, h1.2.symm.trans h2.2⟩

theorem returns_unique {s : σ} {v w : β} (h1 : Returns step s v) (h2 : Returns step s w) : v = w := by
  obtain ⟨n, h1⟩ := h1
  obtain ⟨m, h2⟩ := h2
  exact (returnsIn_unique h1 h2).2

theorem returns_inl {s s' : σ} (h : step s = .inl s') (v : β) : Returns step s v ↔ Returns step s' v := by
  constructor
  · rintro ⟨n, hn⟩
    cases n with
    | zero => exact hn.elim
    | succ n => unfold ReturnsIn at hn; rw [h] at hn; exact ⟨n, hn⟩
  · rintro ⟨n, hn⟩
    exact ⟨n + 1, by unfold ReturnsIn; rw [h]; exact hn⟩

theorem returns_inr {s : σ} {w : β} (h : step s = .inr w) : Returns step s w :=
  ⟨1, by unfold ReturnsIn; rw [h]; exact ⟨rfl, rfl⟩⟩

open Classical in
/-- Number of private steps a goroutine still needs. -/
noncomputable def left (step : σ → σ ⊕ β) (s : σ) : Nat :=
  if h : ∃ n, ∃ v, ReturnsIn step n s v then Nat.find h else 0

open Classical in
theorem left_eq {n : Nat} {s : σ} {v : β} (h : ReturnsIn step n s v) : left step s = n := by
  have hex : ∃ n, ∃ v, ReturnsIn step n s v := ⟨n, v, h⟩
  unfold left
  rw [dif_pos hex]
  obtain ⟨w, hw⟩ := Nat.find_spec hex
  exact (returnsIn_unique hw h).1

theorem left_inl {s s' : σ} (h : step s = .inl s') (hr : ∃ v, Returns step s v) : left step s = left step s' + 1 := by
  obtain ⟨v, n, hn⟩ := hr
  cases n with
  | zero => exact hn.elim
  | succ n =>
    have h1 := left_eq hn
    unfold ReturnsIn at hn
    rw [h] at hn
    rw [h1, left_eq hn]

/-- Is the goroutine still counted by the wait group? -/
def alive : Thread σ β → Nat
  | ⟨_, .finished⟩ => 0
  | _ => 1

/-- Steps a goroutine still needs. -/
noncomputable def todo (step : σ → σ ⊕ β) : Thread σ β → Nat
  | ⟨_, .running s⟩ => left step s + 2
  | ⟨_, .computed _⟩ => 2
  | ⟨_, .wrote⟩ => 1
  | ⟨_, .finished⟩ => 0

theorem sum_set {α : Type} (f : α → Nat) : ∀ (l : List α) (k : Nat) (t t' : α), l[k]? = some t →
    ((l.set k t').map f).sum + f t = (l.map f).sum + f t' := by
  intro l
  induction l with
  | nil => intro k t t' h; simp at h
  | cons a l ih =>
    intro k t t' h
    cases k with
    | zero =>
      obtain rfl : a = t := by simpa using h
      simp only [List.set_cons_zero, List.map_cons, List.sum_cons]
      omega
    | succ k =>
      have := ih k t t' (by simpa using h)
      simp only [List.set_cons_succ, List.map_cons, List.sum_cons]
      omega

theorem sum_zero {α : Type} (f : α → Nat) (l : List α) (h : (l.map f).sum = 0) : ∀ t ∈ l, f t = 0 := by
  induction l with
  | nil => intro t ht; simp at ht
  | cons a l ih =>
    rw [List.map_cons, List.sum_cons] at h
    intro t ht
    rcases List.mem_cons.1 ht with rfl | ht
    · omega
    · exact ih (by omega) t ht

/-- What is known about a goroutine with argument `i`. -/
def PhaseOk (start : Nat → σ) (step : σ → σ ⊕ β) (results : List (Option β)) (i : Nat) : Phase σ β → Prop
  | .running s => (∀ v, Returns step (start (i + 1)) v ↔ Returns step s v) ∧ results[i]? = some none
  | .computed v => Returns step (start (i + 1)) v ∧ results[i]? = some none
  | .wrote => ∃ v, Returns step (start (i + 1)) v ∧ results[i]? = some (some v)
  | .finished => ∃ v, Returns step (start (i + 1)) v ∧ results[i]? = some (some v)

/-- The number of goroutines that have not yet called `wg.Done()`. -/
def live (c : Cfg σ β) : Nat := (c.threads.map alive).sum

/-- What holds at each place of the main goroutine. -/
def PcOk (N B : Nat) (c : Cfg σ β) : Prop :=
  match c.pc with
  | .outer => live c = 0
  | .inner => live c ≤ c.j ∧ c.j ≤ B ∧ (c.j = 0 → c.mul < N)
  | .added => live c ≤ c.j ∧ c.j < B ∧ c.mul < N
  | .waiting => live c ≤ B
  | .saved => live c = 0 ∧ N ≤ c.mul

structure Inv (N B : Nat) (start : Nat → σ) (step : σ → σ ⊕ β) (c : Cfg σ β) : Prop where
  crash : c.crashed = false
  len : c.threads.length + 1 = c.mul
  mulN : c.mul ≤ N
  slots : c.results.length = N - 1
  cnt : c.count = live c + (if c.pc = .added then 1 else 0)
  pcOk : PcOk N B c
  arg : ∀ (k : Nat) (t : Thread σ β), c.threads[k]? = some t → t.i = k
  ok : ∀ (k : Nat) (t : Thread σ β), c.threads[k]? = some t → PhaseOk start step c.results k t.phase
  fresh : ∀ (k : Nat), c.threads.length ≤ k → k < N - 1 → c.results[k]? = some none
  nodup : c.writes.Nodup
  wr : ∀ (k : Nat), k ∈ c.writes ↔ ∃ v, c.results[k]? = some (some v)
  sv : c.saved = if c.pc = .saved then some c.results else none

theorem inv_init (hN : 1 ≤ N) : Inv N B start step (init N) where
  crash := rfl
  len := rfl
  mulN := hN
  slots := by simp [init]
  cnt := rfl
  pcOk := rfl
  arg := by intro k t h; simp [init] at h
  ok := by intro k t h; simp [init] at h
  fresh := by
    intro k _ h
    simp [init, h]
  nodup := List.nodup_nil
  wr := by
    intro k
    constructor
    · intro h; simp [init] at h
    · rintro ⟨v, hv⟩
      have := List.mem_of_getElem? hv
      simp [init] at this
  sv := rfl

theorem live_append (c : Cfg σ β) (i : Nat) (s : σ) :
    ((c.threads ++ [(⟨i, .running s⟩ : Thread σ β)]).map alive).sum = live c + 1 := by
  unfold live
  rw [List.map_append, List.sum_append]
  rfl

theorem inv_main {c c' : Cfg σ β} (hi : Inv N B start step c) (h : mainStep N B start c = some c') :
    Inv N B start step c' := by
  obtain ⟨pc, mul, j, count, threads, results, saved, writes, crashed⟩ := c
  have hp := hi.pcOk
  have hc := hi.cnt
  have hs := hi.sv
  have hlen := hi.len
  unfold PcOk at hp
  unfold mainStep at h
  cases pc with
  | outer =>
    dsimp only at h hp hc hs hlen
    split_ifs at h with hm
    · obtain rfl := Option.some.inj h
      exact { hi with
        cnt := hc
        pcOk := ⟨Nat.le_trans (le_of_eq hp) (Nat.zero_le _), Nat.zero_le _, fun _ => hm⟩
        sv := hs }
    · obtain rfl := Option.some.inj h
      exact { hi with
        cnt := hc
        pcOk := ⟨hp, Nat.not_lt.1 hm⟩
        sv := rfl }
  | inner =>
    dsimp only at h hp hc hs hlen
    split_ifs at h with hm
    · obtain rfl := Option.some.inj h
      exact { hi with
        cnt := by
          dsimp only
          rw [hc]
          simp [live]
        pcOk := ⟨hp.1, hm.1, hm.2⟩
        sv := hs }
    · obtain rfl := Option.some.inj h
      exact { hi with
        cnt := hc
        pcOk := Nat.le_trans hp.1 hp.2.1
        sv := hs }
  | added =>
    dsimp only at h hp hc hs hlen
    obtain rfl := Option.some.inj h
    refine { hi with
      len := ?_
      mulN := hp.2.2
      cnt := ?_
      pcOk := ⟨?_, hp.2.1, ?_⟩
      arg := ?_
      ok := ?_
      fresh := ?_
      sv := hs }
    · dsimp only; rw [List.length_append, List.length_singleton, hlen]
    · dsimp only
      rw [hc]
      simp [live, alive]
    · show ((threads ++ [_]).map alive).sum ≤ j + 1
      rw [live_append ⟨.added, mul, j, count, threads, results, saved, writes, crashed⟩]
      exact Nat.succ_le_succ hp.1
    · intro h0; dsimp only at h0; omega
    · intro k t ht
      dsimp only at ht
      rcases Nat.lt_or_ge k threads.length with hk | hk
      · rw [List.getElem?_append_left hk] at ht
        exact hi.arg k t ht
      · rw [List.getElem?_append_right hk] at ht
        have hk0 : k - threads.length = 0 := by
          by_contra hne
          rw [List.getElem?_eq_none (by simp; omega)] at ht
          cases ht
        rw [hk0] at ht
        obtain rfl := Option.some.inj ht
        dsimp only
        omega
    · intro k t ht
      dsimp only at ht ⊢
      rcases Nat.lt_or_ge k threads.length with hk | hk
      · rw [List.getElem?_append_left hk] at ht
        exact hi.ok k t ht
      · rw [List.getElem?_append_right hk] at ht
        have hk0 : k - threads.length = 0 := by
          by_contra hne
          rw [List.getElem?_eq_none (by simp; omega)] at ht
          cases ht
        rw [hk0] at ht
        obtain rfl := Option.some.inj ht
        have hkm : k + 1 = mul := by omega
        refine ⟨?_, ?_⟩
        · intro v; rw [hkm]
        · exact hi.fresh k hk (by omega)
    · intro k h1 h2
      dsimp only at h1 ⊢
      rw [List.length_append] at h1
      exact hi.fresh k (by show threads.length ≤ k; omega) h2
  | waiting =>
    dsimp only at h hp hc hs hlen
    split_ifs at h with hm
    · obtain rfl := Option.some.inj h
      exact { hi with
        cnt := hc
        pcOk := by
          show live _ = 0
          have : count = live (⟨.waiting, mul, j, count, threads, results, saved, writes, crashed⟩ : Cfg σ β) := by
            rw [hc]; rfl
          have h2 : live (⟨.waiting, mul, j, count, threads, results, saved, writes, crashed⟩ : Cfg σ β) = 0 := by omega
          exact h2
        sv := hs }
  | saved => cases h

/-- Changing goroutine `k` without lowering the number of live ones. -/
theorem live_set {c : Cfg σ β} {k : Nat} {t t' : Thread σ β} (hk : c.threads[k]? = some t) (ha : alive t' = alive t) :
    ((c.threads.set k t').map alive).sum = live c := by
  have := sum_set alive c.threads k t t' hk
  unfold live
  omega

theorem pcOk_le {c c' : Cfg σ β} (hpc : c'.pc = c.pc) (hj : c'.j = c.j) (hm : c'.mul = c.mul) (hl : live c' ≤ live c)
    (h : PcOk N B c) : PcOk N B c' := by
  unfold PcOk at h ⊢
  rw [hpc, hj, hm]
  cases hp : c.pc with
  | outer => rw [hp] at h; dsimp only at h ⊢; omega
  | inner => rw [hp] at h; dsimp only at h ⊢; exact ⟨Nat.le_trans hl h.1, h.2⟩
  | added => rw [hp] at h; dsimp only at h ⊢; exact ⟨Nat.le_trans hl h.1, h.2⟩
  | waiting => rw [hp] at h; dsimp only at h ⊢; exact Nat.le_trans hl h
  | saved => rw [hp] at h; dsimp only at h ⊢; exact ⟨by omega, h.2⟩

theorem get_set {α : Type} {l : List α} {k k' : Nat} {t t' x : α} (hk : l[k]? = some t)
    (h : (l.set k t')[k']? = some x) : (k' = k ∧ x = t') ∨ (k' ≠ k ∧ l[k']? = some x) := by
  by_cases he : k' = k
  · subst he
    left
    rw [List.getElem?_set_self (List.getElem?_eq_some_iff.1 hk).1] at h
    exact ⟨rfl, (Option.some.inj h).symm⟩
  · right
    rw [List.getElem?_set_ne (Ne.symm he)] at h
    exact ⟨he, h⟩

theorem alive_pos {t : Thread σ β} (h : t.phase ≠ .finished) : alive t = 1 := by
  obtain ⟨i, ph⟩ := t
  cases ph with
  | finished => exact absurd rfl h
  | _ => rfl

/-- A step that changes only the phase of goroutine `k` and keeps it alive. -/
theorem inv_local {c : Cfg σ β} (hi : Inv N B start step c) {k : Nat} {t : Thread σ β} (hk : c.threads[k]? = some t)
    (ph : Phase σ β) (h1 : t.phase ≠ .finished) (h2 : ph ≠ .finished) (hok : PhaseOk start step c.results k ph) :
    Inv N B start step { c with threads := c.threads.set k { t with phase := ph } } := by
  have hl : ((c.threads.set k { t with phase := ph }).map alive).sum = live c := by
    apply live_set hk
    rw [alive_pos h1, alive_pos h2]
  refine { hi with
    len := ?_
    cnt := ?_
    pcOk := pcOk_le (c := c) rfl rfl rfl (le_of_eq hl) hi.pcOk
    arg := ?_
    ok := ?_
    fresh := ?_ }
  · dsimp only; rw [List.length_set]; exact hi.len
  · rw [hi.cnt]; unfold live; dsimp only; rw [hl]; rfl
  · intro k' t' h
    rcases get_set hk h with ⟨rfl, rfl⟩ | ⟨_, h⟩
    · exact hi.arg k' t hk
    · exact hi.arg k' t' h
  · intro k' t' h
    rcases get_set hk h with ⟨rfl, rfl⟩ | ⟨_, h⟩
    · exact hok
    · exact hi.ok k' t' h
  · intro k' h
    dsimp only at h
    rw [List.length_set] at h
    exact hi.fresh k' h

theorem phaseOk_other {results : List (Option β)} {i k : Nat} {v : β} {ph : Phase σ β} (hne : k ≠ i)
    (h : PhaseOk start step results k ph) : PhaseOk start step (results.set i (some v)) k ph := by
  have e : (results.set i (some v))[k]? = results[k]? := List.getElem?_set_ne (Ne.symm hne)
  cases ph with
  | running s => exact ⟨h.1, e.trans h.2⟩
  | computed w => exact ⟨h.1, e.trans h.2⟩
  | wrote => obtain ⟨w, h1, h2⟩ := h; exact ⟨w, h1, e.trans h2⟩
  | finished => obtain ⟨w, h1, h2⟩ := h; exact ⟨w, h1, e.trans h2⟩

theorem not_saved_of_live {c : Cfg σ β} (hi : Inv N B start step c) {k : Nat} {t : Thread σ β} (hk : c.threads[k]? = some t)
    (h1 : t.phase ≠ .finished) : c.pc ≠ .saved ∧ c.pc ≠ .outer := by
  have hne : live c ≠ 0 := by
    intro h0
    have := sum_zero alive c.threads h0 t (List.mem_of_getElem? hk)
    rw [alive_pos h1] at this
    omega
  have hp := hi.pcOk
  unfold PcOk at hp
  constructor
  · intro h; rw [h] at hp; exact hne hp.1
  · intro h; rw [h] at hp; exact hne hp

theorem inv_thread {c c' : Cfg σ β} (hi : Inv N B start step c) {k : Nat} (h : threadStep step k c = some c') :
    Inv N B start step c' := by
  unfold threadStep at h
  cases hk : c.threads[k]? with
  | none => rw [hk] at h; cases h
  | some t =>
    rw [hk] at h
    dsimp only at h
    have hok := hi.ok k t hk
    have harg := hi.arg k t hk
    cases hph : t.phase with
    | running s =>
      rw [hph] at h hok
      dsimp only at h
      cases hs : step s with
      | inl s' =>
        rw [hs] at h
        obtain rfl := Option.some.inj h
        apply inv_local hi hk _ (by rw [hph]; intro h; cases h) (by intro h; cases h)
        exact ⟨fun v => (hok.1 v).trans (returns_inl hs v), hok.2⟩
      | inr v =>
        rw [hs] at h
        obtain rfl := Option.some.inj h
        apply inv_local hi hk _ (by rw [hph]; intro h; cases h) (by intro h; cases h)
        exact ⟨(hok.1 v).2 (returns_inr hs), hok.2⟩
    | computed v =>
      rw [hph] at h hok
      dsimp only at h
      have hlt : k < c.results.length := (List.getElem?_eq_some_iff.1 hok.2).1
      obtain ⟨i, ph⟩ := t
      dsimp only at harg hph h
      subst harg
      subst hph
      rw [if_pos hlt] at h
      obtain rfl := Option.some.inj h
      have hns := not_saved_of_live hi hk (by intro h; cases h)
      have hl : ((c.threads.set i ⟨i, .wrote⟩).map alive).sum = live c := by
        apply live_set hk
        rw [alive_pos (by intro h; cases h), alive_pos (by intro h; cases h)]
      have hself : (c.results.set i (some v))[i]? = some (some v) := List.getElem?_set_self hlt
      refine { hi with
        len := ?_
        slots := ?_
        cnt := ?_
        pcOk := pcOk_le (c := c) rfl rfl rfl (le_of_eq (hl)) hi.pcOk
        arg := ?_
        ok := ?_
        fresh := ?_
        nodup := ?_
        wr := ?_
        sv := ?_ }
      · dsimp only; rw [List.length_set]; exact hi.len
      · dsimp only; rw [List.length_set]; exact hi.slots
      · rw [hi.cnt]; unfold live; dsimp only; rw [hl]; rfl
      · intro i' t' h
        rcases get_set hk h with ⟨rfl, rfl⟩ | ⟨_, h⟩
        · rfl
        · exact hi.arg i' t' h
      · intro i' t' h
        dsimp only
        rcases get_set hk h with ⟨rfl, rfl⟩ | ⟨hne, h⟩
        · exact ⟨v, hok.1, hself⟩
        · exact phaseOk_other hne (hi.ok i' t' h)
      · intro i' h1 h2
        dsimp only at h1 ⊢
        rw [List.length_set] at h1
        have : i < c.threads.length := (List.getElem?_eq_some_iff.1 hk).1
        rw [List.getElem?_set_ne (by omega)]
        exact hi.fresh i' h1 h2
      · dsimp only
        rw [List.nodup_append]
        refine ⟨hi.nodup, by simp, ?_⟩
        intro a ha b hb hab
        obtain rfl : b = i := by simpa using hb
        obtain ⟨w, hw⟩ := (hi.wr a).1 ha
        rw [hab, hok.2] at hw
        cases hw
      · intro i'
        dsimp only
        rw [List.mem_append]
        by_cases he : i' = i
        · subst he
          constructor
          · intro _; exact ⟨v, hself⟩
          · intro _; right; simp
        · rw [List.getElem?_set_ne (Ne.symm he)]
          constructor
          · rintro (h | h)
            · exact (hi.wr i').1 h
            · simp at h; exact absurd h he
          · intro h; left; exact (hi.wr i').2 h
      · show c.saved = if c.pc = .saved then some _ else none
        have := hi.sv
        rw [if_neg hns.1] at this ⊢
        exact this
    | wrote =>
      rw [hph] at h hok
      dsimp only at h
      have hsum := sum_set alive c.threads k t { t with phase := .finished } hk
      have ha : alive t = 1 := alive_pos (by rw [hph]; intro h; cases h)
      have ha' : alive ({ t with phase := .finished } : Thread σ β) = 0 := rfl
      have hcnt := hi.cnt
      have hlive : live c = ((c.threads.set k { t with phase := .finished }).map alive).sum + 1 := by
        unfold live; omega
      rw [if_pos (by omega)] at h
      obtain rfl := Option.some.inj h
      refine { hi with
        len := ?_
        cnt := ?_
        pcOk := pcOk_le (c := c) rfl rfl rfl (by unfold live at *; dsimp only; omega) hi.pcOk
        arg := ?_
        ok := ?_
        fresh := ?_ }
      · dsimp only; rw [List.length_set]; exact hi.len
      · show c.count - 1 = ((c.threads.set k { t with phase := .finished }).map alive).sum + (if c.pc = .added then 1 else 0)
        omega
      · intro k' t' h
        rcases get_set hk h with ⟨rfl, rfl⟩ | ⟨_, h⟩
        · exact harg
        · exact hi.arg k' t' h
      · intro k' t' h
        rcases get_set hk h with ⟨rfl, rfl⟩ | ⟨_, h⟩
        · exact hok
        · exact hi.ok k' t' h
      · intro k' h
        dsimp only at h
        rw [List.length_set] at h
        exact hi.fresh k' h
    | finished => rw [hph] at h; cases h

theorem inv_runs (hN : 1 ≤ N) {n : Nat} {c : Cfg σ β} (h : Runs N B start step n c) : Inv N B start step c := by
  induction h with
  | init => exact inv_init hN
  | step _ hs ih =>
    cases hs with
    | main _ hm => exact inv_main ih hm
    | thread _ ht => exact inv_thread ih ht

theorem live_thread {c : Cfg σ β} (h : live c ≠ 0) : ∃ (k : Nat) (t : Thread σ β), c.threads[k]? = some t ∧ t.phase ≠ .finished := by
  by_contra hc
  push Not at hc
  apply h
  unfold live
  have : ∀ t ∈ c.threads, alive t = 0 := by
    intro t ht
    obtain ⟨k, hk⟩ := List.getElem?_of_mem ht
    obtain ⟨i, ph⟩ := t
    have : ph = .finished := hc k _ hk
    rw [this]; rfl
  generalize c.threads = l at this
  induction l with
  | nil => rfl
  | cons a l ih =>
    rw [List.map_cons, List.sum_cons, this a List.mem_cons_self, ih (fun t ht => this t (List.mem_cons_of_mem _ ht))]

/-- A live goroutine can always take a step. -/
theorem thread_moves {c : Cfg σ β} {k : Nat} {t : Thread σ β} (hk : c.threads[k]? = some t) (h : t.phase ≠ .finished) :
    ∃ c', threadStep step k c = some c' := by
  unfold threadStep
  rw [hk]
  dsimp only
  cases hph : t.phase with
  | running s =>
    dsimp only
    cases step s <;> exact ⟨_, rfl⟩
  | computed v =>
    dsimp only
    split_ifs <;> exact ⟨_, rfl⟩
  | wrote =>
    dsimp only
    split_ifs <;> exact ⟨_, rfl⟩
  | finished => exact absurd hph h

theorem progress {c : Cfg σ β} (hi : Inv N B start step c) (h : c.pc ≠ .saved) : ∃ c', Step N B start step c c' := by
  have hp := hi.pcOk
  have hc := hi.cnt
  unfold PcOk at hp
  cases hpc : c.pc with
  | outer =>
    by_cases hm : c.mul < N
    · exact ⟨_, .main hi.crash (by unfold mainStep; rw [hpc]; dsimp only; rw [if_pos hm])⟩
    · exact ⟨_, .main hi.crash (by unfold mainStep; rw [hpc]; dsimp only; rw [if_neg hm])⟩
  | inner =>
    by_cases hm : c.j < B ∧ c.mul < N
    · exact ⟨_, .main hi.crash (by unfold mainStep; rw [hpc]; dsimp only; rw [if_pos hm])⟩
    · exact ⟨_, .main hi.crash (by unfold mainStep; rw [hpc]; dsimp only; rw [if_neg hm])⟩
  | added => exact ⟨_, .main hi.crash (by unfold mainStep; rw [hpc])⟩
  | waiting =>
    by_cases hz : c.count = 0
    · exact ⟨_, .main hi.crash (by unfold mainStep; rw [hpc]; dsimp only; rw [if_pos hz])⟩
    · rw [hpc, if_neg (by intro h; cases h)] at hc
      obtain ⟨k, t, hk, ht⟩ := live_thread (c := c) (by omega)
      obtain ⟨c', hc'⟩ := thread_moves (step := step) hk ht
      exact ⟨c', .thread hi.crash hc'⟩
  | saved => exact absurd hpc h

theorem stuck {c c' : Cfg σ β} (hi : Inv N B start step c) (h : c.pc = .saved) : ¬ Step N B start step c c' := by
  have hp := hi.pcOk
  unfold PcOk at hp
  rw [h] at hp
  intro hs
  cases hs with
  | main _ hm => unfold mainStep at hm; rw [h] at hm; cases hm
  | thread _ ht =>
    rename_i k _
    unfold threadStep at ht
    cases hk : c.threads[k]? with
    | none => rw [hk] at ht; cases ht
    | some t =>
      have h0 := sum_zero alive c.threads hp.1 t (List.mem_of_getElem? hk)
      rw [hk] at ht
      dsimp only at ht
      cases hph : t.phase with
      | finished => rw [hph] at ht; cases ht
      | _ => rw [alive_pos (by rw [hph]; intro h; cases h)] at h0; cases h0

/-! ## Termination -/

/-- Steps of goroutines that have not been started. -/
noncomputable def future (step : σ → σ ⊕ β) (start : Nat → σ) (N mul : Nat) : Nat :=
  ((List.range (N - mul)).map fun d => left step (start (N - 1 - d)) + 2).sum

theorem future_succ (step : σ → σ ⊕ β) (start : Nat → σ) {N mul : Nat} (h : mul < N) :
    future step start N mul = future step start N (mul + 1) + (left step (start mul) + 2) := by
  unfold future
  have : N - mul = (N - (mul + 1)) + 1 := by omega
  rw [this, List.range_succ, List.map_append, List.sum_append]
  have h2 : N - 1 - (N - (mul + 1)) = mul := by omega
  simp [h2]

/-- Steps of the main goroutine. -/
def mainTodo (N : Nat) (c : Cfg σ β) : Nat :=
  match c.pc with
  | .outer => 5 * (N - c.mul) + 1
  | .inner => if c.j = 0 then 5 * (N - c.mul) else 5 * (N - c.mul) + 3
  | .added => 5 * (N - c.mul) - 1
  | .waiting => 5 * (N - c.mul) + 2
  | .saved => 0

noncomputable def measure (step : σ → σ ⊕ β) (start : Nat → σ) (N : Nat) (c : Cfg σ β) : Nat :=
  mainTodo N c + (c.threads.map (todo step)).sum + future step start N c.mul

theorem measure_main (hB : 1 ≤ B) {c c' : Cfg σ β} (hi : Inv N B start step c) (h : mainStep N B start c = some c') :
    measure step start N c' < measure step start N c := by
  obtain ⟨pc, mul, j, count, threads, results, saved, writes, crashed⟩ := c
  have hp := hi.pcOk
  unfold PcOk at hp
  unfold mainStep at h
  cases pc with
  | outer =>
    dsimp only at h hp
    split_ifs at h with hm
    · obtain rfl := Option.some.inj h
      simp only [measure, mainTodo]
      simp
    · obtain rfl := Option.some.inj h
      simp only [measure, mainTodo]
      omega
  | inner =>
    dsimp only at h hp
    split_ifs at h with hm
    · obtain rfl := Option.some.inj h
      simp only [measure, mainTodo]
      split_ifs <;> omega
    · obtain rfl := Option.some.inj h
      simp only [measure, mainTodo]
      have hj : j ≠ 0 := by
        intro h0
        exact hm ⟨by omega, hp.2.2 h0⟩
      rw [if_neg hj]
      omega
  | added =>
    dsimp only at h hp
    obtain rfl := Option.some.inj h
    simp only [measure, mainTodo]
    rw [if_neg (by omega), future_succ step start hp.2.2, List.map_append, List.sum_append]
    have : ([(⟨mul - 1, .running (start mul)⟩ : Thread σ β)].map (todo step)).sum = left step (start mul) + 2 := by
      simp [todo]
    rw [this]
    omega
  | waiting =>
    dsimp only at h hp
    split_ifs at h with hm
    · obtain rfl := Option.some.inj h
      simp only [measure, mainTodo]
      omega
  | saved => cases h

theorem measure_set {c : Cfg σ β} {k : Nat} {t t' : Thread σ β} (hk : c.threads[k]? = some t)
    (h : todo step t' < todo step t) :
    ((c.threads.set k t').map (todo step)).sum < (c.threads.map (todo step)).sum := by
  have := sum_set (todo step) c.threads k t t' hk
  omega

theorem measure_thread (hret : ∀ m, 1 ≤ m → m < N → ∃ v, Returns step (start m) v) {c c' : Cfg σ β}
    (hi : Inv N B start step c) {k : Nat} (h : threadStep step k c = some c') :
    measure step start N c' < measure step start N c := by
  unfold threadStep at h
  cases hk : c.threads[k]? with
  | none => rw [hk] at h; cases h
  | some t =>
    rw [hk] at h
    dsimp only at h
    have hok := hi.ok k t hk
    have harg := hi.arg k t hk
    have hkl : k < c.threads.length := (List.getElem?_eq_some_iff.1 hk).1
    have hlen := hi.len
    have hmN := hi.mulN
    obtain ⟨i, ph⟩ := t
    dsimp only at harg h hok
    cases ph with
    | running s =>
      obtain ⟨v, hv⟩ := hret (k + 1) (by omega) (by omega)
      have hs' := (hok.1 v).1 hv
      dsimp only at h
      cases hs : step s with
      | inl s' =>
        rw [hs] at h
        obtain rfl := Option.some.inj h
        have := measure_set (step := step) (t' := ⟨i, .running s'⟩) hk (by
          unfold todo; dsimp only; rw [left_inl hs ⟨v, hs'⟩]; omega)
        simp only [measure, mainTodo] at this ⊢
        omega
      | inr w =>
        rw [hs] at h
        obtain rfl := Option.some.inj h
        have := measure_set (step := step) (t' := ⟨i, .computed w⟩) hk (by
          unfold todo; dsimp only
          have : left step s = 1 := left_eq (v := w) (by unfold ReturnsIn; rw [hs]; exact ⟨rfl, rfl⟩)
          omega)
        simp only [measure, mainTodo] at this ⊢
        omega
    | computed v =>
      have hlt : k < c.results.length := (List.getElem?_eq_some_iff.1 hok.2).1
      dsimp only at h
      rw [if_pos (by rw [harg]; exact hlt)] at h
      obtain rfl := Option.some.inj h
      have := measure_set (step := step) (t' := ⟨i, .wrote⟩) hk (by unfold todo; dsimp only; omega)
      simp only [measure, mainTodo] at this ⊢
      omega
    | wrote =>
      have hsum := sum_set alive c.threads k _ ⟨i, .finished⟩ hk
      have hc := hi.cnt
      have hpos : 0 < c.count := by
        have : alive (⟨i, .wrote⟩ : Thread σ β) = 1 := rfl
        have h0 : alive (⟨i, .finished⟩ : Thread σ β) = 0 := rfl
        unfold live at hc
        omega
      dsimp only at h
      rw [if_pos hpos] at h
      obtain rfl := Option.some.inj h
      have := measure_set (step := step) (t' := ⟨i, .finished⟩) hk (by unfold todo; dsimp only; omega)
      simp only [measure, mainTodo] at this ⊢
      omega
    | finished => cases h

theorem runs_bound (hN : 1 ≤ N) (hB : 1 ≤ B) (hret : ∀ m, 1 ≤ m → m < N → ∃ v, Returns step (start m) v) {n : Nat}
    {c : Cfg σ β} (h : Runs N B start step n c) :
    n + measure step start N c ≤ measure step start N (init N) := by
  induction h with
  | init => omega
  | step hr hs ih =>
    have hi := inv_runs hN hr
    cases hs with
    | main _ hm => have := measure_main hB hi hm; omega
    | thread _ ht => have := measure_thread hret hi ht; omega

end Parallel
end Uni
