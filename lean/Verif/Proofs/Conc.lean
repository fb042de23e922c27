import Verif.Spec.PtrMain
import Verif.Proofs.Fits
import Verif.Proofs.HeapBase
import Verif.Props.Parallel
/-! # Goroutines on memory: rights, invariant, simulation by the machine of `Model/Parallel.lean` -/
namespace Uni
namespace Conc
open Spec InPlace

/-! ### A program does not depend on what it may not read -/

/-- The heaps agree on what the rights allow to read. -/
structure Agree (c : Rights) (h h' : Heap) : Prop where
  cell : ∀ x, c.canRead x → h'.cell x = h.cell x
  next : h'.next = h.next

theorem Agree.refl (c : Rights) (h : Heap) : Agree c h h := ⟨fun _ _ => rfl, rfl⟩

/-- The number of steps of a program run alone. -/
def steps {α : Type} (m : HM α) (h : Heap) : Nat :=
  match m with
  | .ret _ => 1
  | .fail _ => 1
  | .rd x i k => steps (k ((h.cell x).word i)) h + 1
  | .wr z i w k => steps k (h.write z ((h.cell z).setWord i w)) + 1
  | .new v k => steps (k (h.alloc v).1) (h.alloc v).2 + 1

/-- What the program returns, without the heap. -/
def outcome {α : Type} (m : HM α) (h : Heap) : Go α := (m h).map Prod.fst

theorem canRead_write {c : Rights} {x : Nat} (h : c.canWrite x) : c.canRead x := .inr h

theorem Agree.write {c : Rights} {h h' : Heap} (a : Agree c h h') (z : Nat) (v : U256) : Agree c (h.write z v) (h'.write z v) := by
  refine ⟨fun x hx => ?_, a.next⟩
  show (if x = z then v else h'.cell x) = (if x = z then v else h.cell x)
  rw [a.cell x hx]

theorem Agree.alloc {c : Rights} {h h' : Heap} (a : Agree c h h') (v : U256) :
    (h'.alloc v).1 = (h.alloc v).1 ∧ Agree c (h.alloc v).2 (h'.alloc v).2 := by
  refine ⟨a.next, fun x hx => ?_, congrArg (· + 1) a.next⟩
  show (if x = h'.next then v else h'.cell x) = (if x = h.next then v else h.cell x)
  rw [a.cell x hx, a.next]

theorem agree {α : Type} {c : Rights} (m : HM α) : ∀ {h h' : Heap}, m.Keeps c h → Agree c h h' →
    m.Keeps c h' ∧ steps m h' = steps m h ∧ Refines (m h) (m h') (fun a b => a.1 = b.1 ∧ Agree c a.2 b.2) := by
  induction m with
  | ret a => intro h h' _ ag; exact ⟨trivial, rfl, rfl, ag⟩
  | fail e => intro h h' _ _; exact ⟨trivial, rfl, rfl⟩
  | rd x i k ih =>
    intro h h' hk ag
    obtain ⟨k1, k2, k3⟩ := ih _ hk.2 ag
    have e := ag.cell x hk.1
    refine ⟨⟨hk.1, ?_⟩, ?_, ?_⟩
    · rw [e]; exact k1
    · show steps (k ((h'.cell x).word i)) h' + 1 = _
      rw [e, k2]; rfl
    · show Refines ((k ((h.cell x).word i)).run h) ((k ((h'.cell x).word i)).run h') _
      rw [e]; exact k3
  | wr z i w k ih =>
    intro h h' hk ag
    have e := ag.cell z (canRead_write hk.1)
    obtain ⟨k1, k2, k3⟩ := ih hk.2 (ag.write z ((h.cell z).setWord i w))
    rw [← e] at k1 k2 k3
    refine ⟨⟨hk.1, k1⟩, ?_, ?_⟩
    · show steps k _ + 1 = steps k _ + 1
      rw [k2, e]
    · rw [e] at k3
      show Refines (k.run _) (k.run _) _
      rw [e]; exact k3
  | new v k ih =>
    intro h h' hk ag
    obtain ⟨e, ag'⟩ := ag.alloc v
    obtain ⟨k1, k2, k3⟩ := ih _ hk ag'
    refine ⟨?_, ?_, ?_⟩
    · show (k (h'.alloc v).1).Keeps c _
      rw [e]; exact k1
    · show steps (k (h'.alloc v).1) _ + 1 = _
      rw [e, k2]; rfl
    · show Refines ((k (h.alloc v).1).run _) ((k (h'.alloc v).1).run _) _
      rw [e]; exact k3

theorem agree_outcome {α : Type} {c : Rights} {m : HM α} {h h' : Heap} (hk : m.Keeps c h) (ag : Agree c h h') :
    outcome m h' = outcome m h := by
  have r := (agree m hk ag).2.2
  unfold outcome
  revert r
  generalize m.run h = a
  generalize m.run h' = b
  intro r
  cases a with
  | error e => cases b with
    | error f => exact congrArg Except.error (Eq.symm r)
    | ok b => exact r.elim
  | ok a => cases b with
    | error f => exact r.elim
    | ok b => exact congrArg Except.ok r.1.symm

/-! ### What the goroutines may touch -/

/-- The rights of a goroutine: the `L` numbers of the inputs may be read; the numbers from `f` on, made for it by the main
goroutine or by itself, are its own. -/
def mine (L f : Nat) : Rights := ⟨f, fun x => x < L, fun _ => False⟩

/-- The rights of the main goroutine while it makes an execution: the numbers below `P` may be read, those from `f` on are new.  The
numbers of the pool, from `L` on, could be written. -/
def maker (L P f : Nat) : Rights := ⟨f, fun x => x < P, fun x => L ≤ x ∧ x < P⟩

section
variable {γ β : Type} (N B L P : Nat) (h0 : Heap) (make : Nat → HM γ) (prog : Nat → γ → HM β) (target : Nat → Go β)

/-- The execution for `mul` has been made. -/
structure Made (f mul : Nat) (e : γ) (h : Heap) : Prop where
  same : ∀ x, x < P → h.cell x = h0.cell x
  keeps : (prog mul e).Keeps (mine L f) h
  result : outcome (prog mul e) h = target mul

/-- The program that makes the execution for `mul`, alone, makes one. -/
structure Making (f mul : Nat) (m : HM γ) (h : Heap) : Prop where
  keeps : m.Keeps (maker L P f) h
  ok : ∀ e h', m h = .ok (e, h') → Made L P h0 prog target f mul e h'
  error : ∀ e, m h = .error e → target mul = .error e

/-- What the goroutines of the program need. -/
structure Setup : Prop where
  one : 1 ≤ N
  le : L ≤ P
  next : h0.next = P
  make : ∀ mul h, 1 ≤ mul → mul < N → P ≤ h.next → (∀ x, x < P → h.cell x = h0.cell x) →
    Making L P h0 prog target h.next mul (make mul) h

/-! ### Invariant -/

/-- What is known about a goroutine whose numbers start at `f`. -/
def PhaseOk (f : Nat) (h : Heap) (t : Thread β) : Prop :=
  match t.phase with
  | .running m => m.Keeps (mine L f) (t.view h) ∧ outcome m (t.view h) = target (t.i + 1)
  | .computed v => target (t.i + 1) = .ok v
  | _ => True

/-- What is known about the main goroutine; `f` is where the numbers of the next goroutine start. -/
def PcOk (f : Nat) (c : Cfg γ β) : Prop :=
  match c.pc with
  | .making m => c.j < B ∧ c.mul < N ∧ Making L P h0 prog target f c.mul m c.heap
  | .made e => c.j < B ∧ c.mul < N ∧ Made L P h0 prog target f c.mul e c.heap
  | .added e => c.j < B ∧ c.mul < N ∧ Made L P h0 prog target f c.mul e c.heap
  | _ => c.heap.next = f ∧ ∀ x, x < P → c.heap.cell x = h0.cell x

/-- `F k` is where the numbers of goroutine `k` start. -/
structure Inv (F : Nat → Nat) (c : Cfg γ β) : Prop where
  mono : Monotone F
  zero : F 0 = P
  base : ∀ (k : Nat) (t : Thread β), c.threads[k]? = some t → t.base = F (k + 1)
  top : F c.threads.length ≤ c.heap.next
  len : c.threads.length + 1 = c.mul
  arg : ∀ (k : Nat) (t : Thread β), c.threads[k]? = some t → t.i = k
  thr : ∀ (k : Nat) (t : Thread β), c.threads[k]? = some t → t.base ≤ t.next ∧ PhaseOk L target (F k) c.heap t
  pc : PcOk N B L P h0 prog target (F c.threads.length) c

end

variable {γ β : Type} {N B L P : Nat} {h0 : Heap} {make : Nat → HM γ} {prog : Nat → γ → HM β} {target : Nat → Go β}

theorem Made.agree {f mul : Nat} {e : γ} {h h' : Heap} (hLP : L ≤ P) (m : Made L P h0 prog target f mul e h)
    (ag : Agree (maker L P f) h h') : Made L P h0 prog target f mul e h' := by
  have ag' : Agree (mine L f) h h' := ⟨fun x hx => ag.cell x (by
    rcases hx with h1 | h1 | h1
    · exact .inl (lt_of_lt_of_le h1 hLP)
    · exact h1.elim
    · exact .inr (.inr h1)), ag.next⟩
  exact ⟨fun x hx => (ag.cell x (.inl hx)).trans (m.same x hx), (Conc.agree _ m.keeps ag').1, (agree_outcome m.keeps ag').trans m.result⟩

theorem Making.agree {f mul : Nat} {m : HM γ} {h h' : Heap} (hLP : L ≤ P) (k : Making L P h0 prog target f mul m h)
    (ag : Agree (maker L P f) h h') : Making L P h0 prog target f mul m h' := by
  obtain ⟨a1, _, a3⟩ := Conc.agree m k.keeps ag
  refine ⟨a1, fun e h1 he => ?_, fun e he => ?_⟩
  · rw [he] at a3
    cases hm : m.run h with
    | error e' => rw [hm] at a3; exact a3.elim
    | ok r =>
      rw [hm] at a3
      have h2 := k.ok r.1 r.2 hm
      have e1 : r.1 = e := a3.1
      rw [← e1]
      exact h2.agree hLP a3.2
  · rw [he] at a3
    cases hm : m.run h with
    | error e' => rw [hm] at a3; rw [← show e' = e from a3]; exact k.error e' hm
    | ok r => rw [hm] at a3; exact a3.elim

theorem PhaseOk.agree {f : Nat} {h h' : Heap} {t : Thread β} (k : PhaseOk L target f h t)
    (ag : Agree (mine L f) (t.view h) (t.view h')) : PhaseOk L target f h' t := by
  unfold PhaseOk at k ⊢
  cases hp : t.phase with
  | running m =>
    rw [hp] at k
    exact ⟨(Conc.agree m k.1 ag).1, (agree_outcome k.1 ag).trans k.2⟩
  | computed v => rw [hp] at k; exact k
  | wrote => trivial
  | finished => trivial

/-! ### Steps of the main goroutine -/

/-- The shared numbers have changed only where the main goroutine may write. -/
theorem PhaseOk.main {F : Nat → Nat} {c : Cfg γ β} (i : Inv N B L P h0 prog target F c) {h' : Heap}
    (ch : ∀ x, ¬ (maker L P (F c.threads.length)).canWrite x → h'.cell x = c.heap.cell x) {k : Nat} {t : Thread β}
    (hk : c.threads[k]? = some t) : PhaseOk L target (F k) h' t := by
  refine (i.thr k t hk).2.agree ⟨fun x hx => ?_, rfl⟩
  show (if x < t.base then h'.cell x else t.own x) = (if x < t.base then c.heap.cell x else t.own x)
  by_cases hb : x < t.base
  · rw [if_pos hb, if_pos hb]
    refine ch x fun hw => ?_
    have hkl : k < c.threads.length := (List.getElem?_eq_some_iff.1 hk).1
    have hF : F (k + 1) ≤ F c.threads.length := i.mono hkl
    have h1 := i.base k t hk
    have h2 : F 0 ≤ F k := i.mono (Nat.zero_le _)
    rw [i.zero] at h2
    rcases hw with ⟨h3, h4⟩ | h3
    · rcases hx with h5 | h5 | h5
      · have h6 : x < L := h5
        omega
      · exact h5
      · have h6 : F k ≤ x := h5
        omega
    · have h6 : F c.threads.length ≤ x := h3
      omega
  · rw [if_neg hb, if_neg hb]

theorem step_main (s : Setup N L P h0 make prog target) {F : Nat → Nat} {c c' : Cfg γ β} (i : Inv N B L P h0 prog target F c)
    (hs : mainStep N B make prog c = some c') (hc : c'.crashed = none) : ∃ F', Inv N B L P h0 prog target F' c' := by
  obtain ⟨pc, mul, j, count, heap, threads, results, saved, writes, crashed⟩ := c
  have hp := i.pc
  unfold PcOk at hp
  unfold mainStep at hs
  have htop := i.top
  have hlen := i.len
  cases pc with
  | outer =>
    dsimp only at hs hp
    split_ifs at hs with hm
    · obtain rfl := Option.some.inj hs
      exact ⟨F, { i with pc := hp }⟩
    · obtain rfl := Option.some.inj hs
      exact ⟨F, { i with pc := hp }⟩
  | inner =>
    dsimp only at hs hp hlen
    split_ifs at hs with hm
    · obtain rfl := Option.some.inj hs
      have h0F : F 0 ≤ F threads.length := i.mono (Nat.zero_le _)
      rw [i.zero] at h0F
      have hn : heap.next = F threads.length := hp.1
      have := s.make mul heap (by omega) hm.2 (by omega) hp.2
      rw [hn] at this
      exact ⟨F, { i with pc := ⟨hm.1, hm.2, this⟩ }⟩
    · obtain rfl := Option.some.inj hs
      exact ⟨F, { i with pc := hp }⟩
  | making m =>
    obtain ⟨hj, hmN, hm⟩ := hp
    cases m with
    | ret e =>
      obtain rfl := Option.some.inj hs
      exact ⟨F, { i with pc := ⟨hj, hmN, hm.ok e heap rfl⟩ }⟩
    | fail e =>
      obtain rfl := Option.some.inj hs
      cases hc
    | rd x w k =>
      obtain rfl := Option.some.inj hs
      exact ⟨F, { i with pc := ⟨hj, hmN, ⟨hm.keeps.2, hm.ok, hm.error⟩⟩ }⟩
    | wr z w v k =>
      obtain rfl := Option.some.inj hs
      refine ⟨F, { i with
        top := htop
        thr := fun k t hk => ⟨(i.thr k t hk).1, PhaseOk.main i (fun x hx => ?_) hk⟩
        pc := ⟨hj, hmN, ⟨hm.keeps.2, hm.ok, hm.error⟩⟩ }⟩
      show (if x = z then _ else heap.cell x) = heap.cell x
      rw [if_neg (fun e : x = z => hx (e ▸ hm.keeps.1))]
    | new v k =>
      obtain rfl := Option.some.inj hs
      refine ⟨F, { i with
        top := le_trans htop (Nat.le_succ _)
        thr := fun k t hk => ⟨(i.thr k t hk).1, PhaseOk.main i (fun x hx => ?_) hk⟩
        pc := ⟨hj, hmN, ⟨hm.keeps, hm.ok, hm.error⟩⟩ }⟩
      show (if x = heap.next then _ else heap.cell x) = heap.cell x
      rw [if_neg (fun e : x = heap.next => hx (.inr (e ▸ htop)))]
  | made e =>
    obtain rfl := Option.some.inj hs
    exact ⟨F, { i with pc := hp }⟩
  | added e =>
    obtain ⟨hj, hmN, hm⟩ := hp
    obtain rfl := Option.some.inj hs
    dsimp only at hlen htop hm
    let F' : Nat → Nat := fun k => if k ≤ threads.length then F k else heap.next
    have hF' : ∀ k, k ≤ threads.length → F' k = F k := fun k hk => if_pos hk
    have hFn : F' (threads.length + 1) = heap.next := if_neg (by omega)
    refine ⟨F', ⟨?_, ?_, ?_, ?_, ?_, ?_, ?_, ?_⟩⟩
    · intro a b hab
      show (if a ≤ threads.length then F a else heap.next) ≤ (if b ≤ threads.length then F b else heap.next)
      split_ifs with h1 h2 h2
      · exact i.mono hab
      · exact le_trans (i.mono h1) htop
      · omega
      · exact le_refl _
    · rw [hF' 0 (Nat.zero_le _)]; exact i.zero
    · intro k t hk
      dsimp only at hk
      rcases Nat.lt_or_ge k threads.length with hl | hl
      · rw [List.getElem?_append_left hl] at hk
        rw [hF' (k + 1) hl]
        exact i.base k t hk
      · rw [List.getElem?_append_right hl] at hk
        have hk0 : k - threads.length = 0 := by
          by_contra hne
          rw [List.getElem?_eq_none (by simp; omega)] at hk
          cases hk
        rw [hk0] at hk
        obtain rfl := Option.some.inj hk
        rw [show k = threads.length by omega, hFn]
    · dsimp only
      rw [List.length_append, List.length_singleton, hFn]
    · dsimp only
      rw [List.length_append, List.length_singleton, hlen]
    · intro k t hk
      dsimp only at hk
      rcases Nat.lt_or_ge k threads.length with hl | hl
      · rw [List.getElem?_append_left hl] at hk
        exact i.arg k t hk
      · rw [List.getElem?_append_right hl] at hk
        have hk0 : k - threads.length = 0 := by
          by_contra hne
          rw [List.getElem?_eq_none (by simp; omega)] at hk
          cases hk
        rw [hk0] at hk
        obtain rfl := Option.some.inj hk
        dsimp only
        omega
    · intro k t hk
      dsimp only at hk ⊢
      rcases Nat.lt_or_ge k threads.length with hl | hl
      · rw [List.getElem?_append_left hl] at hk
        rw [hF' k (le_of_lt hl)]
        exact i.thr k t hk
      · rw [List.getElem?_append_right hl] at hk
        have hk0 : k - threads.length = 0 := by
          by_contra hne
          rw [List.getElem?_eq_none (by simp; omega)] at hk
          cases hk
        rw [hk0] at hk
        obtain rfl := Option.some.inj hk
        rw [show k = threads.length by omega, hF' _ (le_refl _)]
        refine ⟨le_refl _, ?_⟩
        have hv : Thread.view ⟨mul - 1, heap.next, .running (prog mul e), heap.cell, heap.next⟩ heap = heap := by
          unfold Thread.view
          dsimp only
          congr 1
          funext x
          rw [ite_self]
        unfold PhaseOk
        dsimp only
        rw [hv]
        refine ⟨hm.keeps, ?_⟩
        rw [hm.result, show mul - 1 + 1 = mul by omega]
    · show heap.next = F' (threads ++ [_]).length ∧ _
      rw [List.length_append, List.length_singleton, hFn]
      exact ⟨rfl, hm.same⟩
  | waiting =>
    dsimp only at hs hp
    split_ifs at hs with hm
    · obtain rfl := Option.some.inj hs
      exact ⟨F, { i with pc := hp }⟩
  | saved => cases hs

/-! ### Steps of the other goroutines -/

/-- Goroutine `k` has changed its own state and shared numbers it may write. -/
theorem Inv.local (hLP : L ≤ P) {F : Nat → Nat} {c c' : Cfg γ β} (i : Inv N B L P h0 prog target F c) {k : Nat} {t t' : Thread β}
    (hk : c.threads[k]? = some t)
    (hth : c'.threads = c.threads.set k t') (hpc : c'.pc = c.pc) (hm : c'.mul = c.mul) (hj : c'.j = c.j)
    (hb : t'.base = t.base) (hi : t'.i = t.i) (hn : t'.base ≤ t'.next) (hok : PhaseOk L target (F k) c'.heap t')
    (hnext : c'.heap.next = c.heap.next)
    (hch : ∀ x, ¬ (x < t.base ∧ (mine L (F k)).canWrite x) → c'.heap.cell x = c.heap.cell x) :
    Inv N B L P h0 prog target F c' := by
  have hkl : k < c.threads.length := (List.getElem?_eq_some_iff.1 hk).1
  have hlen : c'.threads.length = c.threads.length := by rw [hth, List.length_set]
  have htb := i.base k t hk
  have hPF : P ≤ F k := i.zero ▸ i.mono (Nat.zero_le _)
  have hFt : F (k + 1) ≤ F c.threads.length := i.mono hkl
  have out : ∀ x, x < P ∨ F c.threads.length ≤ x → c'.heap.cell x = c.heap.cell x := fun x hx => hch x fun hw => by
    obtain ⟨h1, h2 | h2⟩ := hw
    · exact h2
    · have h3 : F k ≤ x := h2
      omega
  have ag : Agree (maker L P (F c.threads.length)) c.heap c'.heap := by
    refine ⟨fun x hx => out x ?_, hnext⟩
    rcases hx with h1 | h1 | h1
    · exact .inl h1
    · exact .inl h1.2
    · exact .inr h1
  refine ⟨i.mono, i.zero, ?_, ?_, ?_, ?_, ?_, ?_⟩
  · intro k' s hs
    rw [hth] at hs
    rcases Parallel.get_set hk hs with ⟨rfl, rfl⟩ | ⟨_, hs⟩
    · rw [hb]; exact htb
    · exact i.base k' s hs
  · rw [hlen, hnext]; exact i.top
  · rw [hlen, hm]; exact i.len
  · intro k' s hs
    rw [hth] at hs
    rcases Parallel.get_set hk hs with ⟨rfl, rfl⟩ | ⟨_, hs⟩
    · rw [hi]; exact i.arg k' t hk
    · exact i.arg k' s hs
  · intro k' s hs
    rw [hth] at hs
    rcases Parallel.get_set hk hs with ⟨rfl, rfl⟩ | ⟨hne, hs⟩
    · exact ⟨hn, hok⟩
    · refine ⟨(i.thr k' s hs).1, (i.thr k' s hs).2.agree ⟨fun x hx => ?_, rfl⟩⟩
      show (if x < s.base then c'.heap.cell x else s.own x) = (if x < s.base then c.heap.cell x else s.own x)
      by_cases hxb : x < s.base
      · rw [if_pos hxb, if_pos hxb]
        refine hch x fun hw => ?_
        obtain ⟨h1, h2 | h2⟩ := hw
        · exact h2
        · have h3 : F k ≤ x := h2
          have hsb := i.base k' s hs
          rcases Nat.lt_or_gt_of_ne hne with hlt | hgt
          · have := i.mono (show k' + 1 ≤ k from hlt)
            omega
          · have := i.mono (show k + 1 ≤ k' from hgt)
            rcases hx with h5 | h5 | h5
            · have h6 : x < L := h5
              omega
            · exact h5
            · have h6 : F k' ≤ x := h5
              omega
      · rw [if_neg hxb, if_neg hxb]
  · have hp := i.pc
    rw [hlen]
    unfold PcOk at hp ⊢
    rw [hpc, hm, hj, hnext]
    cases hq : c.pc with
    | making m => rw [hq] at hp; exact ⟨hp.1, hp.2.1, hp.2.2.agree hLP ag⟩
    | made e => rw [hq] at hp; exact ⟨hp.1, hp.2.1, hp.2.2.agree hLP ag⟩
    | added e => rw [hq] at hp; exact ⟨hp.1, hp.2.1, hp.2.2.agree hLP ag⟩
    | _ => rw [hq] at hp; exact ⟨hp.1, fun x hx => (out x (.inl hx)).trans (hp.2 x hx)⟩

theorem view_write {t : Thread β} {h : Heap} {z : Nat} {v : U256} {m : HM β} (hz : z < t.base) :
    Thread.view { t with phase := .running m } (h.write z v) = (t.view h).write z v := by
  unfold Thread.view Heap.write
  dsimp only
  congr 1
  funext x
  by_cases hx : x = z
  · subst hx
    rw [if_pos hz, if_pos rfl, if_pos rfl]
  · rw [if_neg hx, if_neg hx]

theorem view_own {t : Thread β} {h : Heap} {z : Nat} {v : U256} {m : HM β} (hz : ¬ z < t.base) :
    Thread.view { t with phase := .running m, own := fun y => if y = z then v else t.own y } h = (t.view h).write z v := by
  unfold Thread.view Heap.write
  dsimp only
  congr 1
  funext x
  by_cases hx : x = z
  · subst hx
    rw [if_neg hz, if_pos rfl, if_pos rfl]
  · rw [if_neg hx, if_neg hx]

theorem view_new {t : Thread β} {h : Heap} {v : U256} {m : HM β} (hz : t.base ≤ t.next) :
    Thread.view { t with phase := .running m, own := fun y => if y = t.next then v else t.own y, next := t.next + 1 } h =
      ((t.view h).alloc v).2 := by
  unfold Thread.view Heap.alloc
  dsimp only
  congr 1
  funext x
  by_cases hx : x = t.next
  · subst hx
    rw [if_neg (by omega), if_pos rfl, if_pos rfl]
  · rw [if_neg hx, if_neg hx]

theorem step_thread (hLP : L ≤ P) {F : Nat → Nat} {c c' : Cfg γ β} (i : Inv N B L P h0 prog target F c) {k : Nat}
    (hs : threadStep k c = some c') (hc : c'.crashed = none) : Inv N B L P h0 prog target F c' := by
  unfold threadStep at hs
  cases hk : c.threads[k]? with
  | none => rw [hk] at hs; cases hs
  | some t =>
    rw [hk] at hs
    dsimp only at hs
    obtain ⟨hn, hok⟩ := i.thr k t hk
    unfold PhaseOk at hok
    cases hph : t.phase with
    | running m =>
      rw [hph] at hs hok
      dsimp only at hs hok
      obtain ⟨hkp, hout⟩ := hok
      cases m with
      | ret v =>
        obtain rfl := Option.some.inj hs
        exact i.local hLP hk rfl rfl rfl rfl rfl rfl hn hout.symm rfl fun _ _ => rfl
      | fail e =>
        obtain rfl := Option.some.inj hs
        cases hc
      | rd x w m =>
        obtain rfl := Option.some.inj hs
        exact i.local hLP hk rfl rfl rfl rfl rfl rfl hn ⟨hkp.2, hout⟩ rfl fun _ _ => rfl
      | wr z w v m =>
        dsimp only at hs
        by_cases hz : z < t.base
        · rw [if_pos hz] at hs
          obtain rfl := Option.some.inj hs
          refine i.local hLP hk rfl rfl rfl rfl rfl rfl hn ?_ rfl fun x hx => ?_
          · unfold PhaseOk
            dsimp only
            rw [view_write hz]
            exact ⟨hkp.2, hout⟩
          · show (if x = z then _ else c.heap.cell x) = c.heap.cell x
            rw [if_neg fun e : x = z => hx (e ▸ ⟨hz, hkp.1⟩)]
        · rw [if_neg hz] at hs
          obtain rfl := Option.some.inj hs
          refine i.local hLP hk rfl rfl rfl rfl rfl rfl hn ?_ rfl fun x hx => rfl
          unfold PhaseOk
          dsimp only
          rw [view_own hz]
          exact ⟨hkp.2, hout⟩
      | new v m =>
        obtain rfl := Option.some.inj hs
        refine i.local hLP hk rfl rfl rfl rfl rfl rfl (le_trans hn (Nat.le_succ _)) ?_ rfl fun x hx => rfl
        unfold PhaseOk
        dsimp only
        rw [view_new hn]
        exact ⟨hkp, hout⟩
    | computed v =>
      rw [hph] at hs
      dsimp only at hs
      split_ifs at hs with h1
      · obtain rfl := Option.some.inj hs
        exact i.local hLP hk rfl rfl rfl rfl rfl rfl hn trivial rfl fun _ _ => rfl
      · obtain rfl := Option.some.inj hs
        cases hc
    | wrote =>
      rw [hph] at hs
      dsimp only at hs
      split_ifs at hs with h1
      · obtain rfl := Option.some.inj hs
        exact i.local hLP hk rfl rfl rfl rfl rfl rfl hn trivial rfl fun _ _ => rfl
      · obtain rfl := Option.some.inj hs
        cases hc
    | finished => rw [hph] at hs; cases hs

/-! ### Simulation by the machine of `Model/Parallel.lean` -/

/-- The state without the memory: a goroutine runs until it has its result. -/
def absPhase (i : Nat) : Phase β → Parallel.Phase Nat (Go β)
  | .running _ => .running (i + 1)
  | .computed v => .computed (.ok v)
  | .wrote => .wrote
  | .finished => .finished

def absThread (t : Thread β) : Parallel.Thread Nat (Go β) := ⟨t.i, absPhase t.i t.phase⟩

def absPc : MainPc γ → Parallel.MainPc
  | .outer => .outer
  | .inner => .inner
  | .making _ => .inner
  | .made _ => .inner
  | .added _ => .added
  | .waiting => .waiting
  | .saved => .saved

def absSlots (l : List (Option β)) : List (Option (Go β)) := l.map (Option.map .ok)

def abs (c : Cfg γ β) : Parallel.Cfg Nat (Go β) :=
  { pc := absPc c.pc, mul := c.mul, j := c.j, count := c.count, threads := c.threads.map absThread, results := absSlots c.results,
    saved := c.saved.map absSlots, writes := c.writes, crashed := false }

/-- The runs of the machine of `Model/Parallel.lean` in which simulation `mul` returns `target mul` in one step. -/
abbrev ARuns (N B : Nat) (target : Nat → Go β) (n : Nat) (c : Parallel.Cfg Nat (Go β)) : Prop :=
  Parallel.Runs N B id (fun mul => .inr (target mul)) n c

theorem abs_main {F : Nat → Nat} {c c' : Cfg γ β} (i : Inv N B L P h0 prog target F c)
    (hs : mainStep N B make prog c = some c') (hc : c'.crashed = none) {n : Nat} (r : ARuns N B target n (abs c)) :
    ∃ n', ARuns N B target n' (abs c') := by
  obtain ⟨pc, mul, j, count, heap, threads, results, saved, writes, crashed⟩ := c
  have hp := i.pc
  have hlen := i.len
  unfold PcOk at hp
  unfold mainStep at hs
  have go : ∀ {d : Cfg γ β}, Parallel.mainStep N B id (abs ⟨pc, mul, j, count, heap, threads, results, saved, writes, crashed⟩) =
      some (abs d) → ∃ n', ARuns N B target n' (abs d) := fun h => ⟨n + 1, .step r (.main rfl h)⟩
  cases pc with
  | outer =>
    dsimp only at hs
    split_ifs at hs with hm
    · obtain rfl := Option.some.inj hs
      exact go (by unfold Parallel.mainStep abs absPc; dsimp only; rw [if_pos hm])
    · obtain rfl := Option.some.inj hs
      exact go (by unfold Parallel.mainStep abs absPc; dsimp only; rw [if_neg hm]; rfl)
  | inner =>
    dsimp only at hs
    split_ifs at hs with hm
    · obtain rfl := Option.some.inj hs
      exact ⟨n, r⟩
    · obtain rfl := Option.some.inj hs
      exact go (by unfold Parallel.mainStep abs absPc; dsimp only; rw [if_neg hm])
  | making m =>
    cases m with
    | fail e => obtain rfl := Option.some.inj hs; cases hc
    | _ => obtain rfl := Option.some.inj hs; exact ⟨n, r⟩
  | made e =>
    obtain rfl := Option.some.inj hs
    exact go (by unfold Parallel.mainStep abs absPc; dsimp only; rw [if_pos ⟨hp.1, hp.2.1⟩])
  | added e =>
    obtain rfl := Option.some.inj hs
    refine go ?_
    unfold Parallel.mainStep abs absPc
    dsimp only at hlen ⊢
    rw [List.map_append]
    unfold absThread absPhase
    rw [show id mul = mul - 1 + 1 by rw [id]; omega]
    rfl
  | waiting =>
    dsimp only at hs
    split_ifs at hs with hm
    · obtain rfl := Option.some.inj hs
      exact go (by unfold Parallel.mainStep abs absPc; dsimp only; rw [if_pos hm])
  | saved => cases hs

theorem abs_get {c : Cfg γ β} {k : Nat} {t : Thread β} (hk : c.threads[k]? = some t) :
    (abs c).threads[k]? = some (absThread t) := by
  show (c.threads.map absThread)[k]? = _
  rw [List.getElem?_map, hk]
  rfl

theorem map_set_same {l : List (Thread β)} {k : Nat} {t t' : Thread β} (hk : l[k]? = some t) (e : absThread t' = absThread t) :
    (l.set k t').map absThread = l.map absThread := by
  rw [List.map_set, e]
  apply List.ext_getElem?
  intro j
  by_cases hj : j = k
  · subst hj
    rw [List.getElem?_set_self (by rw [List.length_map]; exact (List.getElem?_eq_some_iff.1 hk).1), List.getElem?_map, hk]
    rfl
  · rw [List.getElem?_set_ne (Ne.symm hj)]

theorem abs_thread {F : Nat → Nat} {c c' : Cfg γ β} (hN : 1 ≤ N) (i : Inv N B L P h0 prog target F c) {k : Nat}
    (hs : threadStep k c = some c') {n : Nat} (r : ARuns N B target n (abs c)) :
    (c'.crashed = none → ∃ n', ARuns N B target n' (abs c')) ∧
    (∀ e, c.crashed = none → c'.crashed = some e → target (k + 1) = .error e) := by
  have hinv := Parallel.inv_runs hN r
  unfold threadStep at hs
  cases hk : c.threads[k]? with
  | none => rw [hk] at hs; cases hs
  | some t =>
    rw [hk] at hs
    dsimp only at hs
    have ha := abs_get hk
    obtain ⟨hn, hok⟩ := i.thr k t hk
    have harg := i.arg k t hk
    have hiok := hinv.ok k _ ha
    unfold PhaseOk at hok
    have go : ∀ {d : Parallel.Cfg Nat (Go β)}, Parallel.threadStep (fun mul => .inr (target mul)) k (abs c) = some d →
        ∃ n', ARuns N B target n' d := fun h => ⟨n + 1, .step r (.thread rfl h)⟩
    have same : ∀ (t' : Thread β) (heap : Heap), absThread t' = absThread t →
        ∃ n', ARuns N B target n' (abs { c with threads := c.threads.set k t', heap := heap }) := by
      intro t' heap e
      refine ⟨n, ?_⟩
      have : abs { c with threads := c.threads.set k t', heap := heap } = abs c := by
        unfold abs
        dsimp only
        rw [map_set_same hk e]
      rw [this]
      exact r
    cases hph : t.phase with
    | running m =>
      rw [hph] at hs hok
      dsimp only at hs hok
      obtain ⟨hkp, hout⟩ := hok
      have hab : ∀ (own : Nat → U256) (next : Nat) (m : HM β), absThread { t with phase := .running m, own := own, next := next } =
          absThread t := fun own next m => by
        unfold absThread
        rw [hph]
        rfl
      cases m with
      | ret v =>
        obtain rfl := Option.some.inj hs
        refine ⟨fun _ => ?_, fun e h1 h2 => by rw [h1] at h2; cases h2⟩
        have ht : target (t.i + 1) = .ok v := hout.symm
        refine go ?_
        unfold Parallel.threadStep
        rw [ha]
        unfold absThread
        rw [hph]
        show some _ = some _
        unfold abs
        dsimp only
        rw [List.map_set, ht]
        rfl
      | fail e =>
        obtain rfl := Option.some.inj hs
        refine ⟨fun h => (by cases h), fun e' _ h => ?_⟩
        obtain rfl := Option.some.inj h
        rw [← harg]
        exact hout.symm
      | rd x w m =>
        obtain rfl := Option.some.inj hs
        exact ⟨fun _ => same _ _ (hab _ _ _), fun e h1 h2 => by rw [h1] at h2; cases h2⟩
      | wr z w v m =>
        dsimp only at hs
        by_cases hz : z < t.base
        · rw [if_pos hz] at hs
          obtain rfl := Option.some.inj hs
          exact ⟨fun _ => same _ _ (hab _ _ _), fun e h1 h2 => by rw [h1] at h2; cases h2⟩
        · rw [if_neg hz] at hs
          obtain rfl := Option.some.inj hs
          exact ⟨fun _ => same _ _ (hab _ _ _), fun e h1 h2 => by rw [h1] at h2; cases h2⟩
      | new v m =>
        obtain rfl := Option.some.inj hs
        exact ⟨fun _ => same _ _ (hab _ _ _), fun e h1 h2 => by rw [h1] at h2; cases h2⟩
    | computed v =>
      rw [hph] at hs
      have hat : absThread t = ⟨t.i, .computed (.ok v)⟩ := by unfold absThread; rw [hph]; rfl
      rw [hat] at hiok ha
      have hlt : k < (absSlots c.results).length := (List.getElem?_eq_some_iff.1 hiok.2).1
      have hlt' : t.i < c.results.length := by
        unfold absSlots at hlt
        rw [List.length_map] at hlt
        omega
      dsimp only at hs
      rw [if_pos hlt'] at hs
      obtain rfl := Option.some.inj hs
      refine ⟨fun _ => go ?_, fun e h1 h2 => by rw [h1] at h2; cases h2⟩
      unfold Parallel.threadStep
      rw [ha]
      dsimp only
      rw [if_pos (show t.i < (abs c).results.length by rw [harg]; exact hlt)]
      unfold abs absSlots
      dsimp only
      rw [List.map_set, List.map_set]
      rfl
    | wrote =>
      rw [hph] at hs
      have hat : absThread t = ⟨t.i, .wrote⟩ := by unfold absThread; rw [hph]; rfl
      rw [hat] at ha
      have hcnt := hinv.cnt
      have hpos : 0 < c.count := by
        by_contra h0
        have h1 : (abs c).count = 0 := by show c.count = 0; omega
        have h2 : Parallel.live (abs c) = 0 := by omega
        have := Parallel.sum_zero Parallel.alive (abs c).threads h2 _ (List.mem_of_getElem? ha)
        cases this
      dsimp only at hs
      rw [if_pos hpos] at hs
      obtain rfl := Option.some.inj hs
      refine ⟨fun _ => go ?_, fun e h1 h2 => by rw [h1] at h2; cases h2⟩
      unfold Parallel.threadStep
      rw [ha]
      dsimp only
      rw [if_pos (show 0 < (abs c).count from hpos)]
      unfold abs
      dsimp only
      rw [List.map_set]
      rfl
    | finished => rw [hph] at hs; cases hs

/-- What holds in every state the program can reach. -/
theorem reach_inv (s : Setup N L P h0 make prog target) {c : Cfg γ β} (r : Reach N B make prog h0 c) :
    (c.crashed = none → (∃ F, Inv N B L P h0 prog target F c) ∧ ∃ n, ARuns N B target n (abs c)) ∧
    (∀ e, c.crashed = some e → ∃ mul, 1 ≤ mul ∧ mul < N ∧ target mul = .error e) := by
  induction r with
  | init =>
    refine ⟨fun _ => ⟨⟨fun _ => P, ?_⟩, 0, ?_⟩, fun e h => by cases h⟩
    · refine ⟨fun _ _ _ => le_refl _, rfl, ?_, le_of_eq s.next.symm, rfl, ?_, ?_, ⟨s.next, fun _ _ => rfl⟩⟩
      all_goals
        intro k t hk
        simp [init] at hk
    · have : abs (init N h0 : Cfg γ β) = Parallel.init N := by
        unfold abs init Parallel.init absSlots
        dsimp only
        rw [List.map_replicate]
        rfl
      rw [this]
      exact .init
  | step r hs ih =>
    rename_i c c'
    obtain ⟨ih1, ih2⟩ := ih
    cases hs with
    | main h1 h2 =>
      obtain ⟨⟨F, i⟩, n, ra⟩ := ih1 h1
      refine ⟨fun hc => ⟨step_main s i h2 hc, abs_main i h2 hc ra⟩, fun e he => ?_⟩
      obtain ⟨pc, mul, j, count, heap, threads, results, saved, writes, crashed⟩ := c
      have hp := i.pc
      have hlen := i.len
      unfold PcOk at hp
      unfold mainStep at h2
      dsimp only at h1 hlen
      subst h1
      cases pc with
      | making m =>
        cases m with
        | fail e' =>
          obtain rfl := Option.some.inj h2
          obtain rfl := Option.some.inj he
          exact ⟨mul, by omega, hp.2.1, hp.2.2.error _ rfl⟩
        | _ => obtain rfl := Option.some.inj h2; cases he
      | outer =>
        dsimp only at h2
        split_ifs at h2 <;> (obtain rfl := Option.some.inj h2; cases he)
      | inner =>
        dsimp only at h2
        split_ifs at h2 <;> (obtain rfl := Option.some.inj h2; cases he)
      | waiting =>
        dsimp only at h2
        split_ifs at h2
        obtain rfl := Option.some.inj h2
        cases he
      | saved => cases h2
      | _ => obtain rfl := Option.some.inj h2; cases he
    | thread h1 h2 =>
      rename_i k
      obtain ⟨⟨F, i⟩, n, ra⟩ := ih1 h1
      have hb := abs_thread s.one i h2 ra
      refine ⟨fun hc => ⟨⟨F, step_thread s.le i h2 hc⟩, hb.1 hc⟩, fun e he => ⟨k + 1, by omega, ?_, hb.2 e h1 he⟩⟩
      have hinv := Parallel.inv_runs s.one ra
      have hkl : k < c.threads.length := by
        by_contra h0
        unfold threadStep at h2
        rw [List.getElem?_eq_none (by omega)] at h2
        cases h2
      have := hinv.len
      have hm := hinv.mulN
      have e1 : (abs c).threads.length = c.threads.length := List.length_map _
      omega

end Conc
end Uni
