import Verif.Proofs.Conc
import Mathlib.Data.Prod.Lex
/-! # Goroutines on memory: races, results, progress, termination -/
namespace Uni
namespace Conc
open Spec InPlace

variable {γ β : Type} {N B L P : Nat} {h0 : Heap} {make : Nat → HM γ} {prog : Nat → γ → HM β} {target : Nat → Go β}

/-! ### Races -/

theorem touches_keeps {α : Type} {c : Rights} {m : HM α} {h : Heap} (k : m.Keeps c h) {w : Bool} {x : Nat} (t : Touches m w x) :
    c.canRead x ∧ (w = true → c.canWrite x) := by
  cases m with
  | rd y i m => obtain ⟨rfl, rfl⟩ := t; exact ⟨k.1, fun h => by cases h⟩
  | wr y i v m => obtain ⟨rfl, rfl⟩ := t; exact ⟨canRead_write k.1, fun _ => k.1⟩
  | ret => exact t.elim
  | fail => exact t.elim
  | new => exact t.elim

/-- The shared numbers a goroutine touches. -/
theorem thread_number {F : Nat → Nat} {c : Cfg γ β} (i : Inv N B L P h0 prog target F c) {k : Nat} {t : Thread β}
    (hk : c.threads[k]? = some t) {w : Bool} {x : Nat} (ht : threadTouches t w (.number x)) :
    x < F (k + 1) ∧ (x < L ∨ F k ≤ x) ∧ (w = true → F k ≤ x) := by
  have hok := (i.thr k t hk).2
  unfold PhaseOk at hok
  unfold threadTouches at ht
  cases hp : t.phase with
  | running m =>
    rw [hp] at hok ht
    dsimp only at hok ht
    obtain ⟨h1, h2⟩ := touches_keeps hok.1 ht.1
    refine ⟨by rw [← i.base k t hk]; exact ht.2, ?_, fun hw => ?_⟩
    · rcases h1 with h | h | h
      · exact .inl h
      · exact h.elim
      · exact .inr h
    · rcases h2 hw with h | h
      · exact h.elim
      · exact h
  | computed v => rw [hp] at ht; exact ht.elim
  | wrote => rw [hp] at ht; exact ht.elim
  | finished => rw [hp] at ht; exact ht.elim

theorem thread_slot {t : Thread β} {w : Bool} {s : Nat} (ht : threadTouches t w (.slot s)) : s = t.i ∧ ∃ v, t.phase = .computed v := by
  unfold threadTouches at ht
  cases hp : t.phase with
  | running m => rw [hp] at ht; exact ht.elim
  | computed v => rw [hp] at ht; exact ⟨ht.2, v, rfl⟩
  | wrote => rw [hp] at ht; exact ht.elim
  | finished => rw [hp] at ht; exact ht.elim

/-- The shared numbers the main goroutine touches. -/
theorem main_number {F : Nat → Nat} {c : Cfg γ β} (i : Inv N B L P h0 prog target F c) {w : Bool} {x : Nat}
    (ht : mainTouches N c w (.number x)) :
    (x < P ∨ F c.threads.length ≤ x) ∧ (w = true → (L ≤ x ∧ x < P) ∨ F c.threads.length ≤ x) := by
  have hp := i.pc
  unfold PcOk at hp
  unfold mainTouches at ht
  cases hq : c.pc with
  | making m =>
    rw [hq] at hp ht
    obtain ⟨h1, h2⟩ := touches_keeps hp.2.2.keeps ht
    refine ⟨?_, h2⟩
    rcases h1 with h | h | h
    · exact .inl h
    · exact .inl h.2
    · exact .inr h
  | _ => rw [hq] at ht; exact ht.elim

theorem no_race (s : Setup N L P h0 make prog target) {c : Cfg γ β} (r : Reach N B make prog h0 c) (hc : c.crashed = none) :
    ¬ Race N c := by
  obtain ⟨⟨F, i⟩, n, ra⟩ := (reach_inv s r).1 hc
  have hinv := Parallel.inv_runs s.one ra
  have hP : ∀ k, P ≤ F k := fun k => i.zero ▸ i.mono (Nat.zero_le k)
  have hLP := s.le
  have top : ∀ {k : Nat} {t : Thread β}, c.threads[k]? = some t → F (k + 1) ≤ F c.threads.length := fun hk =>
    i.mono (List.getElem?_eq_some_iff.1 hk).1
  -- a goroutine that is about to store its result keeps the main goroutine from reading the results
  have wait : ∀ {k : Nat} {t : Thread β} {v : β}, c.threads[k]? = some t → t.phase = .computed v → c.pc ≠ .outer := by
    intro k t v hk hv ho
    have ha := abs_get hk
    have hne : (absThread t).phase ≠ .finished := by
      unfold absThread
      rw [hv]
      intro h
      cases h
    have := (Parallel.not_saved_of_live hinv ha hne).2
    apply this
    show absPc c.pc = .outer
    rw [ho]
    rfl
  rintro ⟨g, g', p, w, hne, h1, h2⟩
  cases g with
  | none =>
    cases g' with
    | none => exact hne rfl
    | some k =>
      obtain ⟨t, hk, h2⟩ := h2
      cases p with
      | number x =>
        obtain ⟨a1, a2, _⟩ := thread_number i hk h2
        have := top hk
        have := hP k
        rcases (main_number i h1).2 rfl with b | b <;> omega
      | slot j =>
        have h1' : mainTouches N c true (.slot j) := h1
        unfold mainTouches at h1'
        cases hq : c.pc with
        | outer => rw [hq] at h1'; cases h1'.1
        | _ => rw [hq] at h1'; exact h1'.elim
  | some k =>
    obtain ⟨t, hk, h1⟩ := h1
    cases g' with
    | none =>
      cases p with
      | number x =>
        obtain ⟨a1, _, a2⟩ := thread_number i hk h1
        have := a2 rfl
        have := top hk
        have := hP k
        rcases (main_number i h2).1 with b | b <;> omega
      | slot j =>
        obtain ⟨_, v, hv⟩ := thread_slot h1
        have h2' : mainTouches N c w (.slot j) := h2
        unfold mainTouches at h2'
        cases hq : c.pc with
        | outer => exact wait hk hv hq
        | _ => rw [hq] at h2'; exact h2'.elim
    | some k' =>
      obtain ⟨t', hk', h2⟩ := h2
      have hkk : k ≠ k' := fun e => hne (congrArg some e)
      cases p with
      | number x =>
        obtain ⟨a1, _, a2⟩ := thread_number i hk h1
        obtain ⟨b1, b2, _⟩ := thread_number i hk' h2
        have a2 := a2 rfl
        have := hP k
        rcases Nat.lt_or_gt_of_ne hkk with hl | hl
        · have := i.mono (show k + 1 ≤ k' from hl)
          omega
        · have := i.mono (show k' + 1 ≤ k from hl)
          omega
      | slot j =>
        have e1 := (thread_slot h1).1
        have e2 := (thread_slot h2).1
        rw [i.arg k t hk] at e1
        rw [i.arg k' t' hk'] at e2
        omega

/-! ### Inputs -/

theorem low (s : Setup N L P h0 make prog target) {c : Cfg γ β} (r : Reach N B make prog h0 c) :
    ∀ x, x < L → c.heap.cell x = h0.cell x := by
  induction r with
  | init => intro x _; rfl
  | step r hs ih =>
    rename_i c c'
    intro x hx
    rw [← ih x hx]
    have hPx : x < P := lt_of_lt_of_le hx s.le
    cases hs with
    | main h1 h2 =>
      obtain ⟨⟨F, i⟩, _⟩ := (reach_inv s r).1 h1
      have hP : P ≤ F c.threads.length := i.zero ▸ i.mono (Nat.zero_le _)
      have hp := i.pc
      have htop := i.top
      unfold PcOk at hp
      unfold mainStep at h2
      cases hq : c.pc with
      | making m =>
        rw [hq] at hp h2
        cases m with
        | wr z w v k =>
          obtain rfl := Option.some.inj h2
          show (if x = z then _ else c.heap.cell x) = c.heap.cell x
          rw [if_neg]
          rintro rfl
          rcases hp.2.2.keeps.1 with h3 | h3
          · exact absurd hx (not_lt.2 h3.1)
          · have : F c.threads.length ≤ x := h3
            omega
        | new v k =>
          obtain rfl := Option.some.inj h2
          show (if x = c.heap.next then _ else c.heap.cell x) = c.heap.cell x
          rw [if_neg (by omega)]
        | _ => obtain rfl := Option.some.inj h2; rfl
      | outer =>
        rw [hq] at h2
        dsimp only at h2
        split_ifs at h2 <;> (obtain rfl := Option.some.inj h2; rfl)
      | inner =>
        rw [hq] at h2
        dsimp only at h2
        split_ifs at h2 <;> (obtain rfl := Option.some.inj h2; rfl)
      | waiting =>
        rw [hq] at h2
        dsimp only at h2
        split_ifs at h2
        obtain rfl := Option.some.inj h2
        rfl
      | saved => rw [hq] at h2; cases h2
      | _ => rw [hq] at h2; obtain rfl := Option.some.inj h2; rfl
    | thread h1 h2 =>
      rename_i k
      obtain ⟨⟨F, i⟩, _⟩ := (reach_inv s r).1 h1
      have hP : P ≤ F k := i.zero ▸ i.mono (Nat.zero_le _)
      unfold threadStep at h2
      cases hk : c.threads[k]? with
      | none => rw [hk] at h2; cases h2
      | some t =>
        rw [hk] at h2
        dsimp only at h2
        obtain ⟨hn, hok⟩ := i.thr k t hk
        unfold PhaseOk at hok
        cases hph : t.phase with
        | running m =>
          rw [hph] at h2 hok
          dsimp only at h2 hok
          cases m with
          | wr z w v m =>
            dsimp only at h2
            by_cases hz : z < t.base
            · rw [if_pos hz] at h2
              obtain rfl := Option.some.inj h2
              show (if x = z then _ else c.heap.cell x) = c.heap.cell x
              rw [if_neg]
              rintro rfl
              rcases hok.1.1 with h3 | h3
              · exact h3
              · have : F k ≤ x := h3
                omega
            · rw [if_neg hz] at h2
              obtain rfl := Option.some.inj h2
              rfl
          | _ => obtain rfl := Option.some.inj h2; rfl
        | computed v =>
          rw [hph] at h2
          dsimp only at h2
          split_ifs at h2 <;> (obtain rfl := Option.some.inj h2; rfl)
        | wrote =>
          rw [hph] at h2
          dsimp only at h2
          split_ifs at h2 <;> (obtain rfl := Option.some.inj h2; rfl)
        | finished => rw [hph] at h2; cases h2

/-! ### Results -/

theorem results (s : Setup N L P h0 make prog target) {c : Cfg γ β} (r : Reach N B make prog h0 c) (hc : c.crashed = none)
    (hs : c.pc = .saved) :
    ∃ rs, c.saved = some rs ∧ rs.length = N - 1 ∧ ∀ i, i < N - 1 → ∃ v, target (i + 1) = .ok v ∧ rs[i]? = some (some v) := by
  obtain ⟨⟨F, i⟩, n, ra⟩ := (reach_inv s r).1 hc
  obtain ⟨rs, e1, e2, e3⟩ := Props.C52_results s.one ra (by show absPc c.pc = _; rw [hs]; rfl)
  have e1 : c.saved.map absSlots = some rs := e1
  obtain ⟨l, hl, rfl⟩ := Option.map_eq_some_iff.1 e1
  refine ⟨l, hl, by rw [← e2]; exact (List.length_map _).symm, fun i hi => ?_⟩
  obtain ⟨v, h1, h2⟩ := e3 i hi
  have hv := Parallel.returns_unique h1 (Parallel.returns_inr (s := id (i + 1)) rfl)
  unfold absSlots at h2
  rw [List.getElem?_map] at h2
  obtain ⟨o, ho, h3⟩ := Option.map_eq_some_iff.1 h2
  obtain ⟨u, rfl, hu⟩ := Option.map_eq_some_iff.1 h3
  exact ⟨u, by rw [hu, hv]; rfl, ho⟩

/-! ### Progress -/

theorem main_moves {c : Cfg γ β} (h : c.pc ≠ .saved) (hw : c.pc = .waiting → c.count = 0) :
    ∃ c', mainStep N B make prog c = some c' := by
  unfold mainStep
  cases hq : c.pc with
  | outer => dsimp only; split_ifs <;> exact ⟨_, rfl⟩
  | inner => dsimp only; split_ifs <;> exact ⟨_, rfl⟩
  | making m => cases m <;> exact ⟨_, rfl⟩
  | made e => exact ⟨_, rfl⟩
  | added e => exact ⟨_, rfl⟩
  | waiting => dsimp only; rw [if_pos (hw hq)]; exact ⟨_, rfl⟩
  | saved => exact absurd hq h

theorem thread_moves {c : Cfg γ β} {k : Nat} {t : Thread β} (hk : c.threads[k]? = some t) (h : t.phase ≠ .finished) :
    ∃ c', threadStep k c = some c' := by
  unfold threadStep
  rw [hk]
  dsimp only
  cases hph : t.phase with
  | running m =>
    cases m with
    | wr z i w m => dsimp only; split_ifs <;> exact ⟨_, rfl⟩
    | _ => exact ⟨_, rfl⟩
  | computed v => dsimp only; split_ifs <;> exact ⟨_, rfl⟩
  | wrote => dsimp only; split_ifs <;> exact ⟨_, rfl⟩
  | finished => exact absurd hph h

theorem progress (s : Setup N L P h0 make prog target) {c : Cfg γ β} (r : Reach N B make prog h0 c) (hc : c.crashed = none)
    (h : c.pc ≠ .saved) : ∃ c', Step N B make prog c c' := by
  obtain ⟨⟨F, i⟩, n, ra⟩ := (reach_inv s r).1 hc
  have hinv := Parallel.inv_runs s.one ra
  by_cases hw : c.pc = .waiting → c.count = 0
  · obtain ⟨c', h'⟩ := main_moves (N := N) (B := B) (make := make) (prog := prog) h hw
    exact ⟨c', .main hc h'⟩
  · push Not at hw
    obtain ⟨hq, hz⟩ := hw
    have hcnt := hinv.cnt
    have hpc : (abs c).pc = .waiting := by show absPc c.pc = _; rw [hq]; rfl
    rw [hpc, if_neg (by intro h; cases h)] at hcnt
    have hz' : (abs c).count ≠ 0 := hz
    obtain ⟨k, t, hk, ht⟩ := Parallel.live_thread (c := abs c) (by omega)
    have hk' : (c.threads.map absThread)[k]? = some t := hk
    rw [List.getElem?_map] at hk'
    obtain ⟨u, hu, rfl⟩ := Option.map_eq_some_iff.1 hk'
    have hne : u.phase ≠ .finished := by
      intro e
      apply ht
      unfold absThread
      rw [e]
      rfl
    obtain ⟨c', h'⟩ := thread_moves hu hne
    exact ⟨c', .thread hc h'⟩

/-! ### Termination -/

/-- Steps a goroutine still needs. -/
def todo (h : Heap) (t : Thread β) : Nat :=
  match t.phase with
  | .running m => steps m (t.view h) + 2
  | .computed _ => 2
  | .wrote => 1
  | .finished => 0

/-- Steps the main goroutine needs to make the execution. -/
def making (c : Cfg γ β) : Nat :=
  match c.pc with
  | .making m => steps m c.heap
  | _ => 0

/-- Steps on memory. -/
def work (c : Cfg γ β) : Nat := (c.threads.map (todo c.heap)).sum + making c

/-- Other steps of the main goroutine. -/
def mainTodo (N : Nat) (c : Cfg γ β) : Nat :=
  match c.pc with
  | .outer => 7 * (N - c.mul) + 1
  | .inner => if c.j = 0 then 7 * (N - c.mul) else 7 * (N - c.mul) + 3
  | .making _ => 7 * (N - c.mul) - 1
  | .made _ => 7 * (N - c.mul) - 2
  | .added _ => 7 * (N - c.mul) - 3
  | .waiting => 7 * (N - c.mul) + 2
  | .saved => 0

/-- What decreases with every step. -/
def measure (N : Nat) (c : Cfg γ β) : Nat × Nat :=
  match c.crashed with
  | some _ => (0, 0)
  | none => (mainTodo N c, work c)

def Smaller : Nat × Nat → Nat × Nat → Prop := Prod.Lex (· < ·) (· < ·)

theorem smaller_wf : WellFounded Smaller := WellFounded.prod_lex Nat.lt_wfRel.wf Nat.lt_wfRel.wf

theorem todo_agree {f : Nat} {h h' : Heap} {t : Thread β} (k : PhaseOk L target f h t)
    (ag : Agree (mine L f) (t.view h) (t.view h')) : todo h' t = todo h t := by
  unfold PhaseOk at k
  unfold todo
  cases hp : t.phase with
  | running m =>
    rw [hp] at k
    dsimp only
    rw [(agree m k.1 ag).2.1]
  | _ => rfl

theorem sum_set_congr {α : Type} {f f' : α → Nat} : ∀ {l : List α} {k : Nat} {t t' : α}, l[k]? = some t →
    (∀ j s, j ≠ k → l[j]? = some s → f' s = f s) → ((l.set k t').map f').sum + f t = (l.map f).sum + f' t' := by
  intro l
  induction l with
  | nil => intro k t t' h; simp at h
  | cons a l ih =>
    intro k t t' h hc
    cases k with
    | zero =>
      obtain rfl : a = t := by simpa using h
      have : l.map f' = l.map f := List.map_congr_left fun s hs => by
        obtain ⟨j, hj⟩ := List.getElem?_of_mem hs
        exact hc (j + 1) s (by omega) (by simpa using hj)
      simp only [List.set_cons_zero, List.map_cons, List.sum_cons, this]
      omega
    | succ k =>
      have := ih (k := k) (t := t) (t' := t') (by simpa using h) fun j s hj hs => hc (j + 1) s (by omega) (by simpa using hs)
      have ha : f' a = f a := hc 0 a (by omega) (by simp)
      simp only [List.set_cons_succ, List.map_cons, List.sum_cons, ha]
      omega

/-- A step of the main goroutine on memory does not change what the others have to do. -/
theorem todo_main {F : Nat → Nat} {c : Cfg γ β} (i : Inv N B L P h0 prog target F c) {h' : Heap}
    (ch : ∀ x, ¬ (maker L P (F c.threads.length)).canWrite x → h'.cell x = c.heap.cell x) :
    c.threads.map (todo h') = c.threads.map (todo c.heap) := by
  refine List.map_congr_left fun t ht => ?_
  obtain ⟨k, hk⟩ := List.getElem?_of_mem ht
  refine todo_agree (i.thr k t hk).2 ⟨fun x hx => ?_, rfl⟩
  show (if x < t.base then h'.cell x else t.own x) = (if x < t.base then c.heap.cell x else t.own x)
  by_cases hb : x < t.base
  · rw [if_pos hb, if_pos hb]
    refine ch x fun hw => ?_
    have hkl : k < c.threads.length := (List.getElem?_eq_some_iff.1 hk).1
    have hF : F (k + 1) ≤ F c.threads.length := i.mono hkl
    have h1 := i.base k t hk
    have h2 : F 0 ≤ F k := i.mono (Nat.zero_le _)
    rw [i.zero] at h2
    rcases hw with ⟨h3, h4⟩ | h3
    · rcases hx with h5 | h5 | h5
      · have h6 : x < L := h5
        omega
      · exact h5
      · have h6 : F k ≤ x := h5
        omega
    · have h6 : F c.threads.length ≤ x := h3
      omega
  · rw [if_neg hb, if_neg hb]

theorem steps_pos {α : Type} (m : HM α) (h : Heap) : 0 < steps m h := by
  cases m <;> exact Nat.succ_pos _

theorem measure_main {F : Nat → Nat} {c c' : Cfg γ β} (hN : 1 ≤ N) (hB : 1 ≤ B) (i : Inv N B L P h0 prog target F c) {n : Nat}
    (ra : ARuns N B target n (abs c)) (h1 : c.crashed = none) (hs : mainStep N B make prog c = some c') :
    Smaller (measure N c') (measure N c) := by
  have hinv := Parallel.inv_runs hN ra
  have hpa := hinv.pcOk
  have hp := i.pc
  obtain ⟨pc, mul, j, count, heap, threads, results, saved, writes, crashed⟩ := c
  dsimp only at h1
  subst h1
  unfold PcOk at hp
  unfold Parallel.PcOk at hpa
  unfold mainStep at hs
  cases pc with
  | outer =>
    dsimp only at hs
    split_ifs at hs with hm
    · obtain rfl := Option.some.inj hs
      apply Prod.Lex.left
      show (if (0 : Nat) = 0 then 7 * (N - mul) else 7 * (N - mul) + 3) < 7 * (N - mul) + 1
      rw [if_pos rfl]
      omega
    · obtain rfl := Option.some.inj hs
      exact Prod.Lex.left _ _ (Nat.succ_pos _)
  | inner =>
    dsimp only at hs
    split_ifs at hs with hm
    · obtain rfl := Option.some.inj hs
      apply Prod.Lex.left
      show 7 * (N - mul) - 1 < (if j = 0 then 7 * (N - mul) else 7 * (N - mul) + 3)
      split_ifs <;> omega
    · obtain rfl := Option.some.inj hs
      have hj : j = 0 → mul < N := hpa.2.2
      apply Prod.Lex.left
      show 7 * (N - mul) + 2 < (if j = 0 then 7 * (N - mul) else 7 * (N - mul) + 3)
      rw [if_neg fun e => hm ⟨by omega, hj e⟩]
      omega
  | making m =>
    obtain ⟨hj, hmN, hm⟩ := hp
    cases m with
    | ret e =>
      obtain rfl := Option.some.inj hs
      apply Prod.Lex.left
      show 7 * (N - mul) - 2 < 7 * (N - mul) - 1
      dsimp only at hmN
      omega
    | fail e =>
      obtain rfl := Option.some.inj hs
      apply Prod.Lex.left
      show 0 < 7 * (N - mul) - 1
      dsimp only at hmN
      omega
    | rd x w k =>
      obtain rfl := Option.some.inj hs
      exact Prod.Lex.right _ (Nat.add_lt_add_left (Nat.lt_succ_self _) _)
    | wr z w v k =>
      obtain rfl := Option.some.inj hs
      apply Prod.Lex.right
      unfold work
      dsimp only
      rw [todo_main i fun x hx => ?_]
      · exact Nat.add_lt_add_left (Nat.lt_succ_self _) _
      · show (if x = z then _ else heap.cell x) = heap.cell x
        rw [if_neg (fun e : x = z => hx (e ▸ hm.keeps.1))]
    | new v k =>
      obtain rfl := Option.some.inj hs
      apply Prod.Lex.right
      unfold work
      dsimp only
      rw [todo_main i fun x hx => ?_]
      · exact Nat.add_lt_add_left (Nat.lt_succ_self _) _
      · show (if x = heap.next then _ else heap.cell x) = heap.cell x
        rw [if_neg (fun e : x = heap.next => hx (.inr (e ▸ i.top)))]
  | made e =>
    obtain rfl := Option.some.inj hs
    have hmN : mul < N := hp.2.1
    apply Prod.Lex.left
    show 7 * (N - mul) - 3 < 7 * (N - mul) - 2
    omega
  | added e =>
    obtain rfl := Option.some.inj hs
    have hmN : mul < N := hp.2.1
    apply Prod.Lex.left
    show (if j + 1 = 0 then 7 * (N - (mul + 1)) else 7 * (N - (mul + 1)) + 3) < 7 * (N - mul) - 3
    rw [if_neg (by omega)]
    omega
  | waiting =>
    dsimp only at hs
    split_ifs at hs with hm
    obtain rfl := Option.some.inj hs
    apply Prod.Lex.left
    show 7 * (N - mul) + 1 < 7 * (N - mul) + 2
    omega
  | saved => cases hs

/-- A step of one goroutine on memory does not change what the others and the main goroutine have to do. -/
theorem work_local (hLP : L ≤ P) {F : Nat → Nat} {c c' : Cfg γ β} (i : Inv N B L P h0 prog target F c) {k : Nat} {t t' : Thread β}
    (hk : c.threads[k]? = some t) (hth : c'.threads = c.threads.set k t') (hpc : c'.pc = c.pc)
    (hnext : c'.heap.next = c.heap.next)
    (hch : ∀ x, ¬ (x < t.base ∧ (mine L (F k)).canWrite x) → c'.heap.cell x = c.heap.cell x) :
    work c' + todo c.heap t = work c + todo c'.heap t' := by
  have hkl : k < c.threads.length := (List.getElem?_eq_some_iff.1 hk).1
  have htb := i.base k t hk
  have hPF : P ≤ F k := i.zero ▸ i.mono (Nat.zero_le _)
  have hFt : F (k + 1) ≤ F c.threads.length := i.mono hkl
  have hm : making c' = making c := by
    have hp := i.pc
    unfold PcOk at hp
    unfold making
    rw [hpc]
    cases hq : c.pc with
    | making m =>
      rw [hq] at hp
      refine (agree m hp.2.2.keeps ⟨fun x hx => hch x fun hw => ?_, hnext⟩).2.1
      obtain ⟨h1, h2 | h2⟩ := hw
      · exact h2
      · have h3 : F k ≤ x := h2
        rcases hx with h4 | h4 | h4
        · have h5 : x < P := h4
          omega
        · have h5 : x < P := h4.2
          omega
        · have h5 : F c.threads.length ≤ x := h4
          omega
    | _ => rfl
  have hsum : ((c.threads.set k t').map (todo c'.heap)).sum + todo c.heap t = (c.threads.map (todo c.heap)).sum + todo c'.heap t' := by
    refine sum_set_congr hk fun k' s hne hs => todo_agree (i.thr k' s hs).2 ⟨fun x hx => ?_, rfl⟩
    show (if x < s.base then c'.heap.cell x else s.own x) = (if x < s.base then c.heap.cell x else s.own x)
    by_cases hxb : x < s.base
    · rw [if_pos hxb, if_pos hxb]
      refine hch x fun hw => ?_
      obtain ⟨h1, h2 | h2⟩ := hw
      · exact h2
      · have h3 : F k ≤ x := h2
        have hsb := i.base k' s hs
        have hPF' : P ≤ F k' := i.zero ▸ i.mono (Nat.zero_le _)
        rcases Nat.lt_or_gt_of_ne hne with hlt | hgt
        · have := i.mono (show k' + 1 ≤ k from hlt)
          omega
        · have := i.mono (show k + 1 ≤ k' from hgt)
          rcases hx with h5 | h5 | h5
          · have h6 : x < L := h5
            omega
          · exact h5
          · have h6 : F k' ≤ x := h5
            omega
    · rw [if_neg hxb, if_neg hxb]
  unfold work
  rw [hth, hm]
  omega

theorem measure_thread (hLP : L ≤ P) {F : Nat → Nat} {c c' : Cfg γ β} (i : Inv N B L P h0 prog target F c) {k : Nat}
    (h1 : c.crashed = none) (hs : threadStep k c = some c') : Smaller (measure N c') (measure N c) := by
  have hm : measure N c = (mainTodo N c, work c) := by unfold measure; rw [h1]
  rw [hm]
  have crash : ∀ {e : Err}, 0 < work c → Smaller (measure N { c with crashed := some e }) (mainTodo N c, work c) := by
    intro e hw
    show Smaller (0, 0) _
    rcases Nat.eq_zero_or_pos (mainTodo N c) with h | h
    · rw [h]; exact Prod.Lex.right _ hw
    · exact Prod.Lex.left _ _ h
  have done : ∀ {d : Cfg γ β}, d.crashed = none → d.pc = c.pc → d.mul = c.mul → d.j = c.j → work d < work c →
      Smaller (measure N d) (mainTodo N c, work c) := by
    intro d e1 e2 e3 e4 hw
    have e5 : measure N d = (mainTodo N c, work d) := by
      unfold measure
      rw [e1]
      dsimp only
      unfold mainTodo
      rw [e2, e3, e4]
    rw [e5]
    exact Prod.Lex.right _ hw
  unfold threadStep at hs
  cases hk : c.threads[k]? with
  | none => rw [hk] at hs; cases hs
  | some t =>
    rw [hk] at hs
    dsimp only at hs
    obtain ⟨hn, hok⟩ := i.thr k t hk
    have hle : todo c.heap t ≤ work c := by
      have := work_local hLP i (c' := c) (t' := t) hk (by
        apply List.ext_getElem?
        intro j
        by_cases hj : j = k
        · subst hj; rw [List.getElem?_set_self (List.getElem?_eq_some_iff.1 hk).1, hk]
        · rw [List.getElem?_set_ne (Ne.symm hj)]) rfl rfl fun _ _ => rfl
      have h2 := sum_set_congr (f := todo c.heap) (f' := todo c.heap) (t' := { t with phase := .finished }) hk fun _ _ _ _ => rfl
      have h3 : todo c.heap ({ t with phase := .finished } : Thread β) = 0 := rfl
      unfold work
      omega
    unfold PhaseOk at hok
    cases hph : t.phase with
    | running m =>
      rw [hph] at hs hok
      dsimp only at hs hok
      obtain ⟨hkp, hout⟩ := hok
      have ht : todo c.heap t = steps m (t.view c.heap) + 2 := by unfold todo; rw [hph]
      cases m with
      | ret v =>
        obtain rfl := Option.some.inj hs
        have hw := work_local hLP i (c' := { c with threads := c.threads.set k { t with phase := .computed v } }) hk rfl rfl rfl fun _ _ => rfl
        have h2 : todo c.heap ({ t with phase := .computed v } : Thread β) = 2 := rfl
        have h3 : todo c.heap t = 3 := ht
        exact done h1 rfl rfl rfl (by dsimp only at hw; omega)
      | fail e =>
        obtain rfl := Option.some.inj hs
        have h3 : todo c.heap t = 3 := ht
        exact crash (by omega)
      | rd x w m =>
        obtain rfl := Option.some.inj hs
        have hw := work_local hLP i (c' := { c with
          threads := c.threads.set k { t with phase := .running (m (((t.view c.heap).cell x).word w)) } }) hk rfl rfl rfl fun _ _ => rfl
        have h3 : todo c.heap t = todo c.heap ({ t with phase := .running (m (((t.view c.heap).cell x).word w)) } : Thread β) + 1 := ht
        exact done h1 rfl rfl rfl (by dsimp only at hw; omega)
      | wr z w v m =>
        dsimp only at hs
        by_cases hz : z < t.base
        · rw [if_pos hz] at hs
          obtain rfl := Option.some.inj hs
          have hw := work_local hLP i (c' := { c with
            threads := c.threads.set k { t with phase := .running m },
            heap := c.heap.write z (((t.view c.heap).cell z).setWord w v) }) hk rfl rfl rfl fun x hx => by
              show (if x = z then _ else c.heap.cell x) = c.heap.cell x
              rw [if_neg fun e : x = z => hx (e ▸ ⟨hz, hkp.1⟩)]
          have h3 : todo c.heap t = todo (c.heap.write z (((t.view c.heap).cell z).setWord w v)) ({ t with phase := .running m } : Thread β) + 1 := by
            rw [ht]
            unfold todo
            dsimp only
            rw [view_write hz]
            rfl
          exact done h1 rfl rfl rfl (by dsimp only at hw; omega)
        · rw [if_neg hz] at hs
          obtain rfl := Option.some.inj hs
          have hw := work_local hLP i (c' := { c with
            threads := c.threads.set k { t with
              phase := .running m, own := fun y => if y = z then ((t.view c.heap).cell z).setWord w v else t.own y } }) hk rfl rfl rfl fun _ _ => rfl
          have h3 : todo c.heap t = todo c.heap ({ t with
              phase := .running m, own := fun y => if y = z then ((t.view c.heap).cell z).setWord w v else t.own y } : Thread β) + 1 := by
            rw [ht]
            unfold todo
            dsimp only
            rw [view_own hz]
            rfl
          exact done h1 rfl rfl rfl (by dsimp only at hw; omega)
      | new v m =>
        obtain rfl := Option.some.inj hs
        have hw := work_local hLP i (c' := { c with threads := c.threads.set k { t with
          phase := .running (m t.next), own := fun y => if y = t.next then v else t.own y, next := t.next + 1 } }) hk rfl rfl rfl fun _ _ => rfl
        have h3 : todo c.heap t = todo c.heap ({ t with
            phase := .running (m t.next), own := fun y => if y = t.next then v else t.own y, next := t.next + 1 } : Thread β) + 1 := by
          rw [ht]
          unfold todo
          dsimp only
          rw [view_new hn]
          rfl
        exact done h1 rfl rfl rfl (by dsimp only at hw; omega)
    | computed v =>
      rw [hph] at hs
      dsimp only at hs
      have h3 : todo c.heap t = 2 := by unfold todo; rw [hph]
      split_ifs at hs with h4
      · obtain rfl := Option.some.inj hs
        have hw := work_local hLP i (c' := { c with
          threads := c.threads.set k { t with phase := .wrote }, results := c.results.set t.i (some v), writes := c.writes ++ [t.i] }) hk rfl rfl rfl fun _ _ => rfl
        have h2 : todo c.heap ({ t with phase := .wrote } : Thread β) = 1 := rfl
        exact done h1 rfl rfl rfl (by dsimp only at hw; omega)
      · obtain rfl := Option.some.inj hs
        exact crash (by omega)
    | wrote =>
      rw [hph] at hs
      dsimp only at hs
      have h3 : todo c.heap t = 1 := by unfold todo; rw [hph]
      split_ifs at hs with h4
      · obtain rfl := Option.some.inj hs
        have hw := work_local hLP i (c' := { c with threads := c.threads.set k { t with phase := .finished }, count := c.count - 1 }) hk rfl rfl rfl fun _ _ => rfl
        have h2 : todo c.heap ({ t with phase := .finished } : Thread β) = 0 := rfl
        exact done h1 rfl rfl rfl (by dsimp only at hw; omega)
      · obtain rfl := Option.some.inj hs
        exact crash (by omega)
    | finished => rw [hph] at hs; cases hs

theorem measure_step (s : Setup N L P h0 make prog target) (hB : 1 ≤ B) {c c' : Cfg γ β} (r : Reach N B make prog h0 c)
    (h : Step N B make prog c c') : Smaller (measure N c') (measure N c) := by
  cases h with
  | main h1 h2 =>
    obtain ⟨⟨F, i⟩, n, ra⟩ := (reach_inv s r).1 h1
    exact measure_main s.one hB i ra h1 h2
  | thread h1 h2 =>
    obtain ⟨⟨F, i⟩, n, ra⟩ := (reach_inv s r).1 h1
    exact measure_thread s.le i h1 h2

theorem no_infinite (s : Setup N L P h0 make prog target) (hB : 1 ≤ B) (f : Nat → Cfg γ β) (h1 : f 0 = init N h0)
    (h2 : ∀ n, Step N B make prog (f n) (f (n + 1))) : False := by
  have hr : ∀ n, Reach N B make prog h0 (f n) := by
    intro n
    induction n with
    | zero => rw [h1]; exact .init
    | succ n ih => exact .step ih (h2 n)
  have key : ∀ m, ∀ n, measure N (f n) = m → False := by
    intro m
    induction m using smaller_wf.induction with
    | _ m ih =>
      intro n hn
      refine ih _ ?_ (n + 1) rfl
      rw [← hn]
      exact measure_step s hB (hr n) (h2 n)
  exact key _ 0 rfl

/-- From every state that can be reached, the program can be continued to its end. -/
theorem finishes (s : Setup N L P h0 make prog target) (hB : 1 ≤ B) {c : Cfg γ β} (r : Reach N B make prog h0 c) :
    ∃ c', Reach N B make prog h0 c' ∧ (c'.crashed = none → c'.pc = .saved) := by
  have key : ∀ m, ∀ c, Reach N B make prog h0 c → measure N c = m →
      ∃ c', Reach N B make prog h0 c' ∧ (c'.crashed = none → c'.pc = .saved) := by
    intro m
    induction m using smaller_wf.induction with
    | _ m ih =>
      intro c r hm
      by_cases hc : c.crashed = none
      · by_cases hp : c.pc = .saved
        · exact ⟨c, r, fun _ => hp⟩
        · obtain ⟨c', h⟩ := progress s r hc hp
          exact ih _ (hm ▸ measure_step s hB r h) c' (.step r h) rfl
      · exact ⟨c, r, fun h => absurd h hc⟩
  exact key _ c r rfl

end Conc
end Uni
