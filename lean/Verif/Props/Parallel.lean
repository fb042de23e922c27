import Verif.Proofs.Parallel
import Verif.Model.Main
/-! # C52: the parallel runs -/
namespace Uni.Props
open Parallel Spec

variable {σ β : Type} {N B : Nat} {start : Nat → σ} {step : σ → σ ⊕ β}

/-- Whatever the scheduler does, when the results are saved slot `i` holds the value that simulation `i + 1` returns
when it runs alone, for every slot. -/
theorem C52_results (hN : 1 ≤ N) {n : Nat} {c : Cfg σ β} (h : Runs N B start step n c) (hs : c.pc = .saved) :
    ∃ rs, c.saved = some rs ∧ rs.length = N - 1 ∧
      ∀ i, i < N - 1 → ∃ v, Returns step (start (i + 1)) v ∧ rs[i]? = some (some v) := by
  have hi := inv_runs hN h
  have hsv := hi.sv
  rw [if_pos hs] at hsv
  refine ⟨c.results, hsv, hi.slots, ?_⟩
  intro i hlt
  have hp := hi.pcOk
  unfold PcOk at hp
  rw [hs] at hp
  have hlen := hi.len
  obtain ⟨h0, hm⟩ := hp
  have hk : c.threads[i]? = some (c.threads[i]'(by omega)) := List.getElem?_eq_getElem (by omega)
  have hok := hi.ok i _ hk
  have ha := sum_zero alive c.threads h0 _ (List.mem_of_getElem? hk)
  revert hok ha
  generalize c.threads[i]'(by omega) = t
  intro hok ha
  obtain ⟨k, ph⟩ := t
  cases ph with
  | finished => exact hok
  | _ => cases ha

/-- At every moment no slot has been written twice, and a slot that has not been written is untouched; when the results
are saved each slot has been written exactly once. -/
theorem C52_once (hN : 1 ≤ N) {n : Nat} {c : Cfg σ β} (h : Runs N B start step n c) :
    c.writes.Nodup ∧ (∀ i, i < N - 1 → i ∉ c.writes → c.results[i]? = some none) ∧
      (c.pc = .saved → c.writes.Perm (List.range (N - 1))) := by
  have hi := inv_runs hN h
  refine ⟨hi.nodup, ?_, ?_⟩
  · intro i hlt hnot
    have hl : i < c.results.length := by rw [hi.slots]; exact hlt
    have hg := List.getElem?_eq_getElem hl
    cases hv : c.results[i] with
    | none => rw [hg, hv]
    | some v => exact absurd ((hi.wr i).2 ⟨v, by rw [hg, hv]⟩) hnot
  · intro hs
    obtain ⟨rs, hsv, _, hall⟩ := C52_results hN h hs
    have hsv' := hi.sv
    rw [if_pos hs, hsv] at hsv'
    obtain rfl := Option.some.inj hsv'
    rw [List.perm_ext_iff_of_nodup hi.nodup List.nodup_range]
    intro i
    rw [List.mem_range, hi.wr]
    constructor
    · rintro ⟨v, hv⟩
      have := (List.getElem?_eq_some_iff.1 hv).1
      rw [hi.slots] at this
      exact this
    · intro hlt
      obtain ⟨v, _, hv⟩ := hall i hlt
      exact ⟨v, hv⟩

/-- No goroutine panics on the shared slice or the wait group, whatever the schedule. -/
theorem C52_no_panic (hN : 1 ≤ N) {n : Nat} {c : Cfg σ β} (h : Runs N B start step n c) : c.crashed = false :=
  (inv_runs hN h).crash

/-- At most `B` goroutines are active at any moment, and the counter of the wait group never exceeds `B`. -/
theorem C52_batch (hN : 1 ≤ N) {n : Nat} {c : Cfg σ β} (h : Runs N B start step n c) :
    c.count ≤ B ∧ (c.threads.filter fun t => alive t = 1).length ≤ B := by
  have hi := inv_runs hN h
  have hc := hi.cnt
  have hp := hi.pcOk
  have hl : (c.threads.filter fun t => alive t = 1).length = live c := by
    unfold live
    generalize c.threads = l
    induction l with
    | nil => rfl
    | cons t l ih =>
      rw [List.filter_cons, List.map_cons, List.sum_cons]
      obtain ⟨i, ph⟩ := t
      cases ph <;> simp [alive] <;> simp [alive] at ih <;> omega
  rw [hl]
  unfold PcOk at hp
  cases hpc : c.pc <;> rw [hpc] at hp hc <;> simp at hp hc <;> omega

/-- There is no deadlock: until the results are saved some goroutine can move; afterwards nothing runs any more, so the
results cannot change. -/
theorem C52_no_deadlock (hN : 1 ≤ N) {n : Nat} {c : Cfg σ β} (h : Runs N B start step n c) :
    (c.pc ≠ .saved → ∃ c', Step N B start step c c') ∧ (c.pc = .saved → ∀ c', ¬ Step N B start step c c') :=
  ⟨progress (inv_runs hN h), fun hs _ => stuck (inv_runs hN h) hs⟩

/-- If every simulation returns when run alone, the number of steps of the whole program is bounded over all schedules. -/
theorem C52_terminates (hN : 1 ≤ N) (hB : 1 ≤ B) (hret : ∀ m, 1 ≤ m → m < N → ∃ v, Returns step (start m) v) :
    ∃ K, ∀ n (c : Cfg σ β), Runs N B start step n c → n ≤ K :=
  ⟨measure step start N (init N), fun n c h => by have := runs_bound hN hB hret h; omega⟩

/-- The instance of `main`: 65535 simulations in batches of 5000; simulation `mul` is the report of its execution.  When
the results are saved, entry `i` is the report for the multiplier `i + 1`. -/
theorem C52_main (fuel : Nat) (exec : Nat → Execution) (duration updateInterval : Int) {n : Nat}
    {c : Cfg Nat (Go Main.RunResult)}
    (h : Runs 65536 5000 id (fun mul => .inr (Main.runAndReport fuel (exec mul) mul duration updateInterval)) n c)
    (hs : c.pc = .saved) :
    c.saved = some ((List.range 65535).map fun i =>
      some (Main.runAndReport fuel (exec (i + 1)) ((i + 1 : Nat) : Int) duration updateInterval)) := by
  obtain ⟨rs, hsv, hlen, hall⟩ := C52_results (by norm_num) h hs
  have key : 65536 - 1 = 65535 := by norm_num
  rw [key] at hlen hall
  generalize 65535 = M at hlen hall ⊢
  rw [hsv]
  refine congrArg some (List.ext_getElem? ?_)
  intro i
  rw [List.getElem?_map]
  rcases Nat.lt_or_ge i M with hlt | hge
  · obtain ⟨v, hv, hr⟩ := hall i (by omega)
    have e := returns_unique hv (returns_inr (s := id (i + 1)) rfl)
    rw [hr, e, List.getElem?_range hlt]
    rfl
  · rw [List.getElem?_eq_none (by omega), List.getElem?_eq_none (by rw [List.length_range]; exact hge)]
    rfl

/-! ## A concrete schedule -/
namespace ParDemo

/-- Run a given schedule: `none` is the main goroutine, `some k` the `k`-th started one. -/
def runSched (N B : Nat) (start : Nat → σ) (step : σ → σ ⊕ β) : List (Option Nat) → Cfg σ β → Option (Cfg σ β)
  | [], c => some c
  | d :: ds, c =>
    if c.crashed then none
    else match (match d with
      | none => mainStep N B start c
      | some k => threadStep step k c) with
    | none => none
    | some c' => runSched N B start step ds c'

theorem runSched_runs (ds : List (Option Nat)) : ∀ {n : Nat} {c c' : Cfg σ β}, Runs N B start step n c →
    runSched N B start step ds c = some c' → ∃ m, Runs N B start step m c' := by
  induction ds with
  | nil =>
    intro n c c' h hr
    obtain rfl := Option.some.inj hr
    exact ⟨n, h⟩
  | cons d ds ih =>
    intro n c c' h hr
    unfold runSched at hr
    by_cases hc : c.crashed = true
    · rw [if_pos hc] at hr; cases hr
    · rw [if_neg hc] at hr
      have hc' : c.crashed = false := by simpa using hc
      cases d with
      | none =>
        dsimp only at hr
        cases hm : mainStep N B start c with
        | none => rw [hm] at hr; cases hr
        | some c1 => rw [hm] at hr; exact ih (.step h (.main hc' hm)) hr
      | some k =>
        dsimp only at hr
        cases hm : threadStep step k c with
        | none => rw [hm] at hr; cases hr
        | some c1 => rw [hm] at hr; exact ih (.step h (.thread hc' hm)) hr

/-- Simulation `m` counts down from `m` and returns 10 times its number: the state is (number, remaining). -/
def count (s : Nat × Nat) : (Nat × Nat) ⊕ Nat := if s.2 = 0 then .inr (10 * s.1) else .inl (s.1, s.2 - 1)

/-- Three simulations, two at a time; the second one of the first batch finishes first. -/
def sched : List (Option Nat) :=
  [none, none, none, some 0, none, none, some 1, none, some 1, some 1, some 1, some 0, some 1, some 0, some 0,
   none, none, none, none, none, some 2, some 2, some 2, some 2, some 2, some 2, none, none]

theorem demo : ((runSched 4 2 (fun m => (m, m)) count sched (init 4)).map fun c => (c.saved, c.writes, c.crashed)) =
    some (some [some 10, some 20, some 30], [1, 0, 2], false) := by decide +kernel

/-- The saved state is reachable with a schedule in which the slots are not written in order. -/
example : ∃ n c, Runs 4 2 (fun m => (m, m)) count n c ∧ c.pc = .saved ∧ c.writes = [1, 0, 2] ∧
    c.saved = some [some 10, some 20, some 30] := by
  cases hr : runSched 4 2 (fun m => (m, m)) count sched (init 4) with
  | none =>
    have := demo
    rw [hr] at this
    cases this
  | some c =>
    obtain ⟨m, hm⟩ := runSched_runs sched .init hr
    have hd := demo
    rw [hr] at hd
    have hd' := Option.some.inj hd
    simp only [Prod.mk.injEq] at hd'
    refine ⟨m, c, hm, ?_, hd'.2.1, hd'.1⟩
    have hsv := (inv_runs (by norm_num) hm).sv
    by_contra hne
    rw [if_neg hne, hd'.1] at hsv
    cases hsv

example : ∀ m, 1 ≤ m → m < 4 → ∃ v, Returns count ((fun m => (m, m)) m) v := by
  intro m _ _
  refine ⟨10 * m, m + 1, ?_⟩
  have gen : ∀ (k a : Nat), ReturnsIn count (k + 1) (a, k) (10 * a) := by
    intro k
    induction k with
    | zero => intro a; exact ⟨rfl, rfl⟩
    | succ k ih => intro a; exact ih a
  exact gen m m

end ParDemo
end Uni.Props
