import Verif.Spec.Local
import Verif.Proofs.Monotone
import Mathlib.Algebra.BigOperators.Group.Finset.Piecewise
import Mathlib.Algebra.BigOperators.Ring.Finset
/-! # Liquidity that a swap does not reach -/
namespace Uni
open U256 Spec TickData TickMath FullMath SwapMath
namespace Spec

/-- A sum over a ledger in terms of the outstanding liquidity. -/
theorem wsum_ranges (f : Int → Int → Int) (S : Finset (Int × Int)) (h : List Entry) (hS : ∀ e ∈ h, (e.lower, e.upper) ∈ S) :
    wsum f h = ∑ x ∈ S, f x.1 x.2 * outstanding h x.1 x.2 := by
  induction h with
  | nil => simp [wsum_nil, outstanding]
  | cons e h ih =>
    rw [wsum_cons, ih (fun e' he => hS e' (List.mem_cons_of_mem _ he))]
    have : ∀ x : Int × Int, f x.1 x.2 * outstanding (e :: h) x.1 x.2 =
        (if x = (e.lower, e.upper) then f e.lower e.upper * e.delta else 0) + f x.1 x.2 * outstanding h x.1 x.2 := by
      rintro ⟨l, u⟩
      unfold outstanding
      rw [wsum_cons]
      dsimp only
      by_cases hx : e.lower = l ∧ e.upper = u
      · obtain ⟨rfl, rfl⟩ := hx
        rw [if_pos ⟨rfl, rfl⟩, if_pos rfl]
        simp
        ring
      · rw [if_neg hx, if_neg (fun hc => hx (by cases hc; exact ⟨rfl, rfl⟩))]
        simp
    rw [Finset.sum_congr rfl (fun x _ => this x), Finset.sum_add_distrib, Finset.sum_ite_eq' S (e.lower, e.upper),
      if_pos (hS e List.mem_cons_self)]
    rfl

/-- Two ledgers give the same sum if the weight vanishes where they differ. -/
theorem wsum_agree {h h' : List Entry} {f : Int → Int → Int}
    (hf : ∀ e ∈ h ++ h', outstanding h e.lower e.upper = outstanding h' e.lower e.upper ∨ f e.lower e.upper = 0) :
    wsum f h = wsum f h' := by
  have a := wsum_ranges f ((h ++ h').map (fun e => (e.lower, e.upper))).toFinset h
    (fun e he => List.mem_toFinset.2 (List.mem_map.2 ⟨e, List.mem_append_left _ he, rfl⟩))
  have b := wsum_ranges f ((h ++ h').map (fun e => (e.lower, e.upper))).toFinset h'
    (fun e he => List.mem_toFinset.2 (List.mem_map.2 ⟨e, List.mem_append_right _ he, rfl⟩))
  rw [a, b]
  refine Finset.sum_congr rfl (fun x hx => ?_)
  obtain ⟨e, he, rfl⟩ := List.mem_map.1 (List.mem_toFinset.1 hx)
  rcases hf e he with c | c
  · rw [c]
  · rw [c, Int.zero_mul, Int.zero_mul]

end Spec
namespace Pool

/-- The price `P` is at the bound or before it, or strictly beyond it. -/
def Within (z : Bool) (B P : Nat) : Prop := if z then B ≤ P else P ≤ B
def Past (z : Bool) (B P : Nat) : Prop := if z then P < B else B < P

theorem past_not {z : Bool} {B P : Nat} : Past z B P ↔ ¬ Within z B P := by
  unfold Past Within
  cases z <;> simp

/-- The ticks ahead up to the bound. -/
def Zone (z : Bool) (B : Nat) (tick i : Int) : Prop :=
  -887272 ≤ i ∧ i ≤ 887272 ∧ (if z then i ≤ tick else tick < i) ∧ Within z B (ratioN i)

/-- The stores agree on the ticks ahead up to the bound. -/
structure Near (z : Bool) (B : Nat) (tick : Int) (t t' : TickData) : Prop where
  inc : Increasing t.ticks
  inc' : Increasing t'.ticks
  spacing : t.spacing = t'.spacing
  sp : 0 < t.spacing
  net : ∀ i, Zone z B tick i → (lookup t.ticks i).map (·.net) = (lookup t'.ticks i).map (·.net)

theorem Near.has {z : Bool} {B : Nat} {tick : Int} {t t' : TickData} (h : Near z B tick t t') {i : Int} (hz : Zone z B tick i) :
    Has t i ↔ Has t' i := by
  have := h.net i hz
  unfold Has
  generalize lookup t.ticks i = a at *
  generalize lookup t'.ticks i = b at *
  rcases a with _ | x <;> rcases b with _ | y <;> simp_all

/-- The search finds the same, or in both stores something beyond the bound. -/
theorem Near.next {z : Bool} {B : Nat} {tick : Int} {t t' : TickData} (h : Near z B tick t t') (hlo : -887272 ≤ tick) (hhi : tick < 887272)
    (hB1 : z = true → ratioN (-887272) < B) (hB2 : z = false → B < ratioN 887272) {n n' : Int} {b b' : Bool}
    (hx : t.nextInitializedTickWithinOneWord tick z = .ok (n, b)) (hy : t'.nextInitializedTickWithinOneWord tick z = .ok (n', b')) :
    (n = n' ∧ b = b' ∧ (b = true → Within z B (ratioN (clampTick n)) → Zone z B tick n ∧ clampTick n = n)) ∨
      (Past z B (ratioN (clampTick n)) ∧ Past z B (ratioN (clampTick n'))) := by
  have hne : t.ticks ≠ [] := by intro hc; rw [next_empty hc] at hx; cases hx
  have hne' : t'.ticks ≠ [] := by intro hc; rw [next_empty hc] at hy; cases hy
  have hsp := h.sp
  have hsp' : 0 < t'.spacing := by rw [← h.spacing]; exact hsp
  rw [past_not, past_not]
  cases z
  · obtain ⟨m, c, e, q1, q2, q3⟩ := next_up h.inc hne (by omega) tick
    rw [hx] at e
    cases e
    obtain ⟨m', c', e, q1', q2', q3'⟩ := next_up h.inc' hne' (by omega) tick
    rw [hy] at e
    cases e
    have hw : wordMax t' tick = wordMax t tick := by unfold wordMax; rw [h.spacing]
    rw [hw] at q1' q2'
    have hwt := lt_wordMax hsp tick
    have zone : ∀ i, tick < i → Within false B (ratioN (clampTick i)) → Zone false B tick i ∧ clampTick i = i := by
      intro i hi hin
      have hin' : ratioN (clampTick i) ≤ B := hin
      have hc := clampTick_eq i
      have : clampTick i ≠ 887272 := by
        intro h1; rw [h1] at hin'; have := hB2 rfl; omega
      have he : clampTick i = i := by omega
      rw [he] at hin
      exact ⟨⟨by omega, by omega, hi, hin⟩, he⟩
    by_cases k1 : Within false B (ratioN (clampTick n))
    · left
      have hn : tick < n := by
        cases b
        · rw [q2 rfl]; exact hwt
        · exact (q1 rfl).2.1
      obtain ⟨z1, z2⟩ := zone n hn k1
      cases b
      · have e1 := q2 rfl
        cases b'
        · exact ⟨by rw [e1, q2' rfl], rfl, fun hc => by cases hc⟩
        · exfalso
          obtain ⟨a1, a2, a3⟩ := q1' rfl
          have hz' : Zone false B tick n' := by
            refine ⟨by omega, by have := z1.2.1; omega, a2, ?_⟩
            have c1 : ratioN n ≤ B := z1.2.2.2
            have := ratioN_le (s := n') (t := n) (by omega) (by omega) z1.2.1
            show ratioN n' ≤ B
            omega
          have := q3 n' ((h.has hz').2 a1) a2
          have := this.2 (by omega)
          cases this
      · obtain ⟨a1, a2, a3⟩ := q1 rfl
        have b1 := q3' n ((h.has z1).1 a1) a2
        cases b'
        · have e2 := q2' rfl
          have := b1.2 (by omega)
          cases this
        · obtain ⟨c1, c2, c3⟩ := q1' rfl
          have hz' : Zone false B tick n' := by
            refine ⟨by omega, by have := z1.2.1; omega, c2, ?_⟩
            have c1 : ratioN n ≤ B := z1.2.2.2
            have := ratioN_le (s := n') (t := n) (by omega) (by omega) z1.2.1
            show ratioN n' ≤ B
            omega
          have := (q3 n' ((h.has hz').2 c1) c2).1
          exact ⟨by omega, rfl, fun _ _ => ⟨z1, z2⟩⟩
    · by_cases k2 : Within false B (ratioN (clampTick n'))
      · exfalso
        have hn : tick < n' := by
          cases b'
          · rw [q2' rfl]; exact hwt
          · exact (q1' rfl).2.1
        obtain ⟨z1, z2⟩ := zone n' hn k2
        apply k1
        have hle : n ≤ n' ∧ tick < n := by
          cases b'
          · have e1 := q2' rfl
            cases b
            · have := q2 rfl; omega
            · have := q1 rfl; omega
          · obtain ⟨a1, a2, a3⟩ := q1' rfl
            have := (q3 n' ((h.has z1).2 a1) a2).1
            refine ⟨this, ?_⟩
            cases b
            · have := q2 rfl; omega
            · have := q1 rfl; omega
        have hc := clampTick_eq n
        have hc' := clampTick_eq n'
        have c1 : ratioN (clampTick n') ≤ B := k2
        have := ratioN_le (s := clampTick n) (t := clampTick n') (by omega) (by omega) (by omega)
        show ratioN (clampTick n) ≤ B
        omega
      · exact Or.inr ⟨k1, k2⟩
  · obtain ⟨m, c, e, q1, q2, q3⟩ := next_down h.inc hne (by omega) tick
    rw [hx] at e
    cases e
    obtain ⟨m', c', e, q1', q2', q3'⟩ := next_down h.inc' hne' (by omega) tick
    rw [hy] at e
    cases e
    have hw : wordMin t' tick = wordMin t tick := by unfold wordMin; rw [h.spacing]
    rw [hw] at q1' q2'
    by_cases hwt : tick < wordMin t tick
    · left
      have h1 : b = false := by
        cases b
        · rfl
        · have := q1 rfl; omega
      have h2 : b' = false := by
        cases b'
        · rfl
        · have := q1' rfl; omega
      subst h1 h2
      exact ⟨by rw [q2 rfl, q2' rfl], rfl, fun hc => by cases hc⟩
    have zone : ∀ i, i ≤ tick → Within true B (ratioN (clampTick i)) → Zone true B tick i ∧ clampTick i = i := by
      intro i hi hin
      have hin' : B ≤ ratioN (clampTick i) := hin
      have hc := clampTick_eq i
      have : clampTick i ≠ -887272 := by
        intro h1; rw [h1] at hin'; have := hB1 rfl; omega
      have he : clampTick i = i := by omega
      rw [he] at hin
      exact ⟨⟨by omega, by omega, hi, hin⟩, he⟩
    by_cases k1 : Within true B (ratioN (clampTick n))
    · left
      have hn : n ≤ tick := by
        cases b
        · rw [q2 rfl]; omega
        · exact (q1 rfl).2.1
      obtain ⟨z1, z2⟩ := zone n hn k1
      cases b
      · have e1 := q2 rfl
        cases b'
        · exact ⟨by rw [e1, q2' rfl], rfl, fun hc => by cases hc⟩
        · exfalso
          obtain ⟨a1, a2, a3⟩ := q1' rfl
          have hz' : Zone true B tick n' := by
            refine ⟨by have := z1.1; omega, by omega, a2, ?_⟩
            have c1 : B ≤ ratioN n := z1.2.2.2
            have := ratioN_le (s := n) (t := n') z1.1 (by omega) (by omega)
            show B ≤ ratioN n'
            omega
          have := q3 n' ((h.has hz').2 a1) a2
          have := this.2 (by omega)
          cases this
      · obtain ⟨a1, a2, a3⟩ := q1 rfl
        have b1 := q3' n ((h.has z1).1 a1) a2
        cases b'
        · have e2 := q2' rfl
          have := b1.2 (by omega)
          cases this
        · obtain ⟨c1, c2, c3⟩ := q1' rfl
          have hz' : Zone true B tick n' := by
            refine ⟨by have := z1.1; omega, by omega, c2, ?_⟩
            have c1 : B ≤ ratioN n := z1.2.2.2
            have := ratioN_le (s := n) (t := n') z1.1 (by omega) (by omega)
            show B ≤ ratioN n'
            omega
          have := (q3 n' ((h.has hz').2 c1) c2).1
          exact ⟨by omega, rfl, fun _ _ => ⟨z1, z2⟩⟩
    · by_cases k2 : Within true B (ratioN (clampTick n'))
      · exfalso
        have hn : n' ≤ tick := by
          cases b'
          · rw [q2' rfl]; omega
          · exact (q1' rfl).2.1
        obtain ⟨z1, z2⟩ := zone n' hn k2
        apply k1
        have hle : n' ≤ n ∧ n ≤ tick := by
          cases b'
          · have e1 := q2' rfl
            cases b
            · have := q2 rfl; omega
            · have := q1 rfl; omega
          · obtain ⟨a1, a2, a3⟩ := q1' rfl
            have := (q3 n' ((h.has z1).2 a1) a2).1
            refine ⟨this, ?_⟩
            cases b
            · have := q2 rfl; omega
            · have := q1 rfl; omega
        have hc := clampTick_eq n
        have hc' := clampTick_eq n'
        have c1 : B ≤ ratioN (clampTick n') := k2
        have := ratioN_le (s := clampTick n') (t := clampTick n) (by omega) (by omega) (by omega)
        show B ≤ ratioN (clampTick n)
        omega
      · exact Or.inr ⟨k1, k2⟩

/-- Two steps in the same direction that do not reach their targets are the same. -/
theorem step_unreached {c t t' L a : U256} {fee : Int} {x y : Step} (hd : decide (cmp c t ≥ 0) = decide (cmp c t' ≥ 0))
    (hx : computeSwapStep c t L a fee = .ok x) (hy : computeSwapStep c t' L a fee = .ok y)
    (h1 : x.next.toNat ≠ t.toNat) (h2 : y.next.toNat ≠ t'.toNat) : x = y := by
  unfold computeSwapStep at hx hy
  rw [hd] at hx
  generalize decide (cmp c t' ≥ 0) = z at *
  generalize decide (sign a ≥ 0) = e at *
  dsimp only at hx hy
  obtain ⟨u, u1, hx⟩ := bind_ok hx
  obtain ⟨v, v1, hy⟩ := bind_ok hy
  have hx' : x.next = u.1 := by
    obtain ⟨w, w1, hx⟩ := bind_ok hx
    split at hx
    · cases hx; rfl
    · obtain ⟨g, g1, hx⟩ := bind_ok hx
      cases hx; rfl
  have hy' : y.next = v.1 := by
    obtain ⟨w, w1, hy⟩ := bind_ok hy
    split at hy
    · cases hy; rfl
    · obtain ⟨g, g1, hy⟩ := bind_ok hy
      cases hy; rfl
  rw [hx'] at h1
  rw [hy'] at h2
  have huv : u.1 = v.1 := by
    unfold stepPrice at u1 v1
    cases e
    · rw [if_neg (by decide)] at u1 v1
      obtain ⟨o, o1, u1⟩ := bind_ok u1
      obtain ⟨o', o1', v1⟩ := bind_ok v1
      by_cases c1 : cmp (neg a) o ≥ 0
      · rw [if_pos c1] at u1; cases u1; exact absurd rfl h1
      by_cases c2 : cmp (neg a) o' ≥ 0
      · rw [if_pos c2] at v1; cases v1; exact absurd rfl h2
      rw [if_neg c1] at u1
      rw [if_neg c2] at v1
      obtain ⟨n, n1, u1⟩ := bind_ok u1
      obtain ⟨n', n1', v1⟩ := bind_ok v1
      rw [n1] at n1'
      cases n1'
      cases u1
      cases v1
      rfl
    · rw [if_pos rfl] at u1 v1
      obtain ⟨l, l1, u1⟩ := bind_ok u1
      obtain ⟨l', l1', v1⟩ := bind_ok v1
      rw [l1] at l1'
      cases l1'
      obtain ⟨o, o1, u1⟩ := bind_ok u1
      obtain ⟨o', o1', v1⟩ := bind_ok v1
      by_cases c1 : cmp l o ≥ 0
      · rw [if_pos c1] at u1; cases u1; exact absurd rfl h1
      by_cases c2 : cmp l o' ≥ 0
      · rw [if_pos c2] at v1; cases v1; exact absurd rfl h2
      rw [if_neg c1] at u1
      rw [if_neg c2] at v1
      obtain ⟨n, n1, u1⟩ := bind_ok u1
      obtain ⟨n', n1', v1⟩ := bind_ok v1
      rw [n1] at n1'
      cases n1'
      cases u1
      cases v1
      rfl
  rw [huv] at hx h1
  have m1 : decide (cmp t v.1 = 0) = false := decide_eq_false (fun hc => h1 ((cmp_eq0 _ _).1 hc).symm)
  have m2 : decide (cmp t' v.1 = 0) = false := decide_eq_false (fun hc => h2 ((cmp_eq0 _ _).1 hc).symm)
  have m3 : decide (cmp v.1 t ≠ 0) = true := decide_eq_true (fun hc => h1 ((cmp_eq0 _ _).1 hc))
  have m4 : decide (cmp v.1 t' ≠ 0) = true := decide_eq_true (fun hc => h2 ((cmp_eq0 _ _).1 hc))
  rw [m1, m3, stepAmounts_eq] at hx
  rw [m2, m4, stepAmounts_eq] at hy
  unfold reassign at hx hy
  simp only [Bool.false_and, Bool.not_false, if_true] at hx hy
  rw [hx] at hy
  cases hy
  rfl

/-! ### One iteration -/

theorem tick_up {p : Pool} {h : List Entry} {sp : Int} {ein : Bool} {limit : U256} {s s' : SwapState} {st : Step} {T : U256}
    (hs : SInv h sp false ein limit s) (hx : swapStep p false ein limit s = .ok s') (hf : StepFacts p h false ein limit s s' st T) :
    s.tick ≤ s'.tick := by
  have hsp := hs.inv.spacing
  have hpos : 0 < s.ticks.spacing := by rw [hsp]; exact hs.inv.sp_pos
  have htlo := hs.inv.tlo
  have hthi := hs.inv.thi
  obtain ⟨n, b, pn, x, g, h1, h2, h3, h4, h5⟩ := swapStep_inv hx
  have hne : s.ticks.ticks ≠ [] := by intro hc; rw [next_empty hc] at h1; cases h1
  obtain ⟨m, c, e, q1, q2, q3⟩ := next_up hs.inv.ticks.inc hne (by omega) s.tick
  rw [h1] at e
  cases e
  have hn : s.tick < n := by
    cases b
    · rw [q2 rfl]; exact lt_wordMax hpos _
    · exact (q1 rfl).2.1
  have hcl := clampTick_eq n
  rcases finishStep_inv h5 with ⟨c1, c2, c3⟩ | ⟨c1, c2, c, c3, c4⟩ | ⟨c1, c2, t, c3, c4⟩ | ⟨c1, c2, c3⟩
  · rw [if_neg (show ¬ (false = true) by decide)] at c3
    rw [c3]
    show s.tick ≤ clampTick n
    omega
  · rw [if_neg (show ¬ (false = true) by decide), if_neg (show ¬ (false = true) by decide)] at c4
    rw [c4]
    show s.tick ≤ clampTick n
    omega
  · obtain ⟨t1, t2, t3, t4⟩ := getTickAtSqrtRatio_ok c3
    have hb := hf.spec.between
    rw [← hf.price, c4] at hb
    have hu := (hf.up rfl).1
    rw [c4]
    show s.tick ≤ t
    dsimp only at hb t3 t4
    have := hs.inv.plo
    by_contra hc
    have := ratioN_le (s := t + 1) (t := s.tick) (by omega) (by omega) (by omega)
    omega
  · rw [c3]

theorem tick_down {p : Pool} {h : List Entry} {sp : Int} {ein : Bool} {limit : U256} {s s' : SwapState} {st : Step} {T : U256}
    (hs : SInv h sp true ein limit s) (hf : StepFacts p h true ein limit s s' st T) (hfall : Falling sp true s) :
    s'.tick ≤ s.tick := by
  have hsp := hs.inv.spacing
  have hpos : 0 < s.ticks.spacing := by rw [hsp]; exact hs.inv.sp_pos
  have htlo := hs.inv.tlo
  have hthi := hs.inv.thi
  by_cases hw : wordMin s.ticks s.tick ≤ s.tick
  · rcases hf.good rfl hw with ⟨_, h2⟩ | ⟨h1, _⟩ <;> omega
  · obtain ⟨_, h2, h3, _⟩ := hf.bad rfl (by omega)
    obtain ⟨k, k1, k2, k3⟩ := (wordMin_gt_iff hpos s.tick).1 (by omega)
    rw [wordMin_eq hpos k1 k2 k3] at h3
    rcases hfall.2 with hgood | ⟨j, j1, j2, j3⟩
    · rw [← hsp, good_iff hpos] at hgood; exact absurd hgood hw
    · rw [hsp] at k2 k3 h3
      have hp := hs.inv.sp_pos
      have e1 : 256 * j * sp < (256 * k + 1) * sp := by rw [add_mul]; omega
      have e2 : (256 * k - 1) * sp < 256 * j * sp := by rw [sub_mul]; omega
      have := lt_of_mul_lt_mul_right e1 (le_of_lt hp)
      have := lt_of_mul_lt_mul_right e2 (le_of_lt hp)
      have hkj : j = k := by omega
      rw [hkj] at j2
      omega

/-- The tick moves in the direction of the swap. -/
theorem tick_ahead {p : Pool} {h : List Entry} {sp : Int} {z ein : Bool} {limit : U256} {s s' : SwapState} {st : Step} {T : U256}
    (hs : SInv h sp z ein limit s) (hx : swapStep p z ein limit s = .ok s') (hf : StepFacts p h z ein limit s s' st T)
    (hg : Going (!z) sp z s) : if z then s'.tick ≤ s.tick else s.tick ≤ s'.tick := by
  cases z
  · exact tick_up hs hx hf
  · exact tick_down hs hf hg

theorem Near.ahead {z : Bool} {B : Nat} {a b : Int} {t t' : TickData} (h : Near z B a t t') (hab : if z then b ≤ a else a ≤ b) :
    Near z B b t t' := by
  refine ⟨h.inc, h.inc', h.spacing, h.sp, fun i hi => h.net i ⟨hi.1, hi.2.1, ?_, hi.2.2.2⟩⟩
  have := hi.2.2.1
  cases z
  · rw [if_neg (by decide)] at this hab ⊢; omega
  · rw [if_pos rfl] at this hab ⊢; omega

theorem Near.cross {z : Bool} {B : Nat} {tick : Int} {t t' : TickData} (h : Near z B tick t t') {n : Int} (hn : Zone z B tick n)
    {g0 g1 g0' g1' : U256} {c c' : U256 × TickData} (hx : t.cross n g0 g1 = .ok c) (hy : t'.cross n g0' g1' = .ok c') :
    c.1 = c'.1 ∧ Near z B tick c.2 c'.2 := by
  have hnet := h.net n hn
  rcases ex : lookup t.ticks n with _ | x
  · rw [cross_none h.inc ex] at hx; cases hx
  rcases ey : lookup t'.ticks n with _ | y
  · rw [cross_none h.inc' ey] at hy; cases hy
  rw [ex, ey] at hnet
  have hxy : x.net = y.net := by simpa using hnet
  obtain ⟨ts, e1, e2, e3⟩ := cross_some h.inc ex g0 g1
  obtain ⟨ts', e1', e2', e3'⟩ := cross_some h.inc' ey g0' g1'
  rw [e1] at hx
  rw [e1'] at hy
  cases hx
  cases hy
  refine ⟨hxy, e2, e2', h.spacing, h.sp, ?_⟩
  intro j hj
  dsimp only
  rw [e3 j, e3' j]
  by_cases hc : j = n
  · rw [if_pos hc, if_pos hc]
    simp [hxy]
  · rw [if_neg hc, if_neg hc]
    exact h.net j hj

/-- The loop states agree, except for ticks that are passed or beyond the bound; the growth has increased by the same amount. -/
structure Like (z : Bool) (B : Nat) (g g' : U256) (s t : SwapState) : Prop where
  remaining : s.remaining = t.remaining
  calculated : s.calculated = t.calculated
  price : s.price = t.price
  tick : s.tick = t.tick
  liquidity : s.liquidity = t.liquidity
  growth : sub s.growth g = sub t.growth g'
  ticks : Near z B s.tick s.ticks t.ticks

theorem accrue_like {fee L a a' b b' g g' : U256} (hx : accrue fee L a = .ok a') (hy : accrue fee L b = .ok b')
    (h : sub a g = sub b g') : sub a' g = sub b' g' := by
  unfold accrue at hx hy
  by_cases hs : sign L > 0
  · rw [if_pos hs] at hx hy
    obtain ⟨f, f1, hx⟩ := bind_ok hx
    obtain ⟨f', f1', hy⟩ := bind_ok hy
    rw [f1] at f1'
    cases f1'
    cases hx
    cases hy
    apply ext_toNat
    have h1 : (sub a g).toNat = (sub b g').toNat := by rw [h]
    rw [toNat_sub, toNat_sub] at h1
    rw [toNat_sub, toNat_sub, toNat_add, toNat_add]
    have := toNat_lt a
    have := toNat_lt b
    have := toNat_lt f
    have := toNat_lt g
    have := toNat_lt g'
    omega
  · rw [if_neg hs] at hx hy
    cases hx
    cases hy
    exact h

/-- The end of an iteration that reaches the same tick price in both pools, or the price of no tick in either. -/
theorem finish_like {p q : Pool} {z b b' : Bool} {B : Nat} {n n' : Int} {pn pn' g g' : U256} {s0 t0 s t s' t' : SwapState}
    (h : Like z B g g' s t) (h0 : s0.price = t0.price)
    (hc : (n = n' ∧ b = b' ∧ pn = pn' ∧ (b = true → s.price.toNat = pn.toNat → Zone z B s.tick n)) ∨
      (s.price.toNat ≠ pn.toNat ∧ s.price.toNat ≠ pn'.toNat))
    (hx : finishStep p z b n pn s0 s = .ok s') (hy : finishStep q z b' n' pn' t0 t = .ok t')
    (hab : if z then s'.tick ≤ s.tick else s.tick ≤ s'.tick) : Like z B g g' s' t' := by
  have hy' := finishStep_inv hy
  rw [← h.price, ← h0] at hy'
  rcases finishStep_inv hx with ⟨c1, c2, c3⟩ | ⟨c1, c2, c, c3, c4⟩ | ⟨c1, c2, u, c3, c4⟩ | ⟨c1, c2, c3⟩
  · obtain ⟨rfl, rfl, rfl, hz⟩ := hc.resolve_right (fun hc => hc.1 c1)
    rcases hy' with ⟨d1, d2, d3⟩ | ⟨d1, d2, d, d3, d4⟩ | ⟨d1, d2, v, d3, d4⟩ | ⟨d1, d2, d3⟩
    · subst c3 d3
      exact ⟨h.remaining, h.calculated, rfl, rfl, h.liquidity, h.growth, h.ticks.ahead hab⟩
    · rw [c2] at d2; cases d2
    · exact absurd c1 d1
    · exact absurd c1 d1
  · obtain ⟨rfl, rfl, rfl, hz⟩ := hc.resolve_right (fun hc => hc.1 c1)
    rcases hy' with ⟨d1, d2, d3⟩ | ⟨d1, d2, d, d3, d4⟩ | ⟨d1, d2, v, d3, d4⟩ | ⟨d1, d2, d3⟩
    · rw [c2] at d2; cases d2
    · obtain ⟨e1, e2⟩ := h.ticks.cross (hz c2 c1) c3 d3
      subst c4 d4
      refine ⟨h.remaining, h.calculated, rfl, rfl, ?_, h.growth, e2.ahead hab⟩
      dsimp only
      rw [h.liquidity, e1]
    · exact absurd c1 d1
    · exact absurd c1 d1
  · rcases hy' with ⟨d1, d2, d3⟩ | ⟨d1, d2, d, d3, d4⟩ | ⟨d1, d2, v, d3, d4⟩ | ⟨d1, d2, d3⟩
    · rcases hc with ⟨_, _, hpn, _⟩ | ⟨_, hc⟩
      · rw [hpn] at c1; exact absurd d1 c1
      · exact absurd d1 hc
    · rcases hc with ⟨_, _, hpn, _⟩ | ⟨_, hc⟩
      · rw [hpn] at c1; exact absurd d1 c1
      · exact absurd d1 hc
    · rw [c3] at d3
      cases d3
      subst c4 d4
      exact ⟨h.remaining, h.calculated, rfl, rfl, h.liquidity, h.growth, h.ticks.ahead hab⟩
    · exact absurd d2 c2
  · rcases hy' with ⟨d1, d2, d3⟩ | ⟨d1, d2, d, d3, d4⟩ | ⟨d1, d2, v, d3, d4⟩ | ⟨d1, d2, d3⟩
    · rcases hc with ⟨_, _, hpn, _⟩ | ⟨_, hc⟩
      · rw [hpn] at c1; exact absurd d1 c1
      · exact absurd d1 hc
    · rcases hc with ⟨_, _, hpn, _⟩ | ⟨_, hc⟩
      · rw [hpn] at c1; exact absurd d1 c1
      · exact absurd d1 hc
    · exact absurd c2 d2
    · subst c3 d3
      exact h

/-- One iteration in both pools, if the first does not go beyond the bound and the second does not reach a target beyond it. -/
theorem step_like {p q : Pool} {h h' : List Entry} {sp : Int} {z ein : Bool} {B : Nat} {limit g g' : U256} {s t s' t' : SwapState}
    {x y : Step} {T T' : U256} (hfee : p.fee = q.fee) (hl : Like z B g g' s t) (hs : SInv h sp z ein limit s)
    (hB1 : z = true → ratioN (-887272) < B) (hB2 : z = false → B < ratioN 887272)
    (hx : swapStep p z ein limit s = .ok s') (hy : swapStep q z ein limit t = .ok t')
    (hf : StepFacts p h z ein limit s s' x T) (hf' : StepFacts q h' z ein limit t t' y T')
    (hg : Going (!z) sp z s) (hw0 : Within z B s.price.toNat) (hw : Within z B s'.price.toNat)
    (hstop : Past z B T.toNat → Past z B T'.toNat → x.next.toNat ≠ T.toNat → y.next.toNat ≠ T'.toNat) : Like z B g g' s' t' := by
  have hab := tick_ahead hs hx hf hg
  have hpr := hf.price
  obtain ⟨n, b, pn, a1, a2, a3⟩ := hf.tgt
  obtain ⟨n', b', pn', b1, b2, b3⟩ := hf'.tgt
  obtain ⟨m, c, r, u, v, c1, c2, c3, c4, c5⟩ := swapStep_inv hx
  obtain ⟨m', c', r', u', v', d1, d2, d3, d4, d5⟩ := swapStep_inv hy
  have hst := hf.step
  have hst' := hf'.step
  rw [a1] at c1
  cases c1
  rw [a2] at c2
  cases c2
  rw [← a3, hst] at c3
  cases c3
  rw [b1] at d1
  cases d1
  rw [b2] at d2
  cases d2
  rw [← b3, hst'] at d3
  cases d3
  rw [← hl.price, ← hl.liquidity, ← hl.remaining, ← hfee] at hst'
  rw [← hl.tick] at b1
  rw [← hl.liquidity] at d4
  rw [hpr] at hw
  have hpn := (getSqrtRatioAtTick_ok a2).2.2
  have hpn' := (getSqrtRatioAtTick_ok b2).2.2
  have fin : x = y → ((clampTick n = clampTick n' ∧ b = b' ∧ pn = pn' ∧ (b = true → x.next.toNat = pn.toNat → Zone z B s.tick (clampTick n))) ∨
      (x.next.toNat ≠ pn.toNat ∧ x.next.toNat ≠ pn'.toNat)) → Like z B g g' s' t' := by
    intro hxy hc
    subst hxy
    refine finish_like ?_ hl.price hc c5 d5 hab
    refine ⟨?_, ?_, rfl, hl.tick, hl.liquidity, accrue_like c4 d4 hl.growth, hl.ticks⟩
    · dsimp only; rw [hl.remaining]
    · dsimp only; rw [hl.calculated]
  rcases hl.ticks.next hs.inv.tlo hs.inv.thi hB1 hB2 a1 b1 with ⟨rfl, rfl, hz⟩ | ⟨k1, k2⟩
  · rw [a2] at b2
    cases b2
    rw [a3] at hst
    rw [b3, hst] at hst'
    cases hst'
    refine fin rfl (Or.inl ⟨rfl, rfl, rfl, ?_⟩)
    intro e1 e2
    obtain ⟨z1, z2⟩ := hz e1 (by rw [← hpn, ← e2]; exact hw)
    rw [z2]
    exact z1
  · rw [← hpn] at k1
    rw [← hpn'] at k2
    have ne : ∀ P, Past z B P → x.next.toNat ≠ P := by
      intro P hP he
      rw [he] at hw
      exact past_not.1 hP hw
    refine fin ?_ (Or.inr ⟨ne _ k1, ne _ k2⟩)
    by_cases hlim : Within z B limit.toNat
    · have e : ∀ r : U256, Past z B r.toNat → pickTarget z r limit = limit := by
        intro r hr
        apply ext_toNat
        unfold Past Within at *
        cases z
        · rw [pickTarget_up]; rw [if_neg (by decide)] at hr hlim; omega
        · rw [pickTarget_down]; rw [if_pos rfl] at hr hlim; omega
      rw [a3, e _ k1] at hst
      rw [b3, e _ k2, hst] at hst'
      cases hst'
      rfl
    · rw [← past_not] at hlim
      have e : ∀ r : U256, Past z B r.toNat → Past z B (pickTarget z r limit).toNat := by
        intro r hr
        unfold Past at *
        cases z
        · rw [pickTarget_up]; rw [if_neg (by decide)] at hr hlim ⊢; omega
        · rw [pickTarget_down]; rw [if_pos rfl] at hr hlim ⊢; omega
      have p1 := e _ k1
      have p2 := e _ k2
      rw [← a3] at p1
      rw [← b3] at p2
      refine step_unreached ?_ hst hst' (ne _ p1) (hstop p1 p2 (ne _ p1))
      have dir : ∀ r : U256, Past z B r.toNat → decide (cmp s.price r ≥ 0) = z := by
        intro r hr
        unfold Past Within at *
        cases z
        · rw [if_neg (by decide)] at hr hw0
          refine decide_eq_false (fun hc => ?_)
          have := (cmp_lt0 s.price r).2 (by omega)
          omega
        · rw [if_pos rfl] at hr hw0
          refine decide_eq_true ?_
          by_contra hc
          have := (cmp_lt0 s.price r).1 (by omega)
          omega
      rw [dir _ p1, dir _ p2]

/-- A step of exact input that does not reach its target does not reach another target beyond the bound either. -/
theorem not_reached {C T T' L fee n i o f n' i' o' f' B : Nat} {r : Int} {z : Bool} (hs : Spec.SwapStep C T L r fee n i o f)
    (hs' : Spec.SwapStep C T' L r fee n' i' o' f') (hr : 0 ≤ r) (hfee : fee < 1000000) (hC : 0 < C) (hT0 : 0 < T) (hT0' : 0 < T')
    (hwC : Within z B C) (hw : Within z B n) (hT : Past z B T) (hT' : Past z B T')
    (hsm : z = true → L * 2 ^ 96 + r * (1000000 - fee : Nat) / 1000000 * C < 2 ^ 256) (hn : n ≠ T) : n' ≠ T' := by
  intro he
  have hfm : ((1000000 - fee : Nat) : Int) + fee = 1000000 := by omega
  have hile : (i' : Int) ≤ r * (1000000 - fee : Nat) / 1000000 := by
    rw [Int.le_ediv_iff_mul_le (by norm_num)]
    have h1 := hs'.feeRate
    have h2 := hs'.budget hr
    have h1' : (i' : Int) * fee ≤ f' * (1000000 - fee : Nat) := by exact_mod_cast h1
    push_cast at h2
    generalize ((1000000 - fee : Nat) : Int) = m at *
    nlinarith
  have hin := hs'.input
  rw [he] at hin
  have hb := hs.between
  have dir : decide (T ≤ C) = z ∧ decide (T' ≤ C) = z := by
    unfold Past Within at *
    cases z
    · rw [if_neg (by decide)] at hwC hT hT'
      exact ⟨decide_eq_false (by omega), decide_eq_false (by omega)⟩
    · rw [if_pos rfl] at hwC hT hT'
      exact ⟨decide_eq_true (by omega), decide_eq_true (by omega)⟩
  rw [dir.2] at hin
  by_cases hfar : if z then T ≤ T' else T' ≤ T
  · have := hs.farInStrict hr hn (by
      intro hTC
      apply hsm
      rw [← dir.1]
      exact decide_eq_true hTC) T' (by
        unfold Past Within at *
        cases z
        · rw [if_neg (by decide)] at *; omega
        · rw [if_pos rfl] at *; omega)
    rw [dir.1, ← hin] at this
    omega
  · apply hn
    apply hs.reachIn hr
    rw [dir.1]
    refine le_trans ?_ hile
    rw [hin]
    have hre : Reach C T T' := by
      unfold Reach Past Within at *
      cases z
      · rw [if_neg (by decide)] at *; omega
      · rw [if_pos rfl] at *; omega
    exact_mod_cast in_mono z hC hT0 hT0' hre

/-! ### The loop -/

/-- What rules out that the second swap goes on where the first one stops. -/
def Ends (z ein : Bool) (B : Nat) (s t' : SwapState) : Prop :=
  Within z B t'.price.toNat ∨ (ein = true ∧ (z = true → s.remaining.toInt * s.price.toNat < 2 ^ 255))

theorem ahead_within {z : Bool} {B P Q : Nat} (h : Ahead (!z) P Q) (hw : Within z B Q) : Within z B P := by
  unfold Ahead Within at *
  cases z
  · simp at h hw ⊢; omega
  · simp at h hw ⊢; omega

theorem loop_like {p q : Pool} {h h' : List Entry} {sp : Int} {z ein : Bool} {B : Nat} {limit g g' : U256} (hfee : p.fee = q.fee)
    (hf0 : 0 ≤ p.fee) (hf1 : p.fee < 1000000) (hB1 : z = true → ratioN (-887272) < B) (hB2 : z = false → B < ratioN 887272)
    (fuel fuel' : Nat) {s t s' t' : SwapState} (hs : SInv h sp z ein limit s) (ht : SInv h' sp z ein limit t)
    (hl : Like z B g g' s t) (hg : Going (!z) sp z s) (hg' : Going (!z) sp z t)
    (hx : swapLoop p z ein limit fuel s = .ok s') (hy : swapLoop q z ein limit fuel' t = .ok t')
    (hw : Within z B s'.price.toNat) (he : Ends z ein B s t') : Like z B g g' s' t' := by
  have hf0' : 0 ≤ q.fee := by rw [← hfee]; exact hf0
  have hf1' : q.fee < 1000000 := by rw [← hfee]; exact hf1
  induction fuel generalizing s t fuel' with
  | zero => cases hx
  | succ k ih =>
    have hr' : running limit s = running limit t := by unfold running; rw [hl.remaining, hl.price]
    by_cases hr : running limit s = true
    · have hx0 := hx
      unfold swapLoop at hx
      rw [if_pos hr] at hx
      obtain ⟨s1, hx1, hx2⟩ := bind_ok hx
      cases fuel' with
      | zero => cases hy
      | succ k' =>
        rw [hr'] at hr
        unfold swapLoop at hy
        rw [if_pos hr] at hy
        obtain ⟨t1, hy1, hy2⟩ := bind_ok hy
        rw [← hr'] at hr
        obtain ⟨x, T, hs1, hf, hR⟩ := step_inv hs hf0 hf1 hr hx1
        rw [hr'] at hr
        obtain ⟨y, T', ht1, hf', hR'⟩ := step_inv ht hf0' hf1' hr hy1
        rw [← hr'] at hr
        have run1 := Run.step Run.refl hs hr hf hR hs1
        have run1' := Run.step Run.refl ht (by rw [← hr']; exact hr) hf' hR' ht1
        obtain ⟨g1, g2⟩ := run_going run1 hg
        obtain ⟨g1', g2'⟩ := run_going run1' hg'
        obtain ⟨⟨_, _, _, rx⟩, _, _⟩ := loop_run hs1 hf0 hf1 hx2
        obtain ⟨⟨_, _, _, ry⟩, _, _⟩ := loop_run ht1 hf0' hf1' hy2
        have hw1 := ahead_within (run_going rx g1).2 hw
        have hw0 := ahead_within g2 hw1
        have hl1 : Like z B g g' s1 t1 := by
          refine step_like hfee hl hs hB1 hB2 hx1 hy1 hf hf' hg hw0 hw1 ?_
          intro p1 p2 hn
          rcases he with he | ⟨he, hsm⟩
          · have := ahead_within (run_going ry g1').2 he
            rw [hf'.price] at this
            intro hc
            rw [hc] at this
            exact past_not.1 p2 this
          · have sp2 := hf'.spec
            rw [← hl.price, ← hl.liquidity, ← hl.remaining, ← hfee] at sp2
            have hrem := hs.remIn he
            have hC : 0 < s.price.toNat := by have := hs.inv.priceOk.lo; omega
            have pos : ∀ {T : U256}, (z = true → limit.toNat ≤ T.toNat) → (z = false → s.price.toNat ≤ T.toNat ∧ T.toNat ≤ limit.toNat) → 0 < T.toNat := by
              intro T t1 t2
              cases z
              · have := (t2 rfl).1; omega
              · have h1 := t1 rfl
                have h2 := (hs.down rfl).2
                omega
            refine not_reached hf.spec sp2 hrem (by omega) hC (pos hf.down hf.up)
              (pos hf'.down (fun hz => by have := hf'.up hz; rw [← hl.price] at this; exact this)) hw0
              (by rw [← hf.price]; exact hw1) p1 p2 ?_ hn
            intro hz
            have h1 := hsm hz
            have h2 := hs.inv.liq_lt
            have h3 : s.remaining.toInt * ((1000000 - p.fee.toNat : Nat) : Int) / 1000000 ≤ s.remaining.toInt := by
              apply Int.ediv_le_of_le_mul (by norm_num)
              apply Int.mul_le_mul_of_nonneg_left _ hrem
              omega
            have h4 : s.remaining.toInt * ((1000000 - p.fee.toNat : Nat) : Int) / 1000000 * (s.price.toNat : Int) ≤ s.remaining.toInt * s.price.toNat :=
              Int.mul_le_mul_of_nonneg_right h3 (by omega)
            generalize s.remaining.toInt * ((1000000 - p.fee.toNat : Nat) : Int) / 1000000 * (s.price.toNat : Int) = A at *
            have h5 : ((s.liquidity.toNat : Int)) * 2 ^ 96 < 2 ^ 224 := by
              have : (s.liquidity.toNat : Int) < 2 ^ 128 := by exact_mod_cast h2
              omega
            omega
        refine ih k' hs1 ht1 hl1 g1 g1' hx2 hy2 ?_
        rcases he with he | ⟨he, hsm⟩
        · exact Or.inl he
        · refine Or.inr ⟨he, fun hz => ?_⟩
          have h1 := hsm hz
          have h2 := hR.remIn he
          have h3 := hs1.remIn he
          have h4 : s1.price.toNat ≤ s.price.toNat := by
            subst hz
            exact g2
          have h5 : s1.remaining.toInt * (s1.price.toNat : Int) ≤ s.remaining.toInt * s.price.toNat :=
            Int.mul_le_mul (by omega) (by exact_mod_cast h4) (by omega) (by omega)
          omega
    · have hr1 := Bool.eq_false_iff.2 hr
      have e1 := loop_halt hr1 hx
      have e2 := loop_halt (by rw [← hr']; exact hr1) hy
      rw [e1, e2]
      exact hl

/-! ### The swap -/

theorem near_init {h h' : List Entry} {p q : Pool} (hi : Inv h p) (hi' : Inv h' q) (hsp : p.spacing = q.spacing) (ht : p.tick = q.tick)
    {z : Bool} {B : Nat} (hw : Within z B p.price.toNat)
    (ho : ∀ l u, outstanding h l u = outstanding h' l u ∨ Misses z p.tick B l u) :
    p.liquidity = q.liquidity ∧ Near z B p.tick p.ticks q.ticks := by
  have hplo := hi.plo
  have hphi := hi.phi
  have htlo := hi.tlo
  have hthi := hi.thi
  have ok : ∀ e ∈ h ++ h', -887272 ≤ e.lower ∧ e.lower < e.upper ∧ e.upper ≤ 887272 := by
    intro e he
    rcases List.mem_append.1 he with he | he
    · exact ⟨(hi.bounds e he).1, hi.cov.range e he, (hi.bounds e he).2⟩
    · exact ⟨(hi'.bounds e he).1, hi'.cov.range e he, (hi'.bounds e he).2⟩
  -- a range that is missed does not contain the tick, and has no boundary in the zone
  have miss : ∀ l u, -887272 ≤ l ∧ l < u ∧ u ≤ 887272 → Misses z p.tick B l u →
      ¬ (l ≤ p.tick ∧ p.tick < u) ∧ ∀ i, Zone z B p.tick i → l ≠ i ∧ u ≠ i := by
    rintro l u ⟨o1, o2, o3⟩ hm
    unfold Misses at hm
    rw [Props.tickPrice_eq o1 (by omega), Props.tickPrice_eq (by omega) o3] at hm
    have hlu := ratioN_lt (s := l) (t := u) o1 o2 o3
    unfold Zone Within at *
    cases z
    · simp only [Bool.false_eq_true, if_false] at hm hw ⊢
      refine ⟨?_, ?_⟩
      · rintro ⟨a1, a2⟩
        have := ratioN_le (s := l) (t := p.tick) o1 a1 (by omega)
        omega
      · rintro i ⟨i1, i2, i3, i4⟩
        constructor
        · rintro rfl; omega
        · rintro rfl; omega
    · simp only [if_true] at hm hw ⊢
      refine ⟨?_, ?_⟩
      · rintro ⟨a1, a2⟩
        have := ratioN_le (s := p.tick + 1) (t := u) (by omega) (by omega) o3
        omega
      · rintro i ⟨i1, i2, i3, i4⟩
        constructor
        · rintro rfl; omega
        · rintro rfl; omega
  constructor
  · apply ext_toNat
    have h1 := hi.liq
    have h2 := hi'.liq
    have h3 : active h p.tick = active h' q.tick := by
      rw [← ht]
      refine wsum_agree (fun e he => ?_)
      rcases ho e.lower e.upper with c | c
      · exact Or.inl c
      · exact Or.inr (if_neg (miss _ _ (ok e he) c).1)
    omega
  · refine ⟨hi.ticks.inc, hi'.ticks.inc, by rw [hi.spacing, hi'.spacing, hsp], by rw [hi.spacing]; have := hi.sp_pos; omega, ?_⟩
    intro i hz
    have hg : grossAt h i = grossAt h' i := by
      refine wsum_agree (fun e he => ?_)
      rcases ho e.lower e.upper with c | c
      · exact Or.inl c
      · have := (miss _ _ (ok e he) c).2 i hz
        right
        rw [if_neg this.1, if_neg this.2]
        rfl
    have hn : netAt h i = netAt h' i := by
      refine wsum_agree (fun e he => ?_)
      rcases ho e.lower e.upper with c | c
      · exact Or.inl c
      · have := (miss _ _ (ok e he) c).2 i hz
        right
        rw [if_neg this.1, if_neg this.2]
        rfl
    rcases hx : lookup p.ticks.ticks i with _ | x <;> rcases hy : lookup q.ticks.ticks i with _ | y
    · rfl
    · have := hi.ticks.none i hx
      have := (hi'.ticks.some i y hy).2.2
      omega
    · have := hi'.ticks.none i hy
      have := (hi.ticks.some i x hx).2.2
      omega
    · have h1 := (hi.ticks.some i x hx).2.1
      have h2 := (hi'.ticks.some i y hy).2.1
      have : x.net = y.net := toInt_inj.1 (by omega)
      simp [this]

theorem swap_like {h h' : List Entry} {p q : Pool} (hr : Reachable h p) (hr' : Reachable h' q) {B : Nat} {z : Bool}
    (hsame : SameReached z B h h' p q) {fuel fuel' : Nat} {amount limit : U256} {r r' : U256 × U256 × Pool}
    (ha : amount.toInt < 2 ^ 160) (hgood : z = true → ¬ SearchBroken p.spacing p.tick)
    (hx : p.swap fuel z amount limit = .ok r) (hy : q.swap fuel' z amount limit = .ok r')
    (hw : Within z B r.2.2.price.toNat) (hB : B = r.2.2.price.toNat ∨ B = r'.2.2.price.toNat)
    (he : Within z B r'.2.2.price.toNat ∨ (0 < amount.toInt ∧ (z = true → amount.toInt * p.price.toNat < 2 ^ 255))) :
    SameTrade p q r r' := by
  have hi := Props.reachable_inv hr
  have hi' := Props.reachable_inv hr'
  have hsp : p.spacing = q.spacing := by rw [reachable_spacing hr, reachable_spacing hr', hsame.fee]
  obtain ⟨r0, r1, p'⟩ := r
  obtain ⟨u0, u1, q'⟩ := r'
  obtain ⟨hne, h2, s, h3, h4, h5⟩ := swap_eq hx
  obtain ⟨_, k2, t, k3, k4, k5⟩ := swap_eq hy
  have hgood' : z = true → ¬ SearchBroken q.spacing q.tick := by rw [← hsp, ← hsame.tick]; exact hgood
  have h6 := init_sinv hi (amount := amount) ha h2 (fun hz => clear_good (hgood hz))
  have k6 := init_sinv hi' (amount := amount) ha k2 (fun hz => clear_good (hgood' hz))
  rw [← hsp] at k6
  have hg : Going (!z) p.spacing z (initState p z amount) := by
    cases z
    · exact Or.inl rfl
    · exact ⟨rfl, Or.inl (hgood rfl)⟩
  have hg' : Going (!z) p.spacing z (initState q z amount) := by
    cases z
    · exact Or.inl rfl
    · refine ⟨rfl, Or.inl ?_⟩
      rw [hsp]
      exact hgood' rfl
  obtain ⟨⟨_, _, _, rx⟩, h7, _⟩ := loop_run h6 hi.fee0 hi.fee1 h3
  obtain ⟨_, k7, _⟩ := loop_run k6 hi'.fee0 hi'.fee1 k3
  have es : p'.price = s.price := by rw [h5]; rfl
  have et : q'.price = t.price := by rw [k5]; rfl
  dsimp only at hw hB he
  rw [es] at hw hB
  rw [et] at hB he
  have hw0 : Within z B p.price.toNat := ahead_within (run_going rx hg).2 hw
  obtain ⟨hl, hn⟩ := near_init hi hi' hsp hsame.tick hw0 hsame.ranges
  have hgr : sub (if z then p.growth0 else p.growth1) (if z then p.growth0 else p.growth1) =
      sub (if z then q.growth0 else q.growth1) (if z then q.growth0 else q.growth1) := by
    have : ∀ a b : U256, sub a a = sub b b := by
      intro a b
      apply ext_toNat
      rw [toNat_sub, toNat_sub]
      have := toNat_lt a
      have := toNat_lt b
      omega
    exact this _ _
  have l0 : Like z B (if z then p.growth0 else p.growth1) (if z then q.growth0 else q.growth1) (initState p z amount) (initState q z amount) :=
    ⟨rfl, rfl, hsame.price, hsame.tick, hl, hgr, hn⟩
  have fin := loop_like hsame.fee hi.fee0 hi.fee1
    (by
      intro hz
      have a1 := h7.down hz
      have a2 := k7.down hz
      rcases hB with hB | hB <;> omega)
    (by
      intro hz
      have a1 := h7.up hz
      have a2 := k7.up hz
      rcases hB with hB | hB <;> omega)
    fuel fuel' h6 k6 l0 hg hg' h3 k3 hw
    (by
      rcases he with he | ⟨he, hsm⟩
      · exact Or.inl he
      · exact Or.inr ⟨decide_eq_true (by omega), hsm⟩)
  have e : (r0, r1) = (u0, u1) := by
    rw [h4, k4]
    unfold swapResult
    rw [fin.remaining, fin.calculated]
  cases e
  subst h5 k5
  have self : ∀ a b : U256, sub a a = sub b b := by
    intro a b
    apply ext_toNat
    rw [toNat_sub, toNat_sub]
    have := toNat_lt a
    have := toNat_lt b
    omega
  refine ⟨rfl, rfl, fin.price, fin.tick, fin.liquidity, ?_, ?_⟩
  · have := fin.growth
    cases z
    · exact self _ _
    · exact this
  · have := fin.growth
    cases z
    · exact this
    · exact self _ _

end Pool
end Uni
