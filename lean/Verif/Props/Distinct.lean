import Verif.Props.Periods
/-! # C121: when the positions of a strategy have records of their own -/
namespace Uni
namespace Props
open U256 Spec TickData TickMath FullMath _root_.Uni.Pool Strat

theorem pairwise_short {α : Type} {R : α → α → Prop} {l : List α} (h : l.length ≤ 1) : l.Pairwise R := by
  match l, h with
  | [], _ => exact List.Pairwise.nil
  | [a], _ => exact List.pairwise_singleton R a

theorem buys_ranges {P : U256} {plan : List Purchase} {x y : U256 × U256} {ps : List StratPos} (h : Buys P plan x ps y) :
    ∀ q ∈ ps, ∃ o ∈ plan, q.lower = o.lower ∧ q.upper = o.upper := by
  induction h with
  | done => intro q hq; cases hq
  | skip _ _ ih =>
    intro q hq
    obtain ⟨o, ho, e⟩ := ih q hq
    exact ⟨o, List.mem_cons_of_mem _ ho, e⟩
  | step _ _ _ _ _ _ _ _ _ ih =>
    intro q hq
    rcases List.mem_append.1 hq with hq | hq
    · split at hq
      · cases hq
      · rw [List.mem_singleton] at hq
        subst hq
        exact ⟨_, List.mem_cons_self .., rfl, rfl⟩
    · obtain ⟨o, ho, e⟩ := ih q hq
      exact ⟨o, List.mem_cons_of_mem _ ho, e⟩

/-- C121: the strategies with one interval have at most one position, so the condition of `Periods` on the ranges is met. -/
theorem C121_single {m : List Entry} {s s' : Strat} {fuel : Nat} {c : U256 × U256} (hr : Runs m s) (hx : Invests fuel s c s')
    (hf : Fits m s') (hs : Kind.Sane s.kind) (hk : OneRange s.kind) : s'.positions.length ≤ 1 ∧
      s'.positions.Pairwise (fun q q' => posKey q.lower q.upper ≠ posKey q'.lower q'.upper) := by
  have hns : ∀ w, s.kind ≠ .swapHalf w := by
    intro w e
    rw [e] at hk
    exact hk
  have key : s'.positions.length ≤ 1 := by
    rcases hx with ⟨he, hx⟩ | hx
    · obtain ⟨_, new, h1, h2⟩ := C86_init hr hx hf hs hns
      rw [he, List.nil_append] at h1
      rw [h1]
      unfold InitBuys at h2
      revert hk h2
      cases s.kind <;> intro hk h2 <;> first
        | exact absurd hk id
        | (obtain ⟨_, _, h⟩ := h2; exact buys_length h)
        | (rw [h2.1]; exact Nat.zero_le _)
    · have h2 := C86_rebalance hr hx hf hs hns
      unfold RebalanceBuys InitBuys at h2
      revert hk h2
      cases s.kind <;> intro hk h2 <;> first
        | exact absurd hk id
        | exact buys_length h2
        | (obtain ⟨_, _, h⟩ := h2; exact buys_length h)
        | (rw [h2.1]; exact Nat.zero_le _)
  exact ⟨key, pairwise_short key⟩

theorem fill_distinct {P : U256} {unit tick w : Int} {r : Int × Int} {x y : U256 × U256} {ps : List StratPos} (hw : unit < 2 * w)
    (hc : Centred unit tick w r) (h : FillBuys P unit tick r x ps y) (hsc : ∀ q ∈ ps, IsScalar q.lower ∧ IsScalar q.upper) :
    ps.Pairwise (fun q q' => posKey q.lower q.upper ≠ posKey q'.lower q'.upper) := by
  obtain ⟨c, f, ps1, ps2, z, hc1, hf1, rfl, b1, b2⟩ := h
  obtain ⟨⟨_, n1, _⟩, ⟨_, n2, _⟩⟩ := hc
  obtain ⟨_, c1, c2⟩ := hc1
  obtain ⟨_, f1, f2⟩ := hf1
  have m1 := neg_abs_le (tick - w - r.1)
  have m2 := le_abs_self (tick + w - r.2)
  have a1 : r.1 < c := by omega
  have a2 : f < r.2 := by omega
  have l2 : ps2.length ≤ 1 := by
    have := buys_length b2
    refine this.trans ?_
    split <;> split <;> first | (split <;> simp) | simp
  refine List.pairwise_append.2 ⟨pairwise_short (buys_length b1), pairwise_short l2, ?_⟩
  intro q hq q' hq'
  obtain ⟨o, ho, e1, e2⟩ := buys_ranges b1 q hq
  rw [List.mem_singleton] at ho
  subst ho
  obtain ⟨s1, s2⟩ := hsc q (List.mem_append_left _ hq)
  obtain ⟨s3, s4⟩ := hsc q' (List.mem_append_right _ hq')
  rw [Ne, C31_injective _ _ _ _ s1 s2 s3 s4]
  obtain ⟨o', ho', e3, e4⟩ := buys_ranges b2 q' hq'
  change q.lower = r.1 at e1
  change q.upper = r.2 at e2
  rintro ⟨g1, g2⟩
  split at ho'
  · split at ho'
    · rw [List.mem_singleton] at ho'
      subst ho'
      change q'.lower = c at e3
      omega
    · cases ho'
  · split at ho'
    · split at ho'
      · rw [List.mem_singleton] at ho'
        subst ho'
        change q'.upper = f at e4
        omega
      · cases ho'
    · cases ho'

/-- C121: the fill-up strategy has two positions with different records, if its interval is wider than the tick spacing and its
ticks are valid code points (C31). -/
theorem C121_fill {m : List Entry} {s s' : Strat} {fuel : Nat} {c : U256 × U256} {w : Int} (hr : Runs m s) (hx : Invests fuel s c s')
    (hf : Fits m s') (hs : Kind.Sane s.kind) (hk : s.kind = .fillUp w) (hw : s.pool.spacing < 2 * w)
    (hsc : ∀ q ∈ s'.positions, IsScalar q.lower ∧ IsScalar q.upper) :
      s'.positions.Pairwise (fun q q' => posKey q.lower q.upper ≠ posKey q'.lower q'.upper) := by
  have hns : ∀ w, s.kind ≠ .swapHalf w := by
    intro w e
    rw [hk] at e
    cases e
  rcases hx with ⟨he, hx⟩ | hx
  · obtain ⟨_, new, h1, h2⟩ := C86_init hr hx hf hs hns
    rw [he, List.nil_append] at h1
    rw [h1] at hsc ⊢
    unfold InitBuys at h2
    rw [hk] at h2
    obtain ⟨r, k1, k2⟩ := h2
    exact fill_distinct hw k1 k2 hsc
  · have h2 := C86_rebalance hr hx hf hs hns
    unfold RebalanceBuys InitBuys at h2
    rw [hk] at h2
    obtain ⟨r, k1, k2⟩ := h2
    exact fill_distinct hw k1 k2 hsc

namespace DistinctDemo

/-- Pools at the ticks 6000 and -6000, and the fill-up strategy in them. -/
def up0 : Pool := getOk (Pool.new "WETH" "USDC" 3000 (ofNat (tickPrice 6000))) (by decide +kernel)
def down0 : Pool := getOk (Pool.new "WETH" "USDC" 3000 (ofNat (tickPrice (-6000)))) (by decide +kernel)
theorem nup : Pool.new "WETH" "USDC" 3000 (ofNat (tickPrice 6000)) = .ok up0 := eq_getOk _ _
theorem ndown : Pool.new "WETH" "USDC" 3000 (ofNat (tickPrice (-6000))) = .ok down0 := eq_getOk _ _
def u0 : Strat := getOk (Strat.new (.fillUp 120) (ofNat 1000000) (ofNat 1000000) up0) (by decide +kernel)
def v0 : Strat := getOk (Strat.new (.fillUp 120) (ofNat 1000000) (ofNat 1000000) down0) (by decide +kernel)
def u1 : (U256 × U256) × Strat := getOk (u0.init 10) (by decide +kernel)
def v1 : (U256 × U256) × Strat := getOk (v0.init 10) (by decide +kernel)
theorem ru : Runs [] u0 := .start (Or.inr (Or.inl rfl)) nup (eq_getOk _ (by decide +kernel))
theorem rv : Runs [] v0 := .start (Or.inr (Or.inl rfl)) ndown (eq_getOk _ (by decide +kernel))
theorem fu : Fits [] u1.2 := by unfold Fits; decide +kernel
theorem fv : Fits [] v1.2 := by unfold Fits; decide +kernel
theorem saneU : Kind.Sane u0.kind := by
  rw [show u0.kind = .fillUp 120 by decide +kernel]
  show |(120 : Int)| ≤ 2 ^ 30
  decide

end DistinctDemo

open DistinctDemo in
/-- C121: at negative ticks the condition fails: all negative ticks have the same code point (C31), and the two positions of the
fill-up strategy, which end at the same tick or at two negative ticks, share one record. -/
theorem C121_shared : ∃ (s s' : Strat) (c : U256 × U256) (L L' : U256) (l u l' u' : Int), Runs [] s ∧ s.kind = .fillUp 120 ∧ s.init 10 = .ok (c, s') ∧
    s'.positions = [⟨L, l, u⟩, ⟨L', l', u'⟩] ∧ (l, u) ≠ (l', u') ∧ posKey l u = posKey l' u' ∧ 0 < L.toNat ∧ 0 < L'.toNat := by
  refine ⟨v0, v1.2, v1.1, (v1.2.positions.headD ⟨zero, 0, 0⟩).amount, (v1.2.positions.tail.headD ⟨zero, 0, 0⟩).amount,
    (v1.2.positions.headD ⟨zero, 0, 0⟩).lower, (v1.2.positions.headD ⟨zero, 0, 0⟩).upper,
    (v1.2.positions.tail.headD ⟨zero, 0, 0⟩).lower, (v1.2.positions.tail.headD ⟨zero, 0, 0⟩).upper,
    rv, by decide +kernel, eq_getOk _ _, by decide +kernel, by decide +kernel, by decide +kernel, by decide +kernel, by decide +kernel⟩

open StratDemo in
/-- The constant interval strategy has one position. -/
example : ∃ c, Runs m1 c1 ∧ Invests 10 c1 c c2 ∧ Fits m1 c2 ∧ Kind.Sane c1.kind ∧ OneRange c1.kind ∧ c2.positions.length = 1 := by
  have hk : c1.kind = .constantInterval 120 := by decide +kernel
  refine ⟨_, t1, Or.inl ⟨by decide +kernel, eq_getOk _ (by decide +kernel)⟩, by unfold Fits; decide +kernel, ?_, ?_, by decide +kernel⟩
  · rw [hk]
    show |(120 : Int)| ≤ 2 ^ 30
    decide
  · rw [hk]
    trivial

open DistinctDemo in
/-- The fill-up strategy at the tick 6000 has two positions between 5880 and 6120. -/
example : Runs [] u0 ∧ Invests 10 u0 u1.1 u1.2 ∧ Fits [] u1.2 ∧ Kind.Sane u0.kind ∧ u0.kind = .fillUp 120 ∧ u0.pool.spacing < 2 * 120 ∧
    (∀ q ∈ u1.2.positions, IsScalar q.lower ∧ IsScalar q.upper) ∧ u1.2.positions.length = 2 := by
  refine ⟨ru, Or.inl ⟨by decide +kernel, eq_getOk _ _⟩, fu, saneU, by decide +kernel, by decide +kernel, ?_, by decide +kernel⟩
  have : ∀ q ∈ u1.2.positions, 0 ≤ q.lower ∧ q.lower < 0xD800 ∧ 0 ≤ q.upper ∧ q.upper < 0xD800 := by decide +kernel
  intro q hq
  obtain ⟨h1, h2, h3, h4⟩ := this q hq
  unfold IsScalar
  omega

end Props
end Uni
