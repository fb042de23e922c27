import Verif.Proofs.SwapLoop
import Verif.Proofs.LiquidityAmounts
import Mathlib.Tactic.FieldSimp
import Mathlib.Tactic.Positivity
import Mathlib.Tactic.Linarith
import Mathlib.Tactic.LinearCombination
/-! # The swap loop -/
namespace Uni
open U256 Spec TickData TickMath SwapMath FullMath SqrtPriceMath LiquidityAmounts
namespace Pool

/-- Invariant of the loop including the price limit and the remaining amount. -/
structure SInv (h : List Entry) (sp : Int) (z ein : Bool) (limit : U256) (s : SwapState) : Prop where
  inv : LInv h sp s
  down : z = true → limit.toNat ≤ s.price.toNat ∧ ratioN (-887272) < limit.toNat
  up : z = false → s.price.toNat ≤ limit.toNat ∧ limit.toNat < ratioN 887272
  rem : s.remaining.toInt < 2 ^ 160
  remIn : ein = true → 0 ≤ s.remaining.toInt
  remOut : ein = false → s.remaining.toInt ≤ 0
  clear : z = true → ClearAbove sp s.tick h

theorem toInt_eq_zero {x : U256} : x.toInt = 0 ↔ x.toNat = 0 := by
  have h := toInt_range x
  constructor
  · intro h1; have := toNat_of_nonneg (x := x) (by omega); omega
  · intro h1; rw [toInt_of_lt (by omega)]; omega

theorem running_iff {limit : U256} {s : SwapState} :
    running limit s = true ↔ s.remaining.toInt ≠ 0 ∧ s.price.toNat ≠ limit.toNat := by
  unfold running
  rw [Bool.and_eq_true, Bool.not_eq_true', decide_eq_true_iff]
  constructor
  · rintro ⟨h1, h2⟩
    refine ⟨fun hc => ?_, fun hc => h2 ((cmp_eq0 _ _).2 hc)⟩
    rw [(isZero_iff _).2 (toInt_eq_zero.1 hc)] at h1; cases h1
  · rintro ⟨h1, h2⟩
    refine ⟨?_, fun hc => h2 ((cmp_eq0 _ _).1 hc)⟩
    rw [Bool.eq_false_iff]
    intro hc
    exact h1 (toInt_eq_zero.2 ((isZero_iff _).1 hc))

theorem not_running {limit : U256} {s : SwapState} (h : running limit s = false) :
    s.remaining.toInt = 0 ∨ s.price.toNat = limit.toNat := by
  by_contra hc
  push Not at hc
  rw [running_iff.2 hc] at h; cases h

/-- What a step does to the remaining amount. -/
structure RemFacts (ein : Bool) (s s' : SwapState) (st : Step) (target : U256) : Prop where
  sum : (add st.amountIn st.fee).toNat = st.amountIn.toNat + st.fee.toNat
  remIn : ein = true → s'.remaining.toInt = s.remaining.toInt - (st.amountIn.toNat + st.fee.toNat)
  remOut : ein = false → s'.remaining.toInt = s.remaining.toInt + st.amountOut.toNat
  done : s'.price.toNat ≠ target.toNat → s'.remaining.toInt = 0

theorem feeSum_lt {i f fee : Nat} (hi : i < 2 ^ 224) (hf : fee < 1000000) (h : f = Spec.ceilDiv (i * fee) (1000000 - fee)) :
    i + f < 2 ^ 245 := by
  have h1 : f ≤ i * fee := by
    rw [h, ceilDiv_le_iff (by omega)]
    exact Nat.le_mul_of_pos_right _ (by omega)
  have h2 : i * fee ≤ 2 ^ 224 * 1000000 := Nat.mul_le_mul (by omega) (by omega)
  omega

/-- The downward search works at this tick. -/
def Good (sp tick : Int) : Prop := ¬ ∃ k : Int, k ≤ 0 ∧ 256 * k * sp - sp < tick ∧ tick < 256 * k * sp

theorem good_iff {t : TickData} (hsp : 0 < t.spacing) (tick : Int) : Good t.spacing tick ↔ wordMin t tick ≤ tick := by
  unfold Good
  rw [← wordMin_gt_iff hsp]
  omega

theorem wordMin_eq {t : TickData} (hsp : 0 < t.spacing) {tick k : Int} (hk : k ≤ 0) (h1 : 256 * k * t.spacing - t.spacing < tick)
    (h2 : tick < 256 * k * t.spacing) : wordMin t tick = 256 * k * t.spacing := by
  have h0 : 256 * k * t.spacing ≤ 0 := Int.mul_nonpos_of_nonpos_of_nonneg (by omega) (le_of_lt hsp)
  obtain ⟨h3, h4⟩ := tdiv_neg_bounds hsp (show tick < 0 by omega)
  have h5 : Int.tdiv tick t.spacing = 256 * k := by
    apply le_antisymm
    · have : (Int.tdiv tick t.spacing - 1) * t.spacing < 256 * k * t.spacing := by omega
      have := lt_of_mul_lt_mul_right this (le_of_lt hsp)
      omega
    · have : (256 * k - 1) * t.spacing < Int.tdiv tick t.spacing * t.spacing := by rw [sub_mul]; omega
      have := lt_of_mul_lt_mul_right this (le_of_lt hsp)
      omega
  unfold wordMin
  rw [h5, show 256 * k / 256 * 256 = 256 * k by omega]

/-- The word searched downwards from a tick at or above a word boundary does not extend below that boundary. -/
theorem le_wordMin {t : TickData} (hsp : 0 < t.spacing) {tick k : Int} (h : 256 * k * t.spacing ≤ tick) :
    256 * k * t.spacing ≤ wordMin t tick := by
  have h1 : 256 * k ≤ Int.tdiv tick t.spacing := by
    by_cases h0 : 0 ≤ tick
    · rw [Int.tdiv_eq_ediv_of_nonneg h0, Int.le_ediv_iff_mul_le hsp]; exact h
    · obtain ⟨_, h4⟩ := tdiv_neg_bounds hsp (show tick < 0 by omega)
      exact le_of_mul_le_mul_right (le_trans h h4) hsp
  unfold wordMin
  exact Int.mul_le_mul_of_nonneg_right (by omega) (le_of_lt hsp)

theorem wordMin_dvd (t : TickData) (tick : Int) : ∃ q, wordMin t tick = 256 * q * t.spacing := by
  refine ⟨Int.tdiv tick t.spacing / 256, ?_⟩
  unfold wordMin
  rw [mul_comm 256]

/-- A tick lies in at most one of the intervals in which the search is broken. -/
theorem broken_unique {sp k k' t : Int} (hsp : 0 < sp) (h1 : 256 * k * sp - sp < t) (h2 : t < 256 * k * sp)
    (h3 : 256 * k' * sp - sp < t) (h4 : t < 256 * k' * sp) : k = k' := by
  have e1 : (256 * k - 1) * sp < 256 * k' * sp := by rw [sub_mul]; omega
  have e2 : (256 * k' - 1) * sp < 256 * k * sp := by rw [sub_mul]; omega
  have := lt_of_mul_lt_mul_right e1 (le_of_lt hsp)
  have := lt_of_mul_lt_mul_right e2 (le_of_lt hsp)
  omega

theorem clear_gap {h : List Entry} {t : TickData} {tick : Int} (hsp : 0 < t.spacing) (hc : ClearAbove t.spacing tick h)
    (hw : tick < wordMin t tick) : ∀ j, tick < j → j < wordMin t tick → grossAt h j = 0 := by
  obtain ⟨k, k1, k2, k3⟩ := (wordMin_gt_iff hsp tick).1 hw
  rw [wordMin_eq hsp k1 k2 k3]
  exact hc k k1 k2

theorem clear_aligned {h : List Entry} {sp tick : Int} (hsp : 0 < sp) (ha : Aligned sp h) : ClearAbove sp tick h := by
  intro k _ k2 j j1 j2
  by_contra hn
  obtain ⟨m, hm⟩ := ha j hn
  subst hm
  have e1 : (256 * k - 1) * sp < m * sp := by rw [sub_mul, mul_comm m]; omega
  have e2 : m * sp < 256 * k * sp := by rw [mul_comm m]; exact j2
  have := lt_of_mul_lt_mul_right e1 (le_of_lt hsp)
  have := lt_of_mul_lt_mul_right e2 (le_of_lt hsp)
  omega

theorem clear_good {h : List Entry} {sp tick : Int} (hg : ¬ SearchBroken sp tick) : ClearAbove sp tick h := by
  intro k k1 k2 j j1 j2
  exact absurd ⟨k, k1, k2, by omega⟩ hg

theorem clear_step {p : Pool} {h : List Entry} {sp : Int} {ein : Bool} {limit : U256} {s s' : SwapState} {st : Step} {target : U256}
    (hi : LInv h sp s) (hc : ClearAbove sp s.tick h) (hf : StepFacts p h true ein limit s s' st target) : ClearAbove sp s'.tick h := by
  have hsp := hi.spacing
  have hpos : 0 < s.ticks.spacing := by rw [hsp]; exact hi.sp_pos
  intro k k1 k2 j j1 j2
  by_cases hw : wordMin s.ticks s.tick ≤ s.tick
  · exfalso
    have hg := hw
    rw [← good_iff hpos, hsp] at hg
    rcases hf.good rfl hw with ⟨h1, h2⟩ | ⟨h1, h2⟩
    · by_cases hk : s.tick < 256 * k * sp
      · exact hg ⟨k, k1, by omega, hk⟩
      · have := le_wordMin (t := s.ticks) hpos (tick := s.tick) (k := k) (by rw [hsp]; omega)
        rw [hsp] at this
        omega
    · obtain ⟨q, hq⟩ := wordMin_dvd s.ticks s.tick
      rw [hq, hsp] at h1
      have e1 : (256 * k - 1) * sp < 256 * q * sp := by rw [sub_mul]; omega
      have e2 : 256 * q * sp < 256 * k * sp := by omega
      have := lt_of_mul_lt_mul_right e1 (le_of_lt hi.sp_pos)
      have := lt_of_mul_lt_mul_right e2 (le_of_lt hi.sp_pos)
      omega
  · obtain ⟨h1, h2, h3, _⟩ := hf.bad rfl (by omega)
    obtain ⟨k', l1, l2, l3⟩ := (wordMin_gt_iff hpos s.tick).1 (by omega)
    rw [wordMin_eq hpos l1 l2 l3] at h3
    rw [hsp] at h3 l2 l3
    have := broken_unique hi.sp_pos k2 (by omega) (t := s'.tick) (by omega) h3
    subst this
    exact hc k k1 l2 j (by omega) j2

theorem step_inv {p : Pool} {h : List Entry} {sp : Int} {z ein : Bool} {limit : U256} {s s' : SwapState}
    (hs : SInv h sp z ein limit s) (hf0 : 0 ≤ p.fee) (hf1 : p.fee < 1000000)
    (hrun : running limit s = true) (hx : swapStep p z ein limit s = .ok s') :
    ∃ st target, SInv h sp z ein limit s' ∧ StepFacts p h z ein limit s s' st target ∧ RemFacts ein s s' st target := by
  obtain ⟨hr0, hl⟩ := running_iff.1 hrun
  have key : ∃ st target, LInv h sp s' ∧ StepFacts p h z ein limit s s' st target := by
    cases z
    · have := hs.up rfl
      exact step_up hs.inv hf0 hf1 hs.rem (by omega) this.2 hx
    · have := hs.down rfl
      have hsp := hs.inv.spacing
      exact step_down hs.inv hf0 hf1 hs.rem (by omega) this.2
        (clear_gap (by rw [hsp]; exact hs.inv.sp_pos) (by rw [hsp]; exact hs.clear rfl)) hx
  obtain ⟨st, target, hi', hf⟩ := key
  have hspec := hf.spec
  have hprice := hf.price
  have hbt := hspec.between
  rw [← hprice] at hbt
  have hin : st.amountIn.toNat < 2 ^ 224 := by
    rw [hspec.input, ← hprice]
    exact inAmount_lt _ (by have := hs.inv.priceOk.lo; omega) (by have := hi'.priceOk.lo; omega) hs.inv.priceOk.hi hi'.priceOk.hi hs.inv.liq_lt
  have hout : Spec.outAmount (decide (target.toNat ≤ s.price.toNat)) s.price.toNat st.next.toNat s.liquidity.toNat < 2 ^ 224 := by
    rw [← hprice]
    exact outAmount_lt _ (by have := hs.inv.priceOk.lo; omega) (by have := hi'.priceOk.lo; omega) hs.inv.priceOk.hi hi'.priceOk.hi hs.inv.liq_lt
  have hfee : p.fee.toNat < 1000000 := by omega
  have hsum : (add st.amountIn st.fee).toNat = st.amountIn.toNat + st.fee.toNat := by
    apply toNat_add_of_lt
    by_cases h0 : 0 ≤ s.remaining.toInt
    · have h1 := hspec.budget h0
      have h2 := hs.rem
      omega
    · have h1 := hspec.feeExact (Or.inl (by omega))
      have := feeSum_lt hin hfee h1
      omega
  have hrange := toInt_range s.remaining
  have hrem := hf.remaining
  have hrem1 := hs.rem
  have hR : RemFacts ein s s' st target := by
    cases ein
    · have h0 := hs.remOut rfl
      rw [if_neg (by decide)] at hrem
      have h1 := hspec.outputOut (by omega)
      have h2 : s'.remaining.toInt = s.remaining.toInt + st.amountOut.toNat := by
        have h3 : st.amountOut.toInt = st.amountOut.toNat := toInt_of_lt (by omega)
        rw [hrem, toInt_add_of (by omega) (by omega), h3]
      refine ⟨hsum, (by intro h; cases h), fun _ => h2, fun hne => ?_⟩
      have h4 := hspec.fullOut (by omega) (by rw [← hprice]; exact hne)
      omega
    · have h0 := hs.remIn rfl
      rw [if_pos rfl] at hrem
      have h1 := hspec.budget h0
      have h2 : s'.remaining.toInt = s.remaining.toInt - (st.amountIn.toNat + st.fee.toNat) := by
        have h3 : (add st.amountIn st.fee).toInt = ((st.amountIn.toNat + st.fee.toNat : Nat) : Int) := by
          rw [toInt_of_lt (by omega), hsum]
        rw [hrem, toInt_sub_of (by omega) (by omega), h3]
        omega
      refine ⟨hsum, fun _ => h2, (by intro h; cases h), fun hne => ?_⟩
      have h4 := hspec.fullIn h0 (by rw [← hprice]; exact hne)
      omega
  refine ⟨st, target, ⟨hi', ?_, ?_, ?_, ?_, ?_, ?_⟩, hf, hR⟩
  · intro hz
    have h1 := hs.down hz
    have h2 := hf.down hz
    omega
  · intro hz
    have h1 := hs.up hz
    have h2 := hf.up hz
    omega
  · cases ein
    · have h1 := hR.remOut rfl
      have h2 := hs.remOut rfl
      have h3 := hspec.outputOut (by omega)
      omega
    · have h1 := hR.remIn rfl
      omega
  · intro he
    subst he
    have h1 := hR.remIn rfl
    have h2 := hspec.budget (hs.remIn rfl)
    omega
  · intro he
    subst he
    have h1 := hR.remOut rfl
    have h2 := hs.remOut rfl
    have h3 := hspec.outputOut (by omega)
    omega
  · intro hz
    subst hz
    exact clear_step hs.inv (hs.clear rfl) hf

/-- Induction over the iterations of a loop that ends. -/
theorem loop_ind {p : Pool} {z ein : Bool} {limit : U256} {M : SwapState → Prop}
    (hstep : ∀ s s', M s → running limit s = true → swapStep p z ein limit s = .ok s' → M s')
    (fuel : Nat) (s s' : SwapState) (h0 : M s) (h : swapLoop p z ein limit fuel s = .ok s') :
    M s' ∧ running limit s' = false := by
  induction fuel generalizing s with
  | zero => cases h
  | succ n ih =>
    unfold swapLoop at h
    by_cases hr : running limit s = true
    · rw [if_pos hr] at h
      obtain ⟨s1, h1, h2⟩ := bind_ok h
      exact ih s1 (hstep s s1 h0 hr h1) h2
    · rw [if_neg hr] at h
      cases h
      exact ⟨h0, Bool.eq_false_iff.2 hr⟩

theorem loop_inv {p : Pool} {h : List Entry} {sp : Int} {z ein : Bool} {limit : U256} {s s' : SwapState} {fuel : Nat}
    (hs : SInv h sp z ein limit s) (hf0 : 0 ≤ p.fee) (hf1 : p.fee < 1000000)
    (hx : swapLoop p z ein limit fuel s = .ok s') : SInv h sp z ein limit s' ∧ running limit s' = false := by
  refine loop_ind (M := SInv h sp z ein limit) ?_ fuel s s' hs hx
  intro a b ha hr hb
  obtain ⟨_, _, h1, _⟩ := step_inv ha hf0 hf1 hr hb
  exact h1

/-! ### The direction of a run -/

/-- The price is exactly at the end of a word below which the loop does not get. -/
def Stuck (sp : Int) (s : SwapState) : Prop :=
  ∃ k : Int, k ≤ 0 ∧ s.tick = 256 * k * sp - 1 ∧ s.price.toNat = ratioN (256 * k * sp)

/-- State of a run in which the price falls. -/
def Falling (sp : Int) (z : Bool) (s : SwapState) : Prop := z = true ∧ (Good sp s.tick ∨ Stuck sp s)
/-- State of a run in which the price rises. -/
def Rising (sp : Int) (z : Bool) (s : SwapState) : Prop := z = false ∨ (z = true ∧ ¬ Good sp s.tick)

theorem rising_step {p : Pool} {h : List Entry} {sp : Int} {z ein : Bool} {limit : U256} {s s' : SwapState} {st : Step} {target : U256}
    (hs : SInv h sp z ein limit s) (hf : StepFacts p h z ein limit s s' st target) (hr : Rising sp z s) :
    s.price.toNat ≤ target.toNat ∧ Rising sp z s' := by
  rcases hr with hz | ⟨hz, hg⟩
  · exact ⟨(hf.up hz).1, Or.inl hz⟩
  · have hsp := hs.inv.spacing
    have hpos : 0 < s.ticks.spacing := by rw [hsp]; exact hs.inv.sp_pos
    have hw : s.tick < wordMin s.ticks s.tick := by
      rw [← hsp, good_iff hpos] at hg; omega
    obtain ⟨h1, h2, h3, _⟩ := hf.bad hz hw
    refine ⟨h1, Or.inr ⟨hz, ?_⟩⟩
    obtain ⟨k, k1, k2, k3⟩ := (wordMin_gt_iff hpos s.tick).1 hw
    rw [wordMin_eq hpos k1 k2 k3] at h3
    unfold Good
    rw [not_not, ← hsp]
    exact ⟨k, k1, by omega, h3⟩

theorem falling_step {p : Pool} {h : List Entry} {sp : Int} {z ein : Bool} {limit : U256} {s s' : SwapState} {st : Step} {target : U256}
    (hs : SInv h sp z ein limit s) (hf : StepFacts p h z ein limit s s' st target) (hr : Falling sp z s) :
    target.toNat ≤ s.price.toNat ∧ Falling sp z s' := by
  obtain ⟨hz, hr⟩ := hr
  have hsp := hs.inv.spacing
  have hpos : 0 < s.ticks.spacing := by rw [hsp]; exact hs.inv.sp_pos
  by_cases hg : Good sp s.tick
  · have hw : wordMin s.ticks s.tick ≤ s.tick := by rw [← hsp, good_iff hpos] at hg; exact hg
    refine ⟨hf.downGood hz hw, hz, ?_⟩
    rcases hf.good hz hw with ⟨h1, h2⟩ | ⟨h1, h2⟩
    · left
      rintro ⟨k, k1, k2, k3⟩
      apply hg
      refine ⟨k, k1, by omega, ?_⟩
      by_contra hc
      have := le_wordMin (t := s.ticks) hpos (tick := s.tick) (k := k) (by rw [hsp]; omega)
      rw [hsp] at this
      omega
    · by_cases hg' : Good sp s'.tick
      · exact Or.inl hg'
      · right
        unfold Good at hg'
        rw [not_not] at hg'
        obtain ⟨k, k1, k2, k3⟩ := hg'
        obtain ⟨q, hq⟩ := wordMin_dvd s.ticks s.tick
        rw [hsp] at hq
        rw [hq] at h1 h2
        have hp := hs.inv.sp_pos
        have e1 : (256 * k - 1) * sp < 256 * q * sp := by rw [sub_mul]; omega
        have e2 : 256 * q * sp < (256 * k + 1) * sp := by rw [add_mul]; omega
        have := lt_of_mul_lt_mul_right e1 (le_of_lt hp)
        have := lt_of_mul_lt_mul_right e2 (le_of_lt hp)
        have hkq : q = k := by omega
        rw [hkq] at h1 h2
        exact ⟨k, k1, h1, h2⟩
  · obtain ⟨k, k1, k2, k3⟩ := hr.resolve_left hg
    have hk : 256 * k * s.ticks.spacing - s.ticks.spacing < s.tick ∧ s.tick < 256 * k * s.ticks.spacing := by
      have hw : ¬ wordMin s.ticks s.tick ≤ s.tick := by rw [← hsp, good_iff hpos] at hg; exact hg
      rw [hsp]
      have : sp ≠ 1 := by
        intro h1
        apply hg
        rintro ⟨k', _, h3, h4⟩
        rw [h1] at h3 h4
        omega
      have := hs.inv.sp_pos
      omega
    have hwe := wordMin_eq hpos k1 hk.1 hk.2
    obtain ⟨h1, h2, h3, h4⟩ := hf.bad hz (by omega)
    rw [hwe, hsp] at h3 h4
    have hb := hf.spec.between
    rw [← hf.price] at hb
    refine ⟨by omega, hz, Or.inr ⟨k, k1, by omega, by omega⟩⟩

/-! ### Runs -/

/-- A sequence of iterations, with the sums of the inputs, outputs and fees of its steps. -/
inductive Run (p : Pool) (h : List Entry) (sp : Int) (z ein : Bool) (limit : U256) (s0 : SwapState) : SwapState → Nat → Nat → Nat → Prop
  | refl : Run p h sp z ein limit s0 s0 0 0 0
  | step {s s' : SwapState} {i o f : Nat} {st : Step} {target : U256} (hr : Run p h sp z ein limit s0 s i o f)
      (hs : SInv h sp z ein limit s) (hrun : running limit s = true) (hf : StepFacts p h z ein limit s s' st target)
      (hR : RemFacts ein s s' st target) (hs' : SInv h sp z ein limit s') :
      Run p h sp z ein limit s0 s' (i + st.amountIn.toNat) (o + st.amountOut.toNat) (f + st.fee.toNat)

theorem loop_run {p : Pool} {h : List Entry} {sp : Int} {z ein : Bool} {limit : U256} {s s' : SwapState} {fuel : Nat}
    (hs : SInv h sp z ein limit s) (hf0 : 0 ≤ p.fee) (hf1 : p.fee < 1000000)
    (hx : swapLoop p z ein limit fuel s = .ok s') :
    (∃ i o f, Run p h sp z ein limit s s' i o f) ∧ SInv h sp z ein limit s' ∧ running limit s' = false := by
  have := loop_ind (M := fun t => (∃ i o f, Run p h sp z ein limit s t i o f) ∧ SInv h sp z ein limit t) (p := p) (z := z) (ein := ein)
    (limit := limit) ?_ fuel s s' ⟨⟨0, 0, 0, Run.refl⟩, hs⟩ hx
  · exact ⟨this.1.1, this.1.2, this.2⟩
  rintro a b ⟨⟨i, o, f, hr⟩, ha⟩ hrun hb
  obtain ⟨st, target, h1, h2, h3⟩ := step_inv ha hf0 hf1 hrun hb
  exact ⟨⟨_, _, _, Run.step hr ha hrun h2 h3 h1⟩, h1⟩

theorem run_rem {p : Pool} {h : List Entry} {sp : Int} {z ein : Bool} {limit : U256} {s0 s : SwapState} {i o f : Nat}
    (hr : Run p h sp z ein limit s0 s i o f) :
    (ein = true → s.remaining.toInt = s0.remaining.toInt - (i + f)) ∧
    (ein = false → s.remaining.toInt = s0.remaining.toInt + o) := by
  induction hr with
  | refl => constructor <;> intro _ <;> omega
  | step hr hs hrun hf hR hs' ih =>
    constructor
    · intro he
      have h1 := ih.1 he
      have h2 := hR.remIn he
      omega
    · intro he
      have h1 := ih.2 he
      have h2 := hR.remOut he
      omega

theorem exact0_le {P Q L a : Nat} (hP : 0 < P) (hPQ : P ≤ Q) (hL : L ≤ 2 ^ 128) (h : a * (P * Q) ≤ L * 2 ^ 96 * (Q - P)) :
    (a : ℚ) ≤ 2 ^ 224 * (1 / P - 1 / Q) := by
  have h1 : a * (P * Q) ≤ 2 ^ 224 * (Q - P) :=
    le_trans h (Nat.mul_le_mul_right _ (by omega))
  have hq : 0 < Q := by omega
  have hPq : (0 : ℚ) < P := by exact_mod_cast hP
  have hQq : (0 : ℚ) < Q := by exact_mod_cast hq
  have h2 : ((a * (P * Q) : Nat) : ℚ) ≤ ((2 ^ 224 * (Q - P) : Nat) : ℚ) := by exact_mod_cast h1
  rw [Nat.cast_mul, Nat.cast_mul, Nat.cast_mul, Nat.cast_sub hPQ] at h2
  have e : (2 : ℚ) ^ 224 * (1 / P - 1 / Q) = 2 ^ 224 * (Q - P) / (P * Q) := by field_simp
  rw [e, le_div_iff₀ (by positivity)]
  push_cast at h2
  exact h2

theorem amount0Down_mul {P Q L : Nat} (hPQ : P ≤ Q) : Spec.amount0Down P Q L * (P * Q) ≤ L * 2 ^ 96 * (Q - P) := by
  unfold Spec.amount0Down
  rw [dist_of_le hPQ]
  exact Nat.div_mul_le_self _ _

theorem amount1Down_le {P Q L : Nat} (hPQ : P ≤ Q) (hL : L ≤ 2 ^ 128) : Spec.amount1Down P Q L ≤ 2 ^ 32 * (Q - P) := by
  unfold Spec.amount1Down
  rw [dist_of_le hPQ]
  have h1 : L * (Q - P) ≤ 2 ^ 128 * (Q - P) := Nat.mul_le_mul_right _ hL
  omega

theorem amount1Up_le {P Q L : Nat} (hPQ : P ≤ Q) (hL : L ≤ 2 ^ 128) : Spec.amount1Up P Q L ≤ 2 ^ 32 * (Q - P) := by
  unfold Spec.amount1Up
  rw [dist_of_le hPQ, ceilDiv_le_iff (by norm_num)]
  have h1 : L * (Q - P) ≤ 2 ^ 128 * (Q - P) := Nat.mul_le_mul_right _ hL
  omega

theorem amount0Up_le {P Q L : Nat} (hP : 0 < P) (hPQ : P ≤ Q) (hL : L ≤ 2 ^ 128) :
    (Spec.amount0Up P Q L : ℚ) ≤ 2 ^ 224 * (1 / P - 1 / Q) + (Q - P : Nat) := by
  have h0 : Spec.amount0Up P Q L ≤ Spec.amount0Down P Q L + (Q - P) := by
    by_cases h : P = Q
    · subst h; rw [amount0Up_self]; omega
    · have : Spec.amount0Up P Q L ≤ Spec.amount0Down P Q L + 1 := ceilDiv_le_div_succ _ _
      omega
  have h1 := exact0_le hP hPQ hL (amount0Down_mul (L := L) hPQ)
  have h2 : (Spec.amount0Up P Q L : ℚ) ≤ ((Spec.amount0Down P Q L + (Q - P) : Nat) : ℚ) := by exact_mod_cast h0
  rw [Nat.cast_add] at h2
  linarith

/-- Amounts of a step in which the price rises. -/
theorem step_rise {C T L fee n i o f : Nat} {rem : Int} (hs : Spec.SwapStep C T L rem fee n i o f) (hT : C ≤ T) (hC : 0 < C) (hL : L ≤ 2 ^ 128) :
    C ≤ n ∧ i ≤ 2 ^ 32 * (n - C) ∧ (o : ℚ) ≤ 2 ^ 224 * (1 / C - 1 / n) := by
  have hb := hs.between
  have hn : C ≤ n := by omega
  refine ⟨hn, ?_, ?_⟩
  · rw [hs.input]
    by_cases h : T ≤ C
    · have : n = C := by omega
      rw [decide_eq_true h, this, inAmount_t, amount0Up_self]; omega
    · rw [decide_eq_false h, inAmount_f]; exact amount1Up_le hn hL
  · have ho : o ≤ Spec.outAmount (decide (T ≤ C)) C n L := by
      by_cases h : 0 ≤ rem
      · exact le_of_eq (hs.outputIn h)
      · have := hs.outputOut (by omega); omega
    have hle : (o : ℚ) ≤ (Spec.outAmount (decide (T ≤ C)) C n L : ℚ) := by exact_mod_cast ho
    refine le_trans hle ?_
    by_cases h : T ≤ C
    · have : n = C := by omega
      rw [decide_eq_true h, this, outAmount_t, amount1Down_self]; simp
    · rw [decide_eq_false h, outAmount_f]
      exact exact0_le hC hn hL (amount0Down_mul hn)

/-- Amounts of a step in which the price falls. -/
theorem step_fall {C T L fee n i o f : Nat} {rem : Int} (hs : Spec.SwapStep C T L rem fee n i o f) (hT : T ≤ C) (hT0 : 0 < T) (hL : L ≤ 2 ^ 128) :
    n ≤ C ∧ (i : ℚ) ≤ 2 ^ 224 * (1 / n - 1 / C) + (C - n : Nat) ∧ o ≤ 2 ^ 32 * (C - n) := by
  have hb := hs.between
  have hn : n ≤ C := by omega
  refine ⟨hn, ?_, ?_⟩
  · rw [hs.input, decide_eq_true hT, inAmount_t, amount0Up_comm]
    exact amount0Up_le (by omega) hn hL
  · have ho : o ≤ Spec.outAmount (decide (T ≤ C)) C n L := by
      by_cases h : 0 ≤ rem
      · exact le_of_eq (hs.outputIn h)
      · have := hs.outputOut (by omega); omega
    refine le_trans ho ?_
    rw [decide_eq_true hT, outAmount_t, amount1Down_comm]
    exact amount1Down_le hn hL

theorem run_rise {p : Pool} {h : List Entry} {sp : Int} {z ein : Bool} {limit : U256} {s0 s : SwapState} {i o f : Nat}
    (hr : Run p h sp z ein limit s0 s i o f) (h0 : Rising sp z s0) :
    Rising sp z s ∧ s0.price.toNat ≤ s.price.toNat ∧ i ≤ 2 ^ 32 * (s.price.toNat - s0.price.toNat) ∧
      (o : ℚ) ≤ 2 ^ 224 * (1 / s0.price.toNat - 1 / s.price.toNat) := by
  induction hr with
  | refl => refine ⟨h0, le_refl _, by omega, by simp⟩
  | step hr hs hrun hf hR hs' ih =>
    obtain ⟨h1, h2, h3, h4⟩ := ih
    obtain ⟨h5, h6⟩ := rising_step hs hf h1
    obtain ⟨h7, h8, h9⟩ := step_rise hf.spec h5 (by have := hs.inv.priceOk.lo; omega) (by have := hs.inv.liq_lt; omega)
    rw [hf.price]
    refine ⟨h6, by omega, by omega, ?_⟩
    push_cast
    linarith

theorem run_fall {p : Pool} {h : List Entry} {sp : Int} {z ein : Bool} {limit : U256} {s0 s : SwapState} {i o f : Nat}
    (hr : Run p h sp z ein limit s0 s i o f) (h0 : Falling sp z s0) :
    Falling sp z s ∧ s.price.toNat ≤ s0.price.toNat ∧
      (i : ℚ) ≤ 2 ^ 224 * (1 / s.price.toNat - 1 / s0.price.toNat) + (s0.price.toNat - s.price.toNat : Nat) ∧
      o ≤ 2 ^ 32 * (s0.price.toNat - s.price.toNat) := by
  induction hr with
  | refl => refine ⟨h0, le_refl _, by simp, by omega⟩
  | step hr hs hrun hf hR hs' ih =>
    obtain ⟨h1, h2, h3, h4⟩ := ih
    obtain ⟨h5, h6⟩ := falling_step hs hf h1
    have hl := hf.down h1.1
    have hl2 := (hs.down h1.1).2
    obtain ⟨h7, h8, h9⟩ := step_fall hf.spec h5 (by omega) (by have := hs.inv.liq_lt; omega)
    rw [hf.price]
    refine ⟨h6, by omega, ?_, by omega⟩
    rw [Nat.cast_sub h2] at h3
    rw [Nat.cast_sub h7] at h8
    rw [Nat.cast_sub (le_trans h7 h2)]
    push_cast
    linarith

theorem rising_or_falling (sp : Int) (z : Bool) (s : SwapState) : Rising sp z s ∨ Falling sp z s := by
  cases z
  · exact Or.inl (Or.inl rfl)
  · by_cases h : Good sp s.tick
    · exact Or.inr ⟨rfl, Or.inl h⟩
    · exact Or.inl (Or.inr ⟨rfl, h⟩)

theorem inv_le {P Q : Nat} (h : 2 ^ 32 ≤ P) : (2 : ℚ) ^ 224 * (1 / P - 1 / Q) ≤ 2 ^ 192 := by
  have hP : (2 : ℚ) ^ 32 ≤ P := by exact_mod_cast h
  have h1 : (1 : ℚ) / P ≤ 1 / 2 ^ 32 := one_div_le_one_div_of_le (by norm_num) hP
  have h2 : (0 : ℚ) ≤ 1 / Q := by positivity
  have h3 : (2 : ℚ) ^ 224 * (1 / P - 1 / Q) ≤ 2 ^ 224 * (1 / 2 ^ 32) := mul_le_mul_of_nonneg_left (by linarith) (by norm_num)
  refine le_trans h3 (by norm_num)

theorem run_bound {p : Pool} {h : List Entry} {sp : Int} {z ein : Bool} {limit : U256} {s0 s : SwapState} {i o f : Nat}
    (hr : Run p h sp z ein limit s0 s i o f) (hs0 : SInv h sp z ein limit s0) (hs : SInv h sp z ein limit s) :
    i ≤ 2 ^ 193 ∧ o ≤ 2 ^ 192 := by
  have a1 := hs0.inv.priceOk
  have a2 := hs.inv.priceOk
  rcases rising_or_falling sp z s0 with h0 | h0
  · obtain ⟨_, h2, h3, h4⟩ := run_rise hr h0
    have h5 := le_trans h4 (inv_le a1.lo)
    have := a2.hi
    exact ⟨by omega, by exact_mod_cast h5⟩
  · obtain ⟨_, h2, h3, h4⟩ := run_fall hr h0
    have h5 := inv_le (Q := s0.price.toNat) a2.lo
    have := a1.hi
    have h6 : ((s0.price.toNat - s.price.toNat : Nat) : ℚ) ≤ ((2 ^ 160 : Nat) : ℚ) := by exact_mod_cast (by omega)
    have h7 : (i : ℚ) ≤ 2 ^ 192 + ((2 ^ 160 : Nat) : ℚ) := by linarith
    have h8 : i ≤ 2 ^ 192 + 2 ^ 160 := by exact_mod_cast h7
    exact ⟨by omega, by omega⟩

theorem run_fee {p : Pool} {h : List Entry} {sp : Int} {z : Bool} {limit : U256} {s0 s : SwapState} {i o f : Nat}
    (hf0 : 0 ≤ p.fee) (hf1 : p.fee < 1000000)
    (hr : Run p h sp z false limit s0 s i o f) : f ≤ i * 1000000 := by
  induction hr with
  | refl => omega
  | step hr hs hrun hf hR hs' ih =>
    have h1 := hs.remOut rfl
    have h2 := (running_iff.1 hrun).1
    have h3 := hf.spec.feeExact (Or.inl (by omega))
    rename_i st _
    have h4 : st.fee.toNat ≤ st.amountIn.toNat * 1000000 := by
      rw [h3, ceilDiv_le_iff (by omega)]
      have h5 : st.amountIn.toNat * p.fee.toNat ≤ st.amountIn.toNat * 1000000 := Nat.mul_le_mul_left _ (by omega)
      exact le_trans h5 (Nat.le_mul_of_pos_right _ (by omega))
    omega

/-- The calculated amount is the sum of the outputs (exact input) or of the inputs and fees (exact output). -/
theorem run_calc {p : Pool} {h : List Entry} {sp : Int} {z ein : Bool} {limit : U256} {s0 s : SwapState} {i o f : Nat}
    (hf0 : 0 ≤ p.fee) (hf1 : p.fee < 1000000) (hs0 : SInv h sp z ein limit s0) (h0 : s0.calculated.toInt = 0)
    (hr : Run p h sp z ein limit s0 s i o f) :
    (ein = true → s.calculated.toInt = -o) ∧ (ein = false → s.calculated.toInt = i + f) := by
  induction hr with
  | refl => constructor <;> intro _ <;> omega
  | step hr hs hrun hf hR hs' ih =>
    have hb := run_bound (Run.step hr hs hrun hf hR hs') hs0 hs'
    have hc := hf.calculated
    constructor
    · intro he
      have h1 := ih.1 he
      rw [if_pos he] at hc
      rename_i st _
      have h3 : st.amountOut.toInt = st.amountOut.toNat := toInt_of_lt (by omega)
      rw [hc, toInt_sub_of (by omega) (by omega), h1, h3]
      push_cast
      omega
    · intro he
      subst he
      have h1 := ih.2 rfl
      have h2 := run_fee hf0 hf1 (Run.step hr hs hrun hf hR hs')
      rw [if_neg (by decide)] at hc
      rename_i st _
      have h4 := hR.sum
      have h3 : (add st.amountIn st.fee).toInt = st.amountIn.toNat + st.fee.toNat := by
        rw [toInt_of_lt (by omega), h4]; push_cast; rfl
      rw [hc, toInt_add_of (by omega) (by omega), h1, h3]
      push_cast
      omega

end Pool
end Uni
