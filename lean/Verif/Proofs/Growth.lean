import Verif.Proofs.Pool
import Verif.Proofs.Group
import Verif.Spec.Growth
/-! # Fee growth -/
namespace Uni
open U256 Spec TickData TickMath
namespace Pool

/-- Sum of the increments below tick `i`. -/
def sumBelow (f : Accrual → U256) (i : Int) (log : List Accrual) : U256 :=
  log.foldr (fun e acc => if e.tick < i then add (f e) acc else acc) zero

def sumAll (f : Accrual → U256) (log : List Accrual) : U256 := log.foldr (fun e acc => add (f e) acc) zero

theorem sumBelow_nil (f : Accrual → U256) (i : Int) : sumBelow f i [] = 0 := rfl
theorem sumBelow_cons (f : Accrual → U256) (i : Int) (e : Accrual) (log : List Accrual) :
    sumBelow f i (e :: log) = (if e.tick < i then f e else 0) + sumBelow f i log := by
  unfold sumBelow
  rw [List.foldr_cons]
  split
  · rfl
  · rw [zero_add]
theorem sumBelow_append (f : Accrual → U256) (i : Int) (a b : List Accrual) :
    sumBelow f i (a ++ b) = sumBelow f i a + sumBelow f i b := by
  induction a with
  | nil => rw [sumBelow_nil, zero_add]; rfl
  | cons e a ih => rw [List.cons_append, sumBelow_cons, sumBelow_cons, ih, add_assoc]
theorem sumAll_cons (f : Accrual → U256) (e : Accrual) (log : List Accrual) : sumAll f (e :: log) = f e + sumAll f log := rfl
theorem sumAll_append (f : Accrual → U256) (a b : List Accrual) : sumAll f (a ++ b) = sumAll f a + sumAll f b := by
  induction a with
  | nil => exact (zero_add _).symm
  | cons e a ih => rw [List.cons_append, sumAll_cons, sumAll_cons, ih, add_assoc]

theorem accrued0_eq {l u : Int} (hlu : l ≤ u) (log : List Accrual) :
    accrued0 l u log = sumBelow Accrual.d0 u log - sumBelow Accrual.d0 l log := by
  induction log with
  | nil => exact (sub_self _).symm
  | cons e log ih =>
    unfold accrued0 at ih ⊢
    rw [List.foldr_cons, ih, sumBelow_cons, sumBelow_cons, add_def]
    by_cases h1 : e.tick < l
    · rw [if_neg (by omega), if_pos (by omega), if_pos h1]; abel
    · by_cases h2 : e.tick < u
      · rw [if_pos (by omega), if_pos h2, if_neg h1]; abel
      · rw [if_neg (by omega), if_neg h2, if_neg h1]; abel

theorem accrued1_eq {l u : Int} (hlu : l ≤ u) (log : List Accrual) :
    accrued1 l u log = sumBelow Accrual.d1 u log - sumBelow Accrual.d1 l log := by
  induction log with
  | nil => exact (sub_self _).symm
  | cons e log ih =>
    unfold accrued1 at ih ⊢
    rw [List.foldr_cons, ih, sumBelow_cons, sumBelow_cons, add_def]
    by_cases h1 : e.tick < l
    · rw [if_neg (by omega), if_pos (by omega), if_pos h1]; abel
    · by_cases h2 : e.tick < u
      · rw [if_pos (by omega), if_pos h2, if_neg h1]; abel
      · rw [if_neg (by omega), if_neg h2, if_neg h1]; abel

/-- Growth below tick `i` of one token. -/
theorem below_ge {i tick : Int} {g out : U256} (h : i ≤ tick) : growthBelow i tick g out = out := if_pos h
theorem below_lt {i tick : Int} {g out : U256} (h : tick < i) : growthBelow i tick g out = g - out := if_neg (by omega)

theorem above_eq (i tick : Int) (g out : U256) : growthAbove i tick g out = g - growthBelow i tick g out := by
  unfold growthAbove
  by_cases h : tick < i
  · rw [if_pos h, below_lt h]; abel
  · rw [if_neg h, below_ge (by omega)]; rfl

/-- Fee growth inside a range is the growth below its upper end minus the growth below its lower end. -/
theorem inside_eq {t : TickData} (hs : Increasing t.ticks) {l u : Int} {x y : Tick}
    (hx : lookup t.ticks l = some x) (hy : lookup t.ticks u = some y) (cur : Int) (g0 g1 : U256) :
    getFeeGrowthInside t l u cur g0 g1 =
      .ok (growthBelow u cur g0 y.out0 - growthBelow l cur g0 x.out0, growthBelow u cur g1 y.out1 - growthBelow l cur g1 x.out1) := by
  rw [getFeeGrowthInside_some hs hx hy, above_eq, above_eq]
  congr 2
  · simp only [sub_def]; abel
  · simp only [sub_def]; abel

theorem inside_init {t : TickData} (hs : Increasing t.ticks) {l u cur : Int} {g0 g1 : U256} {r : U256 × U256}
    (h : getFeeGrowthInside t l u cur g0 g1 = .ok r) : ∃ x y, lookup t.ticks l = some x ∧ lookup t.ticks u = some y := by
  rcases hx : lookup t.ticks l with _ | x
  · rw [getFeeGrowthInside_none hs (Or.inl hx)] at h; cases h
  · rcases hy : lookup t.ticks u with _ | y
    · rw [getFeeGrowthInside_none hs (Or.inr hy)] at h; cases h
    · exact ⟨x, y, rfl, rfl⟩

/-- The two growths during a swap. -/
def g0Of (p : Pool) (z : Bool) (s : SwapState) : U256 := if z then s.growth else p.growth0
def g1Of (p : Pool) (z : Bool) (s : SwapState) : U256 := if z then p.growth1 else s.growth

/-- One token, one iteration: the growth below an initialized tick increases by the increment exactly if the
iteration started below it. -/
theorem move_below {p : Pool} {z : Bool} {s s' : SwapState} (hm : Move p z s s') {i : Int} {x : Tick} (hx : lookup s.ticks.ticks i = some x) :
    ∃ x', lookup s'.ticks.ticks i = some x' ∧
      growthBelow i s'.tick (g0Of p z s') x'.out0 = growthBelow i s.tick (g0Of p z s) x.out0 + (if s.tick < i then g0Of p z s' - g0Of p z s else 0) ∧
      growthBelow i s'.tick (g1Of p z s') x'.out1 = growthBelow i s.tick (g1Of p z s) x.out1 + (if s.tick < i then g1Of p z s' - g1Of p z s else 0) := by
  have hhas : Has s.ticks i := by unfold Has; rw [hx]; rfl
  -- the side of the tick does not change
  have same : (i ≤ s.tick ↔ i ≤ s'.tick) → ∀ g g' out : U256,
      growthBelow i s'.tick g' out = growthBelow i s.tick g out + (if s.tick < i then g' - g else 0) := by
    intro h g g' out
    by_cases hc : i ≤ s.tick
    · rw [below_ge hc, below_ge (h.1 hc), if_neg (by omega), add_zero]
    · rw [below_lt (by omega), below_lt (by omega), if_pos (by omega)]; abel
  cases hm with
  | stay hticks hliq hno =>
    have hside : i ≤ s.tick ↔ i ≤ s'.tick := by
      have := hno i
      constructor
      · intro h1; by_contra h2; exact this (by omega) (by omega) hhas
      · intro h1; by_contra h2; exact this (by omega) (by omega) hhas
    exact ⟨x, by rw [hticks]; exact hx, same hside _ _ _, same hside _ _ _⟩
  | down n y hz hy hn hno htick hsp hinc hlk hliq =>
    have e0 : g0Of p z s' = s'.growth := by unfold g0Of; rw [if_pos hz]
    have e1 : g1Of p z s' = p.growth1 := by unfold g1Of; rw [if_pos hz]
    have e2 : g1Of p z s = p.growth1 := by unfold g1Of; rw [if_pos hz]
    by_cases hin : i = n
    · subst hin
      rw [hx] at hy; cases hy
      refine ⟨_, (hlk i).trans (if_pos rfl), ?_, ?_⟩
      · rw [below_lt (by omega), below_ge hn, if_neg (by omega), e0]
        show s'.growth - (s'.growth - x.out0) = _
        abel
      · rw [below_lt (by omega), below_ge hn, if_neg (by omega), e1]
        show p.growth1 - (p.growth1 - x.out1) = _
        abel
    · have hside : i ≤ s.tick ↔ i ≤ s'.tick := by
        have := hno i
        constructor
        · intro h1; by_contra h2; exact this (by omega) (by omega) hhas
        · intro h1; omega
      exact ⟨x, by rw [hlk, if_neg hin]; exact hx, same hside _ _ _, same hside _ _ _⟩
  | up n y hz hy hn hno htick hsp hinc hlk hliq =>
    have hz' : ¬ z = true := by rw [hz]; decide
    have e0 : g1Of p z s' = s'.growth := by unfold g1Of; rw [if_neg hz']
    have e1 : g0Of p z s' = p.growth0 := by unfold g0Of; rw [if_neg hz']
    have e2 : g0Of p z s = p.growth0 := by unfold g0Of; rw [if_neg hz']
    by_cases hin : i = n
    · subst hin
      rw [hx] at hy; cases hy
      refine ⟨_, (hlk i).trans (if_pos rfl), ?_, ?_⟩
      · rw [below_ge (by omega), below_lt hn, if_pos (by omega), e1, e2]
        show p.growth0 - x.out0 = _
        abel
      · rw [below_ge (by omega), below_lt hn, if_pos (by omega), e0]
        show s'.growth - x.out1 = _
        abel
    · have hside : i ≤ s.tick ↔ i ≤ s'.tick := by
        have := hno i
        constructor
        · intro h1; omega
        · intro h1; by_contra h2; exact this (by omega) (by omega) hhas
      exact ⟨x, by rw [hlk, if_neg hin]; exact hx, same hside _ _ _, same hside _ _ _⟩

theorem loop_below {p : Pool} {h : List Entry} {sp : Int} {z ein : Bool} {limit : U256} {s' : SwapState} (hf0 : 0 ≤ p.fee) (hf1 : p.fee < 1000000)
    {i : Int} (fuel : Nat) (s : SwapState) (hs : SInv h sp z ein limit s) (hx : swapLoop p z ein limit fuel s = .ok s') :
    g0Of p z s' = g0Of p z s + sumAll Accrual.d0 (swapLog p z ein limit fuel s) ∧
    g1Of p z s' = g1Of p z s + sumAll Accrual.d1 (swapLog p z ein limit fuel s) ∧
    ∀ x, lookup s.ticks.ticks i = some x → ∃ x', lookup s'.ticks.ticks i = some x' ∧
      growthBelow i s'.tick (g0Of p z s') x'.out0 =
        growthBelow i s.tick (g0Of p z s) x.out0 + sumBelow Accrual.d0 i (swapLog p z ein limit fuel s) ∧
      growthBelow i s'.tick (g1Of p z s') x'.out1 =
        growthBelow i s.tick (g1Of p z s) x.out1 + sumBelow Accrual.d1 i (swapLog p z ein limit fuel s) := by
  induction fuel generalizing s with
  | zero => cases hx
  | succ n ih =>
    unfold swapLoop at hx
    unfold swapLog
    by_cases hr : running limit s = true
    · rw [if_pos hr] at hx ⊢
      obtain ⟨s1, h1, hx⟩ := bind_ok hx
      rw [h1]
      dsimp only
      obtain ⟨st, target, hs1, hf, _⟩ := step_inv hs hf0 hf1 hr h1
      obtain ⟨k1, k2, k3⟩ := ih s1 hs1 hx
      have d0 : (if z = true then sub s1.growth s.growth else zero) = g0Of p z s1 - g0Of p z s := by
        unfold g0Of
        cases z
        · exact (sub_self _).symm
        · rfl
      have d1 : (if z = true then zero else sub s1.growth s.growth) = g1Of p z s1 - g1Of p z s := by
        unfold g1Of
        cases z
        · rfl
        · exact (sub_self _).symm
      refine ⟨?_, ?_, ?_⟩
      · rw [k1, sumAll_cons]; dsimp only; rw [d0]; abel
      · rw [k2, sumAll_cons]; dsimp only; rw [d1]; abel
      · intro x hx
        obtain ⟨x1, m1, m2, m3⟩ := move_below hf.move hx
        obtain ⟨x2, n1, n2, n3⟩ := k3 x1 m1
        refine ⟨x2, n1, ?_, ?_⟩
        · rw [n2, m2, sumBelow_cons]; dsimp only; rw [d0, add_assoc]
        · rw [n3, m3, sumBelow_cons]; dsimp only; rw [d1, add_assoc]
    · rw [if_neg hr] at hx ⊢
      cases hx
      exact ⟨(add_zero _).symm, (add_zero _).symm, fun x hx => ⟨x, hx, (add_zero _).symm, (add_zero _).symm⟩⟩

/-- What an operation does to the growths. -/
def GrowthStep (p p' : Pool) (log : List Accrual) : Prop :=
  p'.growth0 = p.growth0 + sumAll Accrual.d0 log ∧ p'.growth1 = p.growth1 + sumAll Accrual.d1 log ∧
  ∀ i x x', lookup p.ticks.ticks i = some x → lookup p'.ticks.ticks i = some x' →
    growthBelow i p'.tick p'.growth0 x'.out0 = growthBelow i p.tick p.growth0 x.out0 + sumBelow Accrual.d0 i log ∧
    growthBelow i p'.tick p'.growth1 x'.out1 = growthBelow i p.tick p.growth1 x.out1 + sumBelow Accrual.d1 i log

theorem growth_frame {p p' : Pool} (h1 : p'.growth0 = p.growth0) (h2 : p'.growth1 = p.growth1) (h3 : p'.tick = p.tick)
    (h4 : ∀ i x x', lookup p.ticks.ticks i = some x → lookup p'.ticks.ticks i = some x' → x'.out0 = x.out0 ∧ x'.out1 = x.out1) :
    GrowthStep p p' [] := by
  refine ⟨by rw [h1]; exact (add_zero _).symm, by rw [h2]; exact (add_zero _).symm, ?_⟩
  intro i x x' hx hx'
  obtain ⟨e1, e2⟩ := h4 i x x' hx hx'
  rw [h1, h2, h3, e1, e2, sumBelow_nil, sumBelow_nil, add_zero, add_zero]
  exact ⟨rfl, rfl⟩

theorem updated_out (x : Tick) (i cur : Int) (d g0 g1 : U256) (up : Bool) :
    (updated (some x) i cur d g0 g1 up).out0 = x.out0 ∧ (updated (some x) i cur d g0 g1 up).out1 = x.out1 := ⟨rfl, rfl⟩

theorem modifyPosition_growth {p p' : Pool} {l u : Int} {d : U256} (hs : Increasing p.ticks.ticks)
    (hx : p.modifyPosition l u d = .ok p') : GrowthStep p p' [] := by
  obtain ⟨hlu, _, _, t', _, _, hlk, rfl⟩ := modifyPosition_eq hs hx
  refine growth_frame rfl rfl rfl ?_
  intro i x x' hy hx'
  change lookup t'.ticks i = some x' at hx'
  rw [hlk i] at hx'
  by_cases h1 : i = u
  · subst h1
    rw [if_pos rfl] at hx'
    split at hx'
    · cases hx'
    · rw [hy] at hx'; cases hx'; exact ⟨rfl, rfl⟩
  · rw [if_neg h1] at hx'
    by_cases h2 : i = l
    · subst h2
      rw [if_pos rfl] at hx'
      split at hx'
      · cases hx'
      · rw [hy] at hx'; cases hx'; exact ⟨rfl, rfl⟩
    · rw [if_neg h2, hy] at hx'; cases hx'; exact ⟨rfl, rfl⟩

theorem modifyStrategy_growth {p p' : Pool} {pos : Info} {l u : Int} {d a0 a1 : U256} (hs : Increasing p.ticks.ticks)
    (hx : p.modifyPositionStrategy l u d = .ok (pos, a0, a1, p')) : GrowthStep p p' [] := by
  obtain ⟨hlu, _, _, q, h1, h2, h3⟩ := modifyStrategy_eq hx
  obtain ⟨t2, t', ins, _, _, _, _, _, _, hlk, rfl⟩ := updatePosition_eq hs hlu h1
  have key : ∀ i x x', lookup p.ticks.ticks i = some x → lookup t'.ticks i = some x' → x'.out0 = x.out0 ∧ x'.out1 = x.out1 := by
    intro i x x' hy hx'
    rw [hlk i] at hx'
    by_cases h0 : d.toNat = 0
    · rw [if_pos h0, hy] at hx'; cases hx'; exact ⟨rfl, rfl⟩
    rw [if_neg h0] at hx'
    by_cases h1 : i = u
    · subst h1
      rw [if_pos rfl] at hx'
      split at hx'
      · cases hx'
      · rw [hy] at hx'; cases hx'; exact ⟨rfl, rfl⟩
    · rw [if_neg h1] at hx'
      by_cases h2 : i = l
      · subst h2
        rw [if_pos rfl] at hx'
        split at hx'
        · cases hx'
        · rw [hy] at hx'; cases hx'; exact ⟨rfl, rfl⟩
      · rw [if_neg h2, hy] at hx'; cases hx'; exact ⟨rfl, rfl⟩
  by_cases hz : d.toNat = 0
  · obtain ⟨_, _, rfl⟩ := h2 hz
    exact growth_frame rfl rfl rfl key
  · obtain ⟨_, rfl⟩ := h3 hz
    exact growth_frame rfl rfl rfl key

theorem swap_growth {h : List Entry} {p p' : Pool} (hi : Inv h p) {fuel : Nat} {z : Bool} {amount limit r0 r1 : U256} (ha : amount.toInt < 2 ^ 160)
    (hc : z = true → ClearAbove p.spacing p.tick h) (hx : swap fuel p z amount limit = .ok (r0, r1, p')) : GrowthStep p p' (callLog fuel p z amount limit) := by
  obtain ⟨_, h2, s, h3, _, rfl⟩ := swap_eq hx
  have hs := init_sinv hi ha h2 hc
  have e0 : g0Of p z (initState p z amount) = p.growth0 := by unfold g0Of initState; cases z <;> rfl
  have e1 : g1Of p z (initState p z amount) = p.growth1 := by unfold g1Of initState; cases z <;> rfl
  have a0 : (afterSwap p z s).growth0 = g0Of p z s := rfl
  have a1 : (afterSwap p z s).growth1 = g1Of p z s := rfl
  unfold GrowthStep
  rw [a0, a1]
  refine ⟨?_, ?_, ?_⟩
  · have := (loop_below (i := 0) hi.fee0 hi.fee1 fuel _ hs h3).1
    rw [e0] at this; exact this
  · have := (loop_below (i := 0) hi.fee0 hi.fee1 fuel _ hs h3).2.1
    rw [e1] at this; exact this
  · intro i x x' hx hx'
    obtain ⟨x'', k1, k2, k3⟩ := (loop_below (i := i) hi.fee0 hi.fee1 fuel _ hs h3).2.2 x hx
    have : some x' = some x'' := hx'.symm.trans k1
    cases this
    rw [e0] at k2
    rw [e1] at k3
    exact ⟨k2, k3⟩

theorem flash_growth {p p' : Pool} {a b : U256} (hx : p.flash a b = .ok p') :
    GrowthStep p p' [{ tick := p.tick, d0 := sub p'.growth0 p.growth0, d1 := sub p'.growth1 p.growth1 }] := by
  have e : p'.tick = p.tick ∧ p'.ticks = p.ticks := by
    unfold flash at hx
    obtain ⟨_, _, hx⟩ := bind_ok hx
    obtain ⟨_, _, hx⟩ := bind_ok hx
    obtain ⟨_, _, hx⟩ := bind_ok hx
    obtain ⟨_, _, hx⟩ := bind_ok hx
    obtain ⟨_, _, hx⟩ := bind_ok hx
    cases hx
    exact ⟨rfl, rfl⟩
  refine ⟨?_, ?_, ?_⟩
  · show p'.growth0 = p.growth0 + ((p'.growth0 - p.growth0) + 0); abel
  · show p'.growth1 = p.growth1 + ((p'.growth1 - p.growth1) + 0); abel
  · intro i x x' h1 h2
    rw [e.2, h1] at h2
    cases h2
    rw [e.1, sumBelow_cons, sumBelow_cons, sumBelow_nil, sumBelow_nil]
    dsimp only
    by_cases h : i ≤ p.tick
    · rw [below_ge h, below_ge h, below_ge h, below_ge h, if_neg (by omega), if_neg (by omega)]
      constructor <;> abel
    · rw [below_lt (by omega), below_lt (by omega), below_lt (by omega), below_lt (by omega), if_pos (by omega), if_pos (by omega)]
      simp only [sub_def]
      constructor <;> abel

theorem exec_growth {h : List Entry} {p p' : Pool} (hi : Inv h p) {fuel : Nat} {op : PoolOp} (ha : op.Admissible p h)
    (hx : op.exec fuel p = .ok p') : GrowthStep p p' (op.log fuel p p') := by
  cases op with
  | mint l u a =>
    obtain ⟨_, _, h1⟩ := bind_ok hx
    exact modifyPosition_growth hi.ticks.inc h1
  | burn l u a => exact modifyPosition_growth hi.ticks.inc hx
  | mintStrategy l u a =>
    obtain ⟨⟨r0, r1, q⟩, h1, hx⟩ := bind_ok hx
    cases hx
    obtain ⟨_, _, pos, h2⟩ := mintStrategy_eq h1
    exact modifyStrategy_growth hi.ticks.inc h2
  | burnStrategy l u a =>
    obtain ⟨⟨r0, r1, q⟩, h1, hx⟩ := bind_ok hx
    cases hx
    obtain ⟨pos, a0, a1, q', h2, _, _, h3⟩ := burnStrategy_eq h1
    have h4 := modifyStrategy_growth hi.ticks.inc h2
    dsimp only
    rw [h3]
    exact h4
  | collectStrategy l u =>
    obtain ⟨⟨r0, r1, q⟩, h1, hx⟩ := bind_ok hx
    cases hx
    unfold collectStrategy at h1
    split at h1
    · cases h1
    · cases h1
      refine growth_frame rfl rfl rfl ?_
      intro i x x' h2 h3
      have : some x' = some x := h3.symm.trans h2
      cases this
      exact ⟨rfl, rfl⟩
  | flash a b => exact flash_growth hx
  | exactInput a t l =>
    obtain ⟨⟨r0, r1, q⟩, h1, hx⟩ := bind_ok hx
    cases hx
    exact swap_growth hi ha.1 (fun hz => ha.2 (of_decide_eq_true hz)) h1
  | exactOutput a t l =>
    obtain ⟨⟨r0, r1, q⟩, h1, hx⟩ := bind_ok hx
    cases hx
    exact swap_growth hi ha.1 (fun hz => ha.2 (of_decide_eq_true hz)) h1

theorem evolves_growth {allowed : PoolOp → Prop} {keep : Pool → Prop} {h h' : List Entry} {p p' : Pool} {log : List Accrual} {i : Int}
    (hi : Inv h p) (hk : ∀ q, keep q → Pool.Initialized q i) (hev : Evolves allowed keep h p log h' p') :
    Inv h' p' ∧ SameId p p' ∧ keep p' ∧
    p'.growth0 = p.growth0 + sumAll Accrual.d0 log ∧ p'.growth1 = p.growth1 + sumAll Accrual.d1 log ∧
    ∀ x x', lookup p.ticks.ticks i = some x → lookup p'.ticks.ticks i = some x' →
      growthBelow i p'.tick p'.growth0 x'.out0 = growthBelow i p.tick p.growth0 x.out0 + sumBelow Accrual.d0 i log ∧
      growthBelow i p'.tick p'.growth1 x'.out1 = growthBelow i p.tick p.growth1 x.out1 + sumBelow Accrual.d1 i log := by
  induction hev with
  | refl hk0 =>
    refine ⟨hi, ⟨rfl, rfl, rfl, rfl⟩, hk0, (add_zero _).symm, (add_zero _).symm, ?_⟩
    intro x x' h1 h2
    rw [h1] at h2; cases h2
    exact ⟨(add_zero _).symm, (add_zero _).symm⟩
  | step fuel op hr hal ha hx hk2 ih =>
    obtain ⟨i1, ⟨i2, i3, i4, i5⟩, i6, i7, i8, i9⟩ := ih
    obtain ⟨e1, e2, e3, e4⟩ := exec_id hx
    obtain ⟨g1, g2, g3⟩ := exec_growth i1 ha hx
    refine ⟨exec_inv i1 ha hx, ⟨e1.trans i2, e2.trans i3, e3.trans i4, e4.trans i5⟩, hk2, ?_, ?_, ?_⟩
    · rw [g1, i7, sumAll_append, add_assoc]
    · rw [g2, i8, sumAll_append, add_assoc]
    · intro x x' h1 h2
      obtain ⟨y, hy⟩ := Option.isSome_iff_exists.1 (hk _ i6)
      obtain ⟨a1, a2⟩ := i9 x y h1 hy
      obtain ⟨b1, b2⟩ := g3 i y x' hy h2
      rw [b1, b2, a1, a2, sumBelow_append, sumBelow_append, add_assoc, add_assoc]
      exact ⟨rfl, rfl⟩

end Pool
end Uni
