import Verif.Model.Pool
import Verif.Proofs.TickData
import Verif.Proofs.Ledger
import Verif.Proofs.TickMath
import Verif.Proofs.SwapMath
/-! # One iteration of the swap loop -/
namespace Uni
open U256 Spec TickData TickMath SwapMath FullMath
namespace Pool

theorem bind_ok {α β : Type} {x : Go α} {f : α → Go β} {y : β} (h : (x >>= f) = .ok y) : ∃ a, x = .ok a ∧ f a = .ok y := by
  cases x with
  | error e => cases h
  | ok a => exact ⟨a, rfl, h⟩

/-- The tick store agrees with the ledger. -/
structure TicksOk (h : List Entry) (t : TickData) : Prop where
  inc : Increasing t.ticks
  none : ∀ i, lookup t.ticks i = none → grossAt h i = 0
  some : ∀ i x, lookup t.ticks i = some x → (x.gross.toNat : Int) = grossAt h i ∧ x.net.toInt = netAt h i ∧ grossAt h i ≠ 0

theorem TicksOk.has {h : List Entry} {t : TickData} (ht : TicksOk h t) {i : Int} : Has t i ↔ grossAt h i ≠ 0 := by
  unfold Has
  rcases hx : lookup t.ticks i with _ | x
  · simp [ht.none i hx]
  · simp [(ht.some i x hx).2.2]

/-- Invariant of the swap loop. -/
structure LInv (h : List Entry) (sp : Int) (s : SwapState) : Prop where
  cov : Covered h
  sp_pos : 0 < sp
  spacing : s.ticks.spacing = sp
  ticks : TicksOk h s.ticks
  liq : (s.liquidity.toNat : Int) = active h s.tick
  tlo : -887272 ≤ s.tick
  thi : s.tick < 887272
  plo : ratioN s.tick ≤ s.price.toNat
  phi : s.price.toNat ≤ ratioN (s.tick + 1)
  pmax : s.price.toNat < ratioN 887272

theorem LInv.liq_lt {h : List Entry} {sp : Int} {s : SwapState} (hi : LInv h sp s) : s.liquidity.toNat < 2 ^ 128 := by
  have h1 := hi.liq
  have h2 := hi.cov.active_lt s.tick
  omega

theorem LInv.priceOk {h : List Entry} {sp : Int} {s : SwapState} (hi : LInv h sp s) : PriceOk s.price := by
  have h1 := hi.plo
  have h2 := ratioN_ge hi.tlo (by have := hi.thi; omega)
  have h3 := hi.pmax
  have h4 := ratioN_lt160 (t := 887272) (by norm_num) (le_refl _)
  exact ⟨by omega, by omega⟩

/-- What happens to the tick and the tick store in one iteration. -/
inductive Move (p : Pool) (z : Bool) (s s' : SwapState) : Prop
  /-- no initialized tick is passed -/
  | stay (hticks : s'.ticks = s.ticks) (hliq : s'.liquidity = s.liquidity)
      (hno : ∀ j, min s.tick s'.tick < j → j ≤ max s.tick s'.tick → ¬ Has s.ticks j)
  /-- tick `n` is crossed downwards -/
  | down (n : Int) (x : Tick) (hz : z = true) (hx : lookup s.ticks.ticks n = some x) (hn : n ≤ s.tick)
      (hno : ∀ j, n < j → j ≤ s.tick → ¬ Has s.ticks j) (htick : s'.tick = n - 1)
      (hsp : s'.ticks.spacing = s.ticks.spacing) (hinc : Increasing s'.ticks.ticks)
      (hlk : ∀ j, lookup s'.ticks.ticks j =
        if j = n then some { x with out0 := sub s'.growth x.out0, out1 := sub p.growth1 x.out1 } else lookup s.ticks.ticks j)
      (hliq : s'.liquidity = sub s.liquidity x.net)
  /-- tick `n` is crossed upwards -/
  | up (n : Int) (x : Tick) (hz : z = false) (hx : lookup s.ticks.ticks n = some x) (hn : s.tick < n)
      (hno : ∀ j, s.tick < j → j < n → ¬ Has s.ticks j) (htick : s'.tick = n)
      (hsp : s'.ticks.spacing = s.ticks.spacing) (hinc : Increasing s'.ticks.ticks)
      (hlk : ∀ j, lookup s'.ticks.ticks j =
        if j = n then some { x with out0 := sub p.growth0 x.out0, out1 := sub s'.growth x.out1 } else lookup s.ticks.ticks j)
      (hliq : s'.liquidity = add s.liquidity x.net)

/-- Everything an iteration does. -/
structure StepFacts (p : Pool) (h : List Entry) (z ein : Bool) (limit : U256) (s s' : SwapState) (st : Step) (target : U256) : Prop where
  step : computeSwapStep s.price target s.liquidity s.remaining p.fee = .ok st
  tgt : ∃ n b pn, s.ticks.nextInitializedTickWithinOneWord s.tick z = .ok (n, b) ∧ getSqrtRatioAtTick (clampTick n) = .ok pn ∧
    target = pickTarget z pn limit
  spec : Spec.SwapStep s.price.toNat target.toNat s.liquidity.toNat s.remaining.toInt p.fee.toNat
    st.next.toNat st.amountIn.toNat st.amountOut.toNat st.fee.toNat
  price : s'.price = st.next
  remaining : s'.remaining = if ein then sub s.remaining (add st.amountIn st.fee) else add s.remaining st.amountOut
  calculated : s'.calculated = if ein then sub s.calculated st.amountOut else add s.calculated (add st.amountIn st.fee)
  growth : accrue st.fee s.liquidity s.growth = .ok s'.growth
  down : z = true → limit.toNat ≤ target.toNat
  downGood : z = true → wordMin s.ticks s.tick ≤ s.tick → target.toNat ≤ s.price.toNat
  up : z = false → s.price.toNat ≤ target.toNat ∧ target.toNat ≤ limit.toNat
  move : Move p z s s'
  reach : s'.price.toNat = target.toNat → s'.price.toNat = limit.toNat ∨
    (z = false ∧ s.tick < s'.tick) ∨ (z = true ∧ (wordMin s.ticks s.tick ≤ s.tick → s'.tick < s.tick))
  seg : ∃ a b, -887272 ≤ a ∧ a ≤ s.tick ∧ s.tick < b ∧ b ≤ 887272 ∧
    ratioN a ≤ min s.price.toNat s'.price.toNat ∧ max s.price.toNat s'.price.toNat ≤ ratioN b ∧
    ∀ j, a < j → j < b → grossAt h j = 0
  bad : z = true → s.tick < wordMin s.ticks s.tick →
    s.price.toNat ≤ target.toNat ∧ s.tick ≤ s'.tick ∧ s'.tick < wordMin s.ticks s.tick ∧
      target.toNat = ratioN (wordMin s.ticks s.tick)
  good : z = true → wordMin s.ticks s.tick ≤ s.tick → (wordMin s.ticks s.tick ≤ s'.tick ∧ s'.tick ≤ s.tick) ∨
    (s'.tick = wordMin s.ticks s.tick - 1 ∧ s'.price.toNat = ratioN (wordMin s.ticks s.tick))

/-! ### The parts of an iteration -/

theorem clampTick_eq (t : Int) : clampTick t = max (-887272) (min t 887272) := by
  unfold clampTick
  have e1 : minTick = -887272 := by decide
  have e2 : maxTick = 887272 := by decide
  rw [e1, e2]
  split
  · omega
  · split <;> omega

theorem pickTarget_down (next limit : U256) : (pickTarget true next limit).toNat = max next.toNat limit.toNat := by
  unfold pickTarget
  rw [if_pos rfl]
  by_cases h : next.toNat < limit.toNat
  · rw [if_pos ((cmp_lt0 _ _).2 h)]; omega
  · rw [if_neg (fun hc => h ((cmp_lt0 _ _).1 hc))]; omega

theorem pickTarget_up (next limit : U256) : (pickTarget false next limit).toNat = min next.toNat limit.toNat := by
  unfold pickTarget
  rw [if_neg (by decide)]
  by_cases h : limit.toNat < next.toNat
  · rw [if_pos ((cmp_gt0 _ _).2 h)]; omega
  · rw [if_neg (fun hc => h ((cmp_gt0 _ _).1 hc))]; omega

/-- Inversion of an iteration. -/
theorem swapStep_inv {p : Pool} {z ein : Bool} {limit : U256} {s s' : SwapState} (h : swapStep p z ein limit s = .ok s') :
    ∃ n b pn st g, s.ticks.nextInitializedTickWithinOneWord s.tick z = .ok (n, b) ∧
      getSqrtRatioAtTick (clampTick n) = .ok pn ∧
      computeSwapStep s.price (pickTarget z pn limit) s.liquidity s.remaining p.fee = .ok st ∧
      accrue st.fee s.liquidity s.growth = .ok g ∧
      finishStep p z b (clampTick n) pn s
        { s with
          price := st.next
          remaining := if ein then sub s.remaining (add st.amountIn st.fee) else add s.remaining st.amountOut
          calculated := if ein then sub s.calculated st.amountOut else add s.calculated (add st.amountIn st.fee)
          growth := g } = .ok s' := by
  unfold swapStep at h
  obtain ⟨nb, h1, h⟩ := bind_ok h
  obtain ⟨pn, h2, h⟩ := bind_ok h
  obtain ⟨st, h3, h⟩ := bind_ok h
  obtain ⟨g, h4, h⟩ := bind_ok h
  exact ⟨nb.1, nb.2, pn, st, g, h1, h2, h3, h4, h⟩

/-- Inversion of the end of an iteration. -/
theorem finishStep_inv {p : Pool} {z b : Bool} {n : Int} {pn : U256} {s0 s s' : SwapState}
    (h : finishStep p z b n pn s0 s = .ok s') :
    (s.price.toNat = pn.toNat ∧ b = false ∧ s' = { s with tick := if z then n - 1 else n }) ∨
    (s.price.toNat = pn.toNat ∧ b = true ∧ ∃ c, s.ticks.cross n (if z then s.growth else p.growth0) (if z then p.growth1 else s.growth) = .ok c ∧
      s' = { s with liquidity := if z then sub s.liquidity c.1 else add s.liquidity c.1, ticks := c.2, tick := if z then n - 1 else n }) ∨
    (s.price.toNat ≠ pn.toNat ∧ s.price.toNat ≠ s0.price.toNat ∧ ∃ t, getTickAtSqrtRatio s.price = .ok t ∧ s' = { s with tick := t }) ∨
    (s.price.toNat ≠ pn.toNat ∧ s.price.toNat = s0.price.toNat ∧ s' = s) := by
  unfold finishStep at h
  by_cases h1 : s.price.toNat = pn.toNat
  · rw [if_pos ((cmp_eq0 _ _).2 h1)] at h
    obtain ⟨c, h2, h⟩ := bind_ok h
    unfold crossTick at h2
    cases b
    · rw [if_neg (by decide)] at h2
      left
      refine ⟨h1, rfl, ?_⟩
      cases h2; cases h; rfl
    · rw [if_pos rfl] at h2
      obtain ⟨c', h3, h2⟩ := bind_ok h2
      right; left
      refine ⟨h1, rfl, c', h3, ?_⟩
      cases h2; cases h; rfl
  · rw [if_neg (fun hc => h1 ((cmp_eq0 _ _).1 hc))] at h
    by_cases h2 : s.price.toNat = s0.price.toNat
    · rw [if_neg (fun hc => hc ((cmp_eq0 _ _).2 h2))] at h
      right; right; right
      cases h
      exact ⟨h1, h2, rfl⟩
    · rw [if_pos (fun hc => h2 ((cmp_eq0 _ _).1 hc))] at h
      obtain ⟨t, h3, h⟩ := bind_ok h
      right; right; left
      cases h
      exact ⟨h1, h2, t, h3, rfl⟩

/-- Crossing changes only the outside growths, so the store still agrees with the ledger. -/
theorem TicksOk.cross {h : List Entry} {t t' : TickData} (ht : TicksOk h t) {n : Int} {x : Tick} {a b : U256}
    (hx : lookup t.ticks n = .some x) (hinc : Increasing t'.ticks)
    (hlk : ∀ j, lookup t'.ticks j = if j = n then .some { x with out0 := a, out1 := b } else lookup t.ticks j) : TicksOk h t' := by
  refine ⟨hinc, ?_, ?_⟩
  · intro i hi
    rw [hlk i] at hi
    split at hi
    · cases hi
    · exact ht.none i hi
  · intro i y hi
    rw [hlk i] at hi
    split at hi
    · rename_i he
      cases hi
      rw [he]
      exact ht.some n x hx
    · exact ht.some i y hi

theorem sub_liq {L net : U256} {a b : Int} (hL : (L.toNat : Int) = a) (hn : net.toInt = b) (ha : a < 2 ^ 128)
    (h0 : 0 ≤ a - b) (h1 : a - b < 2 ^ 128) : ((sub L net).toNat : Int) = a - b := by
  have e : L.toInt = a := by rw [toInt_of_lt (by omega), hL]
  have e2 : (sub L net).toInt = a - b := by
    rw [toInt_sub_of (by omega) (by omega)]; omega
  rw [toNat_of_nonneg (by omega), e2]

theorem add_liq {L net : U256} {a b : Int} (hL : (L.toNat : Int) = a) (hn : net.toInt = b) (ha : a < 2 ^ 128)
    (h0 : 0 ≤ a + b) (h1 : a + b < 2 ^ 128) : ((add L net).toNat : Int) = a + b := by
  have e : L.toInt = a := by rw [toInt_of_lt (by omega), hL]
  have e2 : (add L net).toInt = a + b := by
    rw [toInt_add_of (by omega) (by omega)]; omega
  rw [toNat_of_nonneg (by omega), e2]

theorem has_none {h : List Entry} {t : TickData} (ht : TicksOk h t) {i : Int} (hn : ¬ Has t i) : grossAt h i = 0 := by
  by_contra hc
  exact hn (ht.has.2 hc)

/-- One iteration upwards. -/
theorem step_up {p : Pool} {h : List Entry} {sp : Int} {ein : Bool} {limit : U256} {s s' : SwapState}
    (hi : LInv h sp s) (hf0 : 0 ≤ p.fee) (hf1 : p.fee < 1000000) (hr : s.remaining.toInt < 2 ^ 160)
    (hl1 : s.price.toNat < limit.toNat) (hl2 : limit.toNat < ratioN 887272)
    (hs : swapStep p false ein limit s = .ok s') :
    ∃ st target, LInv h sp s' ∧ StepFacts p h false ein limit s s' st target := by
  obtain ⟨n, b, pn, st, g, h1, h2, h3, h4, h5⟩ := swapStep_inv hs
  have hne : s.ticks.ticks ≠ [] := by
    intro hc; rw [next_empty hc] at h1; cases h1
  have hsp : 0 < s.ticks.spacing := by rw [hi.spacing]; exact hi.sp_pos
  obtain ⟨n', b', e1, q1, q2, q3⟩ := next_up hi.ticks.inc hne (by omega) s.tick
  rw [h1] at e1
  obtain ⟨rfl, rfl⟩ : n = n' ∧ b = b' := by cases e1; exact ⟨rfl, rfl⟩
  have hn : s.tick < n := by
    cases b
    · rw [q2 rfl]; exact lt_wordMax hsp _
    · exact (q1 rfl).2.1
  have htlo := hi.tlo
  have hthi := hi.thi
  have hcl := clampTick_eq n
  have hcn : clampTick n = min n 887272 := by omega
  have hct : s.tick < clampTick n := by omega
  have hno : ∀ j, s.tick < j → j < clampTick n → ¬ Has s.ticks j := by
    intro j hj hj2 hh
    have := (q3 j hh hj).1
    omega
  obtain ⟨_, hc2, hpn⟩ := getSqrtRatioAtTick_ok h2
  have hT := pickTarget_up pn limit
  have hpn2 : ratioN (s.tick + 1) ≤ pn.toNat := by
    rw [hpn]; exact ratioN_le (by omega) (by omega) (by omega)
  have hphi := hi.phi
  have hplo := hi.plo
  have hpo := hi.priceOk
  have hpoT : PriceOk (pickTarget false pn limit) :=
    ⟨by have := hpo.lo; omega, by have := ratioN_lt160 (t := 887272) (by norm_num) (le_refl _); omega⟩
  rcases computeSwapStep_spec hpo hpoT hi.liq_lt hr hf0 hf1 with ⟨_, he⟩ | ⟨st', hst, hspec⟩
  · rw [h3] at he; cases he
  rw [h3] at hst
  obtain rfl : st = st' := by cases hst; rfl
  have hb := hspec.between
  have hb1 : s.price.toNat ≤ st.next.toNat := by omega
  have hb2 : st.next.toNat ≤ (pickTarget false pn limit).toNat := by omega
  refine ⟨st, pickTarget false pn limit, ?_⟩
  rcases finishStep_inv h5 with ⟨c1, c2, c3⟩ | ⟨c1, c2, c, c3, c4⟩ | ⟨c1, c2, t, c3, c4⟩ | ⟨c1, c2, c3⟩
  · -- reached, not initialized
    dsimp only at c1
    have hnmax : clampTick n ≠ 887272 := by
      intro hc
      rw [hc] at hpn
      omega
    have hnn : clampTick n = n := by omega
    have hnot : ¬ Has s.ticks n := by
      intro hh
      have := (q3 n hh hn).2 rfl
      rw [c2] at this; cases this
    have hno' : ∀ j, s.tick < j → j ≤ n → ¬ Has s.ticks j := by
      intro j hj hj2
      rcases Int.lt_or_eq_of_le hj2 with h | h
      · exact hno j hj (by omega)
      · rw [h]; exact hnot
    rw [if_neg (show ¬ (false = true) by decide)] at c3
    subst c3
    constructor
    · refine ⟨hi.cov, hi.sp_pos, hi.spacing, hi.ticks, ?_, ?_, ?_, ?_, ?_, ?_⟩
      · show (s.liquidity.toNat : Int) = active h (clampTick n)
        rw [hnn, hi.liq]
        exact (hi.cov.active_const (le_of_lt hn) (fun j h1 h2 => has_none hi.ticks (hno' j h1 h2))).symm
      · show -887272 ≤ clampTick n
        omega
      · show clampTick n < 887272
        omega
      · show ratioN (clampTick n) ≤ st.next.toNat
        omega
      · show st.next.toNat ≤ ratioN (clampTick n + 1)
        rw [c1, hpn]; exact ratioN_le (by omega) (by omega) (by omega)
      · show st.next.toNat < _
        omega
    · refine ⟨h3, ⟨n, b, pn, h1, h2, rfl⟩, hspec, rfl, rfl, rfl, h4, (by intro h; cases h), (by intro h; cases h), (fun _ => ⟨by omega, by omega⟩), ?_, ?_, ?_,
        (by intro h; cases h), (by intro h; cases h)⟩
      · refine Move.stay rfl rfl ?_
        intro j hj1 hj2
        change min s.tick (clampTick n) < j at hj1
        change j ≤ max s.tick (clampTick n) at hj2
        exact hno' j (by omega) (by omega)
      · intro _; right; left
        exact ⟨rfl, hct⟩
      · refine ⟨s.tick, clampTick n, htlo, le_refl _, hct, by omega, ?_, ?_, ?_⟩
        · show ratioN s.tick ≤ min s.price.toNat st.next.toNat; omega
        · show max s.price.toNat st.next.toNat ≤ ratioN (clampTick n); omega
        · intro j hj1 hj2; exact has_none hi.ticks (hno j hj1 hj2)
  · -- crossing
    dsimp only at c1 c3
    have hnmax : clampTick n ≠ 887272 := by
      intro hc
      rw [hc] at hpn
      omega
    have hnn : clampTick n = n := by omega
    have hhas := (q1 c2).1
    obtain ⟨x, hx⟩ := Option.isSome_iff_exists.1 hhas
    rw [hnn] at c3
    obtain ⟨ts', d1, d2, d3⟩ := cross_some hi.ticks.inc hx p.growth0 g
    rw [if_neg (by decide), if_neg (by decide), d1] at c3
    obtain rfl : (x.net, ({ s.ticks with ticks := ts' } : TickData)) = c := by cases c3; rfl
    dsimp only at c4
    rw [if_neg (show ¬ (false = true) by decide), if_neg (show ¬ (false = true) by decide)] at c4
    obtain ⟨_, hx2, _⟩ := hi.ticks.some n x hx
    have hact : active h n = active h s.tick + netAt h n := by
      rw [hi.cov.active_step n, hi.cov.active_const (show s.tick ≤ n - 1 by omega)
        (fun j h1 h2 => has_none hi.ticks (hno j h1 (by omega)))]
    have hliq := add_liq hi.liq hx2 (hi.cov.active_lt _) (by rw [← hact]; exact hi.cov.active_nonneg _)
      (by rw [← hact]; exact hi.cov.active_lt _)
    subst c4
    constructor
    · refine ⟨hi.cov, hi.sp_pos, hi.spacing, hi.ticks.cross hx d2 d3, ?_, ?_, ?_, ?_, ?_, ?_⟩
      · show ((add s.liquidity x.net).toNat : Int) = active h (clampTick n)
        rw [hnn, hliq, hact]
      · show -887272 ≤ clampTick n
        omega
      · show clampTick n < 887272
        omega
      · show ratioN (clampTick n) ≤ st.next.toNat
        omega
      · show st.next.toNat ≤ ratioN (clampTick n + 1)
        rw [c1, hpn]; exact ratioN_le (by omega) (by omega) (by omega)
      · show st.next.toNat < _
        omega
    · refine ⟨h3, ⟨n, b, pn, h1, h2, rfl⟩, hspec, rfl, rfl, rfl, h4, (by intro h; cases h), (by intro h; cases h), (fun _ => ⟨by omega, by omega⟩), ?_, ?_, ?_,
        (by intro h; cases h), (by intro h; cases h)⟩
      · exact Move.up n x rfl hx hn (fun j h1 h2 => hno j h1 (by omega)) hnn rfl d2 d3 rfl
      · intro _; right; left
        exact ⟨rfl, hct⟩
      · refine ⟨s.tick, clampTick n, htlo, le_refl _, hct, by omega, ?_, ?_, ?_⟩
        · show ratioN s.tick ≤ min s.price.toNat st.next.toNat; omega
        · show max s.price.toNat st.next.toNat ≤ ratioN (clampTick n); omega
        · intro j hj1 hj2; exact has_none hi.ticks (hno j hj1 hj2)
  · -- stopped inside
    dsimp only at c1 c2 c3
    obtain ⟨t1, t2, t3, t4⟩ := getTickAtSqrtRatio_ok c3
    have ht1 : s.tick ≤ t := by
      by_contra hc
      have := ratioN_le (s := t + 1) (t := s.tick) (by omega) (by omega) (by omega)
      omega
    have ht2 : t < clampTick n := by
      by_contra hc
      have := ratioN_le (s := clampTick n) (t := t) (by omega) (by omega) (by omega)
      omega
    subst c4
    constructor
    · refine ⟨hi.cov, hi.sp_pos, hi.spacing, hi.ticks, ?_, t1, t2, t3, le_of_lt t4, ?_⟩
      · show (s.liquidity.toNat : Int) = active h t
        rw [hi.liq]
        exact (hi.cov.active_const ht1 (fun j h1 h2 => has_none hi.ticks (hno j h1 (by omega)))).symm
      · show st.next.toNat < _
        omega
    · refine ⟨h3, ⟨n, b, pn, h1, h2, rfl⟩, hspec, rfl, rfl, rfl, h4, (by intro h; cases h), (by intro h; cases h), (fun _ => ⟨by omega, by omega⟩), ?_, ?_, ?_,
        (by intro h; cases h), (by intro h; cases h)⟩
      · refine Move.stay rfl rfl ?_
        intro j hj1 hj2
        change min s.tick t < j at hj1
        change j ≤ max s.tick t at hj2
        exact hno j (by omega) (by omega)
      · intro hT'; left
        change st.next.toNat = _ at hT'
        change st.next.toNat = _
        omega
      · refine ⟨s.tick, clampTick n, htlo, le_refl _, hct, by omega, ?_, ?_, ?_⟩
        · show ratioN s.tick ≤ min s.price.toNat st.next.toNat; omega
        · show max s.price.toNat st.next.toNat ≤ ratioN (clampTick n); omega
        · intro j hj1 hj2; exact has_none hi.ticks (hno j hj1 hj2)
  · -- price unchanged
    dsimp only at c1 c2
    subst c3
    constructor
    · refine ⟨hi.cov, hi.sp_pos, hi.spacing, hi.ticks, hi.liq, hi.tlo, hi.thi, ?_, ?_, ?_⟩
      · show ratioN s.tick ≤ st.next.toNat; omega
      · show st.next.toNat ≤ ratioN (s.tick + 1); omega
      · show st.next.toNat < _; omega
    · refine ⟨h3, ⟨n, b, pn, h1, h2, rfl⟩, hspec, rfl, rfl, rfl, h4, (by intro h; cases h), (by intro h; cases h), (fun _ => ⟨by omega, by omega⟩), ?_, ?_, ?_,
        (by intro h; cases h), (by intro h; cases h)⟩
      · refine Move.stay rfl rfl ?_
        intro j hj1 hj2
        change min s.tick s.tick < j at hj1
        change j ≤ max s.tick s.tick at hj2
        omega
      · intro hT'; left
        change st.next.toNat = _ at hT'
        change st.next.toNat = _
        omega
      · refine ⟨s.tick, clampTick n, htlo, le_refl _, hct, by omega, ?_, ?_, ?_⟩
        · show ratioN s.tick ≤ min s.price.toNat st.next.toNat; omega
        · show max s.price.toNat st.next.toNat ≤ ratioN (clampTick n); omega
        · intro j hj1 hj2; exact has_none hi.ticks (hno j hj1 hj2)

/-- One iteration downwards. -/
theorem step_down {p : Pool} {h : List Entry} {sp : Int} {ein : Bool} {limit : U256} {s s' : SwapState}
    (hi : LInv h sp s) (hf0 : 0 ≤ p.fee) (hf1 : p.fee < 1000000) (hr : s.remaining.toInt < 2 ^ 160)
    (hl1 : limit.toNat < s.price.toNat) (hl2 : ratioN (-887272) < limit.toNat)
    (hgap : s.tick < wordMin s.ticks s.tick → ∀ j, s.tick < j → j < wordMin s.ticks s.tick → grossAt h j = 0)
    (hs : swapStep p true ein limit s = .ok s') :
    ∃ st target, LInv h sp s' ∧ StepFacts p h true ein limit s s' st target := by
  obtain ⟨n, b, pn, st, g, h1, h2, h3, h4, h5⟩ := swapStep_inv hs
  have hne : s.ticks.ticks ≠ [] := by
    intro hc; rw [next_empty hc] at h1; cases h1
  have hsp : 0 < s.ticks.spacing := by rw [hi.spacing]; exact hi.sp_pos
  obtain ⟨n', b', e1, q1, q2, q3⟩ := next_down hi.ticks.inc hne (by omega) s.tick
  rw [h1] at e1
  obtain ⟨rfl, rfl⟩ : n = n' ∧ b = b' := by cases e1; exact ⟨rfl, rfl⟩
  have htlo := hi.tlo
  have hthi := hi.thi
  have hcl := clampTick_eq n
  obtain ⟨hc1, hc2, hpn⟩ := getSqrtRatioAtTick_ok h2
  have hT := pickTarget_down pn limit
  have hphi := hi.phi
  have hplo := hi.plo
  have hpo := hi.priceOk
  have hpm := hi.pmax
  have h160 := ratioN_lt160 (t := 887272) (by norm_num) (le_refl _)
  by_cases hgood : wordMin s.ticks s.tick ≤ s.tick
  · -- the search is correct
    have hn : n ≤ s.tick := by
      cases b
      · rw [q2 rfl]; exact hgood
      · exact (q1 rfl).2.1
    have hnw : wordMin s.ticks s.tick ≤ n := by
      cases b
      · rw [q2 rfl]
      · exact (q1 rfl).2.2
    have hgd : ∀ x : Nat, x = ratioN n → (wordMin s.ticks s.tick ≤ n - 1 ∧ n - 1 ≤ s.tick) ∨
        (n - 1 = wordMin s.ticks s.tick - 1 ∧ x = ratioN (wordMin s.ticks s.tick)) := by
      intro x hx
      by_cases hc : n = wordMin s.ticks s.tick
      · right; rw [← hc]; exact ⟨rfl, hx⟩
      · left; omega
    have hcn : clampTick n = max (-887272) n := by omega
    have hct : clampTick n ≤ s.tick := by omega
    have hno : ∀ j, clampTick n < j → j ≤ s.tick → ¬ Has s.ticks j := by
      intro j hj hj2 hh
      have := (q3 j hh hj2).1
      omega
    have hseg : ∀ j, clampTick n < j → j < s.tick + 1 → grossAt h j = 0 :=
      fun j hj1 hj2 => has_none hi.ticks (hno j hj1 (by omega))
    have hpn2 : pn.toNat ≤ ratioN s.tick := by
      rw [hpn]; exact ratioN_le (by omega) (by omega) (by omega)
    have hpoT : PriceOk (pickTarget true pn limit) := ⟨by have := ratioN_ge (t := -887272) (le_refl _) (by norm_num); omega, by omega⟩
    rcases computeSwapStep_spec hpo hpoT hi.liq_lt hr hf0 hf1 with ⟨_, he⟩ | ⟨st', hst, hspec⟩
    · rw [h3] at he; cases he
    rw [h3] at hst
    obtain rfl : st = st' := by cases hst; rfl
    have hb := hspec.between
    have hb1 : st.next.toNat ≤ s.price.toNat := by omega
    have hb2 : (pickTarget true pn limit).toNat ≤ st.next.toNat := by omega
    refine ⟨st, pickTarget true pn limit, ?_⟩
    rcases finishStep_inv h5 with ⟨c1, c2, c3⟩ | ⟨c1, c2, c, c3, c4⟩ | ⟨c1, c2, t, c3, c4⟩ | ⟨c1, c2, c3⟩
    · -- reached, not initialized
      dsimp only at c1
      have hnmax : clampTick n ≠ -887272 := by
        intro hc
        rw [hc] at hpn
        omega
      have hnn : clampTick n = n := by omega
      have hnot : ¬ Has s.ticks n := by
        intro hh
        have := (q3 n hh hn).2 rfl
        rw [c2] at this; cases this
      have hno' : ∀ j, n - 1 < j → j ≤ s.tick → ¬ Has s.ticks j := by
        intro j hj hj2
        rcases Int.lt_or_eq_of_le (show n ≤ j by omega) with h | h
        · exact hno j (by omega) hj2
        · rw [← h]; exact hnot
      rw [if_pos (show true = true from rfl)] at c3
      subst c3
      constructor
      · refine ⟨hi.cov, hi.sp_pos, hi.spacing, hi.ticks, ?_, ?_, ?_, ?_, ?_, ?_⟩
        · show (s.liquidity.toNat : Int) = active h (clampTick n - 1)
          rw [hnn, hi.liq]
          exact hi.cov.active_const (by omega) (fun j h1 h2 => has_none hi.ticks (hno' j h1 h2))
        · show -887272 ≤ clampTick n - 1
          omega
        · show clampTick n - 1 < 887272
          omega
        · show ratioN (clampTick n - 1) ≤ st.next.toNat
          rw [c1, hpn]; exact ratioN_le (by omega) (by omega) (by omega)
        · show st.next.toNat ≤ ratioN (clampTick n - 1 + 1)
          rw [Int.sub_add_cancel]; omega
        · show st.next.toNat < _
          omega
      · refine ⟨h3, ⟨n, b, pn, h1, h2, rfl⟩, hspec, rfl, rfl, rfl, h4, (fun _ => by omega), (fun _ _ => by omega), (by intro h; cases h), ?_, ?_, ?_,
          (fun _ hh => by omega), (fun _ _ => by rw [show clampTick n - 1 = n - 1 by omega]; exact hgd _ (by show st.next.toNat = ratioN n; rw [c1, hpn, hnn]))⟩
        · refine Move.stay rfl rfl ?_
          intro j hj1 hj2
          change min s.tick (clampTick n - 1) < j at hj1
          change j ≤ max s.tick (clampTick n - 1) at hj2
          exact hno' j (by omega) (by omega)
        · intro _; right; right
          refine ⟨rfl, fun _ => ?_⟩
          show clampTick n - 1 < s.tick
          omega
        · refine ⟨clampTick n, s.tick + 1, by omega, by omega, by omega, by omega, ?_, ?_, hseg⟩
          · show ratioN (clampTick n) ≤ min s.price.toNat st.next.toNat; omega
          · show max s.price.toNat st.next.toNat ≤ ratioN (s.tick + 1); omega
    · -- crossing
      dsimp only at c1 c3
      have hnmax : clampTick n ≠ -887272 := by
        intro hc
        rw [hc] at hpn
        omega
      have hnn : clampTick n = n := by omega
      have hhas := (q1 c2).1
      obtain ⟨x, hx⟩ := Option.isSome_iff_exists.1 hhas
      rw [hnn] at c3
      obtain ⟨ts', d1, d2, d3⟩ := cross_some hi.ticks.inc hx g p.growth1
      rw [if_pos rfl, if_pos rfl, d1] at c3
      obtain rfl : (x.net, ({ s.ticks with ticks := ts' } : TickData)) = c := by cases c3; rfl
      dsimp only at c4
      rw [if_pos (show true = true from rfl), if_pos (show true = true from rfl)] at c4
      obtain ⟨_, hx2, _⟩ := hi.ticks.some n x hx
      have hact : active h (n - 1) = active h s.tick - netAt h n := by
        have e1 := hi.cov.active_step n
        have e2 := hi.cov.active_const (show n ≤ s.tick by omega)
          (fun j h1 h2 => has_none hi.ticks (hno j (by omega) (by omega)))
        omega
      have hliq := sub_liq hi.liq hx2 (hi.cov.active_lt _) (by rw [← hact]; exact hi.cov.active_nonneg _)
        (by rw [← hact]; exact hi.cov.active_lt _)
      subst c4
      constructor
      · refine ⟨hi.cov, hi.sp_pos, hi.spacing, hi.ticks.cross hx d2 d3, ?_, ?_, ?_, ?_, ?_, ?_⟩
        · show ((sub s.liquidity x.net).toNat : Int) = active h (clampTick n - 1)
          rw [hnn, hliq, hact]
        · show -887272 ≤ clampTick n - 1
          omega
        · show clampTick n - 1 < 887272
          omega
        · show ratioN (clampTick n - 1) ≤ st.next.toNat
          rw [c1, hpn]; exact ratioN_le (by omega) (by omega) (by omega)
        · show st.next.toNat ≤ ratioN (clampTick n - 1 + 1)
          rw [Int.sub_add_cancel]; omega
        · show st.next.toNat < _
          omega
      · refine ⟨h3, ⟨n, b, pn, h1, h2, rfl⟩, hspec, rfl, rfl, rfl, h4, (fun _ => by omega), (fun _ _ => by omega), (by intro h; cases h), ?_, ?_, ?_,
          (fun _ hh => by omega), (fun _ _ => by rw [show clampTick n - 1 = n - 1 by omega]; exact hgd _ (by show st.next.toNat = ratioN n; rw [c1, hpn, hnn]))⟩
        · refine Move.down n x rfl hx hn (fun j h1 h2 => hno j (by omega) h2) ?_ rfl d2 d3 rfl
          show clampTick n - 1 = n - 1
          omega
        · intro _; right; right
          refine ⟨rfl, fun _ => ?_⟩
          show clampTick n - 1 < s.tick
          omega
        · refine ⟨clampTick n, s.tick + 1, by omega, by omega, by omega, by omega, ?_, ?_, hseg⟩
          · show ratioN (clampTick n) ≤ min s.price.toNat st.next.toNat; omega
          · show max s.price.toNat st.next.toNat ≤ ratioN (s.tick + 1); omega
    · -- stopped inside
      dsimp only at c1 c2 c3
      obtain ⟨t1, t2, t3, t4⟩ := getTickAtSqrtRatio_ok c3
      have ht1 : t ≤ s.tick := by
        by_contra hc
        have := ratioN_le (s := s.tick + 1) (t := t) (by omega) (by omega) (by omega)
        omega
      have ht2 : clampTick n ≤ t := by
        by_contra hc
        have := ratioN_le (s := t + 1) (t := clampTick n) (by omega) (by omega) (by omega)
        omega
      subst c4
      constructor
      · refine ⟨hi.cov, hi.sp_pos, hi.spacing, hi.ticks, ?_, t1, t2, t3, le_of_lt t4, ?_⟩
        · show (s.liquidity.toNat : Int) = active h t
          rw [hi.liq]
          exact hi.cov.active_const ht1 (fun j h1 h2 => has_none hi.ticks (hno j (by omega) (by omega)))
        · show st.next.toNat < _
          omega
      · refine ⟨h3, ⟨n, b, pn, h1, h2, rfl⟩, hspec, rfl, rfl, rfl, h4, (fun _ => by omega), (fun _ _ => by omega), (by intro h; cases h), ?_, ?_, ?_,
          (fun _ hh => by omega), (fun _ _ => Or.inl ⟨by show _ ≤ t; omega, ht1⟩)⟩
        · refine Move.stay rfl rfl ?_
          intro j hj1 hj2
          change min s.tick t < j at hj1
          change j ≤ max s.tick t at hj2
          exact hno j (by omega) (by omega)
        · intro hT'; left
          change st.next.toNat = _ at hT'
          change st.next.toNat = _
          omega
        · refine ⟨clampTick n, s.tick + 1, by omega, by omega, by omega, by omega, ?_, ?_, hseg⟩
          · show ratioN (clampTick n) ≤ min s.price.toNat st.next.toNat; omega
          · show max s.price.toNat st.next.toNat ≤ ratioN (s.tick + 1); omega
    · -- price unchanged
      dsimp only at c1 c2
      subst c3
      constructor
      · refine ⟨hi.cov, hi.sp_pos, hi.spacing, hi.ticks, hi.liq, hi.tlo, hi.thi, ?_, ?_, ?_⟩
        · show ratioN s.tick ≤ st.next.toNat; omega
        · show st.next.toNat ≤ ratioN (s.tick + 1); omega
        · show st.next.toNat < _; omega
      · refine ⟨h3, ⟨n, b, pn, h1, h2, rfl⟩, hspec, rfl, rfl, rfl, h4, (fun _ => by omega), (fun _ _ => by omega), (by intro h; cases h), ?_, ?_, ?_,
          (fun _ hh => by omega), (fun _ _ => Or.inl ⟨hgood, le_refl _⟩)⟩
        · refine Move.stay rfl rfl ?_
          intro j hj1 hj2
          change min s.tick s.tick < j at hj1
          change j ≤ max s.tick s.tick at hj2
          omega
        · intro hT'; left
          change st.next.toNat = _ at hT'
          change st.next.toNat = _
          omega
        · refine ⟨clampTick n, s.tick + 1, by omega, by omega, by omega, by omega, ?_, ?_, hseg⟩
          · show ratioN (clampTick n) ≤ min s.price.toNat st.next.toNat; omega
          · show max s.price.toNat st.next.toNat ≤ ratioN (s.tick + 1); omega
  · -- the search went up
    have hbf : b = false := by
      cases b
      · rfl
      · have := q1 rfl; omega
    have hnw := q2 hbf
    obtain ⟨k, hk0, hk1, hk2⟩ := (wordMin_gt_iff hsp s.tick).1 (by omega)
    have hkw : wordMin s.ticks s.tick = 256 * k * s.ticks.spacing := by
      obtain ⟨k', hk0', hk1', hk2'⟩ := (wordMin_gt_iff hsp s.tick).1 (by omega)
      have hneg : s.tick < 0 := by
        have h0 : 256 * k * s.ticks.spacing ≤ 0 := Int.mul_nonpos_of_nonpos_of_nonneg (by omega) (le_of_lt hsp)
        omega
      obtain ⟨h6, h7⟩ := tdiv_neg_bounds hsp hneg
      have h8 : Int.tdiv s.tick s.ticks.spacing = 256 * k := by
        apply le_antisymm
        · have : (Int.tdiv s.tick s.ticks.spacing - 1) * s.ticks.spacing < 256 * k * s.ticks.spacing := by omega
          have := lt_of_mul_lt_mul_right this (le_of_lt hsp)
          omega
        · have : (256 * k - 1) * s.ticks.spacing < Int.tdiv s.tick s.ticks.spacing * s.ticks.spacing := by rw [sub_mul]; omega
          have := lt_of_mul_lt_mul_right this (le_of_lt hsp)
          omega
      unfold wordMin
      rw [h8, show 256 * k / 256 * 256 = 256 * k by omega]
    have hn0 : n ≤ 0 := by
      rw [hnw, hkw]
      exact Int.mul_nonpos_of_nonpos_of_nonneg (by omega) (le_of_lt hsp)
    have hnt : s.tick < n := by omega
    have hnn : clampTick n = n := by omega
    rw [hnn] at hpn h5
    have hno : ∀ j, s.tick < j → j < n → grossAt h j = 0 := by
      intro j hj1 hj2
      exact hgap (by omega) j hj1 (by omega)
    have hpn2 : ratioN (s.tick + 1) ≤ pn.toNat := by
      rw [hpn]; exact ratioN_le (by omega) (by omega) (by omega)
    have hpn3 : pn.toNat < ratioN 887272 := by
      rw [hpn]; exact ratioN_lt (by omega) (by omega) (by omega)
    have hpoT : PriceOk (pickTarget true pn limit) := ⟨by have := hpo.lo; omega, by omega⟩
    have htw : (pickTarget true pn limit).toNat = ratioN (wordMin s.ticks s.tick) := by rw [← hnw, ← hpn]; omega
    rcases computeSwapStep_spec hpo hpoT hi.liq_lt hr hf0 hf1 with ⟨_, he⟩ | ⟨st', hst, hspec⟩
    · rw [h3] at he; cases he
    rw [h3] at hst
    obtain rfl : st = st' := by cases hst; rfl
    have hb := hspec.between
    have hb1 : s.price.toNat ≤ st.next.toNat := by omega
    have hb2 : st.next.toNat ≤ pn.toNat := by omega
    refine ⟨st, pickTarget true pn limit, ?_⟩
    have hgo : ¬ (wordMin s.ticks s.tick ≤ s.tick) := hgood
    rcases finishStep_inv h5 with ⟨c1, c2, c3⟩ | ⟨c1, c2, c, c3, c4⟩ | ⟨c1, c2, t, c3, c4⟩ | ⟨c1, c2, c3⟩
    · dsimp only at c1
      rw [if_pos (show true = true from rfl)] at c3
      subst c3
      constructor
      · refine ⟨hi.cov, hi.sp_pos, hi.spacing, hi.ticks, ?_, ?_, ?_, ?_, ?_, ?_⟩
        · show (s.liquidity.toNat : Int) = active h (n - 1)
          rw [hi.liq]
          exact (hi.cov.active_const (by omega) (fun j h1 h2 => hno j h1 (by omega))).symm
        · show -887272 ≤ n - 1
          omega
        · show n - 1 < 887272
          omega
        · show ratioN (n - 1) ≤ st.next.toNat
          rw [c1, hpn]; exact ratioN_le (by omega) (by omega) (by omega)
        · show st.next.toNat ≤ ratioN (n - 1 + 1)
          rw [Int.sub_add_cancel]; omega
        · show st.next.toNat < _
          omega
      · refine ⟨h3, ⟨n, b, pn, h1, h2, rfl⟩, hspec, rfl, rfl, rfl, h4, (fun _ => by omega), (fun _ hh => absurd hh hgo), (by intro h; cases h), ?_, ?_, ?_,
          (fun _ _ => ⟨by omega, by show _ ≤ n - 1; omega, by show n - 1 < _; omega, htw⟩), (fun _ hh => absurd hh hgo)⟩
        · refine Move.stay rfl rfl ?_
          intro j hj1 hj2
          change min s.tick (n - 1) < j at hj1
          change j ≤ max s.tick (n - 1) at hj2
          rw [hi.ticks.has, not_not]
          exact hno j (by omega) (by omega)
        · intro _; right; right
          exact ⟨rfl, fun hh => absurd hh hgo⟩
        · refine ⟨s.tick, n, htlo, le_refl _, hnt, by omega, ?_, ?_, hno⟩
          · show ratioN s.tick ≤ min s.price.toNat st.next.toNat; omega
          · show max s.price.toNat st.next.toNat ≤ ratioN n; omega
    · rw [hbf] at c2; cases c2
    · dsimp only at c1 c2 c3
      obtain ⟨t1, t2, t3, t4⟩ := getTickAtSqrtRatio_ok c3
      have ht1 : s.tick ≤ t := by
        by_contra hc
        have := ratioN_le (s := t + 1) (t := s.tick) (by omega) (by omega) (by omega)
        omega
      have ht2 : t < n := by
        by_contra hc
        have := ratioN_le (s := n) (t := t) (by omega) (by omega) (by omega)
        omega
      subst c4
      constructor
      · refine ⟨hi.cov, hi.sp_pos, hi.spacing, hi.ticks, ?_, t1, t2, t3, le_of_lt t4, ?_⟩
        · show (s.liquidity.toNat : Int) = active h t
          rw [hi.liq]
          exact (hi.cov.active_const ht1 (fun j h1 h2 => hno j h1 (by omega))).symm
        · show st.next.toNat < _
          omega
      · refine ⟨h3, ⟨n, b, pn, h1, h2, rfl⟩, hspec, rfl, rfl, rfl, h4, (fun _ => by omega), (fun _ hh => absurd hh hgo), (by intro h; cases h), ?_, ?_, ?_,
          (fun _ _ => ⟨by omega, ht1, by show t < _; omega, htw⟩), (fun _ hh => absurd hh hgo)⟩
        · refine Move.stay rfl rfl ?_
          intro j hj1 hj2
          change min s.tick t < j at hj1
          change j ≤ max s.tick t at hj2
          rw [hi.ticks.has, not_not]
          exact hno j (by omega) (by omega)
        · intro hT'
          change st.next.toNat = _ at hT'
          omega
        · refine ⟨s.tick, n, htlo, le_refl _, hnt, by omega, ?_, ?_, hno⟩
          · show ratioN s.tick ≤ min s.price.toNat st.next.toNat; omega
          · show max s.price.toNat st.next.toNat ≤ ratioN n; omega
    · dsimp only at c1 c2
      subst c3
      constructor
      · refine ⟨hi.cov, hi.sp_pos, hi.spacing, hi.ticks, hi.liq, hi.tlo, hi.thi, ?_, ?_, ?_⟩
        · show ratioN s.tick ≤ st.next.toNat; omega
        · show st.next.toNat ≤ ratioN (s.tick + 1); omega
        · show st.next.toNat < _; omega
      · refine ⟨h3, ⟨n, b, pn, h1, h2, rfl⟩, hspec, rfl, rfl, rfl, h4, (fun _ => by omega), (fun _ hh => absurd hh hgo), (by intro h; cases h), ?_, ?_, ?_,
          (fun _ _ => ⟨by omega, le_refl _, by show s.tick < _; omega, htw⟩), (fun _ hh => absurd hh hgo)⟩
        · refine Move.stay rfl rfl ?_
          intro j hj1 hj2
          change min s.tick s.tick < j at hj1
          change j ≤ max s.tick s.tick at hj2
          omega
        · intro hT'
          change st.next.toNat = _ at hT'
          omega
        · refine ⟨s.tick, n, htlo, le_refl _, hnt, by omega, ?_, ?_, hno⟩
          · show ratioN s.tick ≤ min s.price.toNat st.next.toNat; omega
          · show max s.price.toNat st.next.toNat ≤ ratioN n; omega

end Pool
end Uni
