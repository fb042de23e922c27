import Verif.Proofs.Terminate
import Verif.Spec.PoolHistory
/-! # The pool invariant -/
namespace Uni
open U256 Spec TickData TickMath SwapMath FullMath SqrtPriceMath LiquidityAmounts
namespace Pool

/-- Invariant of a pool with ledger `h`. -/
structure Inv (h : List Entry) (p : Pool) : Prop where
  cov : Covered h
  bounds : ∀ e ∈ h, -887272 ≤ e.lower ∧ e.upper ≤ 887272
  sp_pos : 1 < p.spacing
  spacing : p.ticks.spacing = p.spacing
  ticks : TicksOk h p.ticks
  liq : (p.liquidity.toNat : Int) = active h p.tick
  tlo : -887272 ≤ p.tick
  thi : p.tick < 887272
  plo : ratioN p.tick ≤ p.price.toNat
  phi : p.price.toNat ≤ ratioN (p.tick + 1)
  pmax : p.price.toNat < ratioN 887272
  fee0 : 0 ≤ p.fee
  fee1 : p.fee < 1000000

theorem Inv.liq_lt {h : List Entry} {p : Pool} (hi : Inv h p) : p.liquidity.toNat < 2 ^ 128 := by
  have h1 := hi.liq
  have h2 := hi.cov.active_lt p.tick
  omega

/-! ### Creation -/

theorem new_inv {a b : String} {fee : Int} {price : U256} {p : Pool} (hfee : fee = 500 ∨ fee = 3000 ∨ fee = 10000)
    (h : Pool.new a b fee price = .ok p) :
    Inv [] p ∧ p.fee = fee ∧ p.price = price ∧ p.token0 = a ∧ p.token1 = b ∧ p.growth0 = zero ∧ p.growth1 = zero ∧
      p.liquidity = zero ∧ p.ticks.ticks = [] ∧ ∀ k, p.positions k = none := by
  unfold Pool.new at h
  obtain ⟨_, h1, h⟩ := bind_ok h
  obtain ⟨t, h2, h⟩ := bind_ok h
  cases h
  obtain ⟨t1, t2, t3, t4⟩ := getTickAtSqrtRatio_ok h2
  have hsp : 1 < Cons.tickSpaces fee := by rcases hfee with rfl | rfl | rfl <;> decide
  refine ⟨⟨trivial, (by intro e he; cases he), hsp, rfl, ?_, ?_, t1, t2, t3, le_of_lt t4, ?_, ?_, ?_⟩,
    rfl, rfl, rfl, rfl, rfl, rfl, rfl, rfl, fun _ => rfl⟩
  · refine ⟨List.Pairwise.nil, fun i _ => rfl, ?_⟩
    intro i x hx; cases hx
  · rfl
  · have := ratioN_le (s := t + 1) (t := 887272) (by omega) (by omega) (le_refl _)
    show price.toNat < _
    omega
  · show 0 ≤ fee; omega
  · show fee < 1000000; omega

/-! ### Ledger sums after one change -/

theorem active_cons (e : Entry) (h : List Entry) (t : Int) :
    active (e :: h) t = (if e.lower ≤ t ∧ t < e.upper then e.delta else 0) + active h t := by
  unfold active
  rw [wsum_cons]
  split <;> simp

theorem grossAt_cons (e : Entry) (h : List Entry) (t : Int) (he : e.lower < e.upper) :
    grossAt (e :: h) t = (if t = e.lower ∨ t = e.upper then e.delta else 0) + grossAt h t := by
  unfold grossAt
  rw [wsum_cons]
  by_cases h1 : e.lower = t
  · have h2 : ¬ e.upper = t := by omega
    simp [h1, h2]
  · by_cases h2 : e.upper = t
    · simp [h1, h2]
    · have h3 : ¬ (t = e.lower ∨ t = e.upper) := by omega
      simp [h1, h2, h3]

theorem netAt_cons (e : Entry) (h : List Entry) (t : Int) (he : e.lower < e.upper) :
    netAt (e :: h) t = (if t = e.lower then e.delta else if t = e.upper then - e.delta else 0) + netAt h t := by
  unfold netAt
  rw [wsum_cons]
  by_cases h1 : e.lower = t
  · have h2 : ¬ e.upper = t := by omega
    simp [h1, h2]
  · by_cases h2 : e.upper = t
    · have h3 : ¬ t = e.lower := by omega
      simp [h1, h2, h3]
    · have h3 : ¬ t = e.lower := by omega
      have h4 : ¬ t = e.upper := by omega
      simp [h1, h2, h3, h4]

/-! ### The tick store after one change -/

theorem bounds_spec {t : TickData} (hs : Increasing t.ticks) {l u : Int} (hlu : l ≠ u) (cur : Int) (d g0 g1 : U256) :
    ∃ t1 t2, t.updateTick l cur d g0 g1 false = .ok (nowEmpty (lookup t.ticks l) d, t1) ∧
      t1.updateTick u cur d g0 g1 true = .ok (nowEmpty (lookup t.ticks u) d, t2) ∧
      Increasing t2.ticks ∧ t2.spacing = t.spacing ∧
      ∀ j, lookup t2.ticks j = if j = u then some (updated (lookup t.ticks u) u cur d g0 g1 true)
        else if j = l then some (updated (lookup t.ticks l) l cur d g0 g1 false) else lookup t.ticks j := by
  obtain ⟨ts1, h1, h2, h3⟩ := updateTick_spec hs l cur d g0 g1 false
  obtain ⟨ts2, h4, h5, h6⟩ := updateTick_spec (t := { t with ticks := ts1 }) h2 u cur d g0 g1 true
  have hu : lookup ts1 u = lookup t.ticks u := by rw [h3 u, if_neg (fun h => hlu h.symm)]
  refine ⟨{ t with ticks := ts1 }, { t with ticks := ts2 }, h1, h4.trans ?_, h5, rfl, ?_⟩
  · show Except.ok (nowEmpty (lookup ts1 u) d, _) = _
    rw [hu]
  · intro j
    show lookup ts2 j = _
    rw [h6 j]
    show (if j = u then some (updated (lookup ts1 u) u cur d g0 g1 true) else lookup ts1 j) = _
    rw [hu, h3 j]

theorem clearIf_spec {t : TickData} (hs : Increasing t.ticks) (c : Bool) (i : Int) :
    ∃ t', clearIf c t i = .ok t' ∧ Increasing t'.ticks ∧ t'.spacing = t.spacing ∧
      ∀ j, lookup t'.ticks j = if c = true ∧ j = i then none else lookup t.ticks j := by
  unfold clearIf
  cases c
  · refine ⟨t, if_neg (by decide), hs, rfl, fun j => ?_⟩
    rw [if_neg (by simp)]
  · obtain ⟨ts', h1, h2, h3⟩ := clearTick_spec hs i
    refine ⟨{ t with ticks := ts' }, by rw [if_pos rfl, h1], h2, rfl, fun j => ?_⟩
    show lookup ts' j = _
    rw [h3 j]
    simp

/-- One updated tick agrees with the new ledger. -/
theorem updated_ok {h : List Entry} {t : TickData} (ht : TicksOk h t) {e : Entry} (hc : Covered (e :: h)) {d : U256}
    (hd : d.toInt = e.delta) {i : Int} (up : Bool) (hi : i = if up then e.upper else e.lower) (cur : Int) (g0 g1 : U256) :
    ((updated (lookup t.ticks i) i cur d g0 g1 up).gross.toNat : Int) = grossAt (e :: h) i ∧
    (updated (lookup t.ticks i) i cur d g0 g1 up).net.toInt = netAt (e :: h) i ∧
    (nowEmpty (lookup t.ticks i) d = true ↔ Has t i ∧ grossAt (e :: h) i = 0) := by
  have hlt : e.lower < e.upper := hc.2.1
  have hg : grossAt (e :: h) i = e.delta + grossAt h i := by
    rw [grossAt_cons e h i hlt, if_pos]
    cases up
    · left; rw [hi, if_neg (by decide)]
    · right; rw [hi, if_pos rfl]
  have hn : netAt (e :: h) i = (if up then - e.delta else e.delta) + netAt h i := by
    rw [netAt_cons e h i hlt]
    cases up
    · rw [if_neg (by decide)] at hi
      rw [if_pos hi]; rfl
    · rw [if_pos rfl] at hi
      rw [if_neg (by omega), if_pos hi]; rfl
  have b1 := hc.gross_nonneg i
  have b2 := hc.gross_lt i
  have b3 := hc.net_le i
  have b4 := hc.neg_net_le i
  have c1 := hc.tail.gross_nonneg i
  have c2 := hc.tail.gross_lt i
  have c3 := hc.tail.net_le i
  have c4 := hc.tail.neg_net_le i
  rcases hx : lookup t.ticks i with _ | x
  · have h0 := ht.none i hx
    have h1 := hc.tail.net_zero h0
    have hdn : (d.toNat : Int) = d.toInt := toNat_of_nonneg (by omega)
    refine ⟨?_, ?_, ?_⟩
    · unfold updated makeTick
      dsimp only
      split <;> (show (d.toNat : Int) = _; omega)
    · have hnet : (updated none i cur d g0 g1 up).net = if up then neg d else d := by
        unfold updated makeTick
        dsimp only
        split <;> rfl
      rw [hnet, hn]
      cases up
      · rw [if_neg (by decide), if_neg (by decide)]; omega
      · rw [if_pos rfl, if_pos rfl, toInt_neg_of (x := d) (by omega)]; omega
    · unfold nowEmpty Has
      rw [hx]
      simp
  · obtain ⟨x1, x2, x3⟩ := ht.some i x hx
    have hgr : ((add x.gross d).toNat : Int) = grossAt h i + e.delta := add_liq x1 hd (by omega) (by omega) (by omega)
    refine ⟨?_, ?_, ?_⟩
    · show ((add x.gross d).toNat : Int) = _
      omega
    · show (if up then sub x.net d else add x.net d).toInt = _
      rw [hn]
      cases up
      · rw [if_neg (by decide), if_neg (by decide), toInt_add_of (by omega) (by omega)]; omega
      · rw [if_pos rfl, if_pos rfl, toInt_sub_of (by omega) (by omega)]; omega
    · unfold nowEmpty Has
      rw [hx]
      dsimp only
      rw [isZero_iff]
      simp
      omega

/-- The store after both updates and the clears agrees with the new ledger. -/
theorem ticks_after {h : List Entry} {t t' : TickData} (ht : TicksOk h t) {e : Entry} (hc : Covered (e :: h)) {d : U256}
    (hd : d.toInt = e.delta) (hfresh : e.delta ≠ 0 ∨ (Has t e.lower ∧ Has t e.upper)) {cur : Int} {g0 g1 : U256}
    (hinc : Increasing t'.ticks)
    (hlk : ∀ j, lookup t'.ticks j =
      if j = e.upper then (if nowEmpty (lookup t.ticks e.upper) d then none else some (updated (lookup t.ticks e.upper) e.upper cur d g0 g1 true))
      else if j = e.lower then (if nowEmpty (lookup t.ticks e.lower) d then none else some (updated (lookup t.ticks e.lower) e.lower cur d g0 g1 false))
      else lookup t.ticks j) : TicksOk (e :: h) t' := by
  have hlt : e.lower < e.upper := hc.2.1
  obtain ⟨l1, l2, l3⟩ := updated_ok ht hc hd false (show e.lower = if false = true then e.upper else e.lower by rfl) cur g0 g1
  obtain ⟨u1, u2, u3⟩ := updated_ok ht hc hd true (show e.upper = if true = true then e.upper else e.lower by rfl) cur g0 g1
  have hother : ∀ j, j ≠ e.lower → j ≠ e.upper → grossAt (e :: h) j = grossAt h j ∧ netAt (e :: h) j = netAt h j := by
    intro j h1 h2
    rw [grossAt_cons e h j hlt, netAt_cons e h j hlt, if_neg (by omega), if_neg h1, if_neg h2]
    omega
  have nz : ∀ i, (i = e.lower ∨ i = e.upper) → ¬ (Has t i ∧ grossAt (e :: h) i = 0) → grossAt (e :: h) i ≠ 0 := by
    intro i hi hn h0
    by_cases hh : Has t i
    · exact hn ⟨hh, h0⟩
    · have h1 := has_none ht hh
      rw [grossAt_cons e h i hlt, if_pos hi, h1] at h0
      rcases hfresh with hf | ⟨hf1, hf2⟩
      · omega
      · rcases hi with hi | hi
        · rw [hi] at hh; exact hh hf1
        · rw [hi] at hh; exact hh hf2
  refine ⟨hinc, ?_, ?_⟩
  · intro i hi
    rw [hlk i] at hi
    by_cases c1 : i = e.upper
    · rw [if_pos c1] at hi
      subst c1
      split at hi
      · rename_i hc; exact (u3.1 hc).2
      · cases hi
    · rw [if_neg c1] at hi
      by_cases c2 : i = e.lower
      · rw [if_pos c2] at hi
        subst c2
        split at hi
        · rename_i hc; exact (l3.1 hc).2
        · cases hi
      · rw [if_neg c2] at hi
        rw [(hother i c2 c1).1]
        exact ht.none i hi
  · intro i x hi
    rw [hlk i] at hi
    by_cases c1 : i = e.upper
    · rw [if_pos c1] at hi
      subst c1
      split at hi
      · cases hi
      · rename_i hc
        cases hi
        exact ⟨u1, u2, nz _ (Or.inr rfl) (fun h => hc (u3.2 h))⟩
    · rw [if_neg c1] at hi
      by_cases c2 : i = e.lower
      · rw [if_pos c2] at hi
        subst c2
        split at hi
        · cases hi
        · rename_i hc
          cases hi
          exact ⟨l1, l2, nz _ (Or.inl rfl) (fun h => hc (l3.2 h))⟩
      · rw [if_neg c2] at hi
        rw [(hother i c2 c1).1, (hother i c2 c1).2]
        exact ht.some i x hi

/-! ### Liquidity changes -/

theorem checkTicks_ok {l u : Int} (h : checkTicks l u = .ok ()) : l < u ∧ -887272 ≤ l ∧ u ≤ 887272 := by
  unfold checkTicks at h
  obtain ⟨_, h1, h⟩ := bind_ok h
  obtain ⟨_, h2, h⟩ := bind_ok h
  have e1 : minTick = -887272 := by decide
  have e2 : maxTick = 887272 := by decide
  rw [e1] at h2
  rw [e2] at h
  unfold invariant at h1 h2 h
  refine ⟨?_, ?_, ?_⟩
  · split at h1
    · rename_i hc; exact of_decide_eq_true hc
    · cases h1
  · split at h2
    · rename_i hc; exact of_decide_eq_true hc
    · cases h2
  · split at h
    · rename_i hc; exact of_decide_eq_true hc
    · cases h

/-- The pool after a change of liquidity, as far as the invariant is concerned. -/
theorem change_inv {h : List Entry} {p p' : Pool} (hi : Inv h p) {e : Entry} (hc : Covered (e :: h))
    (hb : -887272 ≤ e.lower ∧ e.upper ≤ 887272) {d : U256} (hd : d.toInt = e.delta)
    (ht : TicksOk (e :: h) p'.ticks) (hts : p'.ticks.spacing = p.ticks.spacing)
    (h1 : p'.fee = p.fee) (h2 : p'.price = p.price) (h3 : p'.spacing = p.spacing) (h4 : p'.tick = p.tick)
    (h5 : p'.liquidity = if e.lower ≤ p.tick ∧ p.tick < e.upper then add p.liquidity d else p.liquidity) : Inv (e :: h) p' := by
  refine ⟨hc, ?_, by rw [h3]; exact hi.sp_pos, by rw [hts, h3, hi.spacing], ht, ?_, by rw [h4]; exact hi.tlo,
    by rw [h4]; exact hi.thi, by rw [h4, h2]; exact hi.plo, by rw [h4, h2]; exact hi.phi, by rw [h2]; exact hi.pmax,
    by rw [h1]; exact hi.fee0, by rw [h1]; exact hi.fee1⟩
  · intro x hx
    rcases List.mem_cons.1 hx with rfl | hx
    · exact hb
    · exact hi.bounds x hx
  · rw [h5, h4, active_cons]
    have a1 := hc.active_nonneg p.tick
    have a2 := hc.active_lt p.tick
    have a3 := hi.cov.active_lt p.tick
    rw [active_cons] at a1 a2
    by_cases hr : e.lower ≤ p.tick ∧ p.tick < e.upper
    · rw [if_pos hr] at a1 a2
      rw [if_pos hr, if_pos hr, add_liq hi.liq hd (by omega) (by omega) (by omega)]
      omega
    · rw [if_neg hr, if_neg hr, hi.liq]; omega

theorem modifyPosition_eq {p p' : Pool} {l u : Int} {d : U256} (hs : Increasing p.ticks.ticks) (hx : p.modifyPosition l u d = .ok p') :
    l < u ∧ -887272 ≤ l ∧ u ≤ 887272 ∧ ∃ t', Increasing t'.ticks ∧ t'.spacing = p.ticks.spacing ∧
      (∀ j, lookup t'.ticks j =
        if j = u then (if nowEmpty (lookup p.ticks.ticks u) d then none else some (updated (lookup p.ticks.ticks u) u p.tick d p.growth0 p.growth1 true))
        else if j = l then (if nowEmpty (lookup p.ticks.ticks l) d then none else some (updated (lookup p.ticks.ticks l) l p.tick d p.growth0 p.growth1 false))
        else lookup p.ticks.ticks j) ∧
      p' = { p with ticks := t', liquidity := if l ≤ p.tick ∧ p.tick < u then add p.liquidity d else p.liquidity } := by
  unfold modifyPosition at hx
  obtain ⟨_, hct, hx⟩ := bind_ok hx
  obtain ⟨hlu, hl, hu⟩ := checkTicks_ok hct
  obtain ⟨t1, t2, b1, b2, b3, b4, b5⟩ := bounds_spec hs (show l ≠ u by omega) p.tick d p.growth0 p.growth1
  rw [b1, Except_bind_ok] at hx
  dsimp only at hx
  rw [b2, Except_bind_ok] at hx
  dsimp only at hx
  obtain ⟨t3, c1, c2, c3, c4⟩ := clearIf_spec b3 (nowEmpty (lookup p.ticks.ticks l) d) l
  rw [c1, Except_bind_ok] at hx
  obtain ⟨t4, d1, d2, d3, d4⟩ := clearIf_spec c2 (nowEmpty (lookup p.ticks.ticks u) d) u
  rw [d1, Except_bind_ok] at hx
  refine ⟨hlu, hl, hu, t4, d2, by rw [d3, c3, b4], ?_, ?_⟩
  · intro j
    rw [d4 j, c4 j, b5 j]
    by_cases hju : j = u
    · subst hju
      have hjl : ¬ j = l := by omega
      by_cases hn : nowEmpty (lookup p.ticks.ticks j) d = true
      · simp [hn]
      · simp [hn, hjl]
    · by_cases hjl : j = l
      · subst hjl
        by_cases hn : nowEmpty (lookup p.ticks.ticks j) d = true
        · simp [hn, hju]
        · simp [hn, hju]
      · simp [hju, hjl]
  · by_cases hr : p.tick ≥ l ∧ p.tick < u
    · rw [if_pos hr] at hx
      rw [if_pos (show l ≤ p.tick ∧ p.tick < u from hr)]
      cases hx; rfl
    · rw [if_neg hr] at hx
      rw [if_neg (show ¬ (l ≤ p.tick ∧ p.tick < u) from hr)]
      cases hx; rfl

theorem modifyPosition_inv {h : List Entry} {p p' : Pool} (hi : Inv h p) {e : Entry} (hc : Covered (e :: h)) {d : U256}
    (hd : d.toInt = e.delta) (hfresh : e.delta ≠ 0 ∨ (Has p.ticks e.lower ∧ Has p.ticks e.upper))
    (hx : p.modifyPosition e.lower e.upper d = .ok p') : Inv (e :: h) p' := by
  obtain ⟨hlu, hl, hu, t', h1, h2, h3, rfl⟩ := modifyPosition_eq hi.ticks.inc hx
  exact change_inv hi hc ⟨hl, hu⟩ hd (ticks_after hi.ticks hc hd hfresh h1 h3) h2 rfl rfl rfl rfl rfl

/-- A change by zero can be dropped from the ledger. -/
theorem inv_zero {h : List Entry} {p : Pool} {e : Entry} (he : e.delta = 0) (hi : Inv (e :: h) p) : Inv h p := by
  have hlt := hi.cov.2.1
  have hg : ∀ t, grossAt (e :: h) t = grossAt h t := by
    intro t; rw [grossAt_cons e h t hlt, he]; simp
  have hn : ∀ t, netAt (e :: h) t = netAt h t := by
    intro t; rw [netAt_cons e h t hlt, he]; simp
  refine ⟨hi.cov.1, fun x hx => hi.bounds x (List.mem_cons_of_mem _ hx), hi.sp_pos, hi.spacing, ⟨hi.ticks.inc, ?_, ?_⟩, ?_,
    hi.tlo, hi.thi, hi.plo, hi.phi, hi.pmax, hi.fee0, hi.fee1⟩
  · intro i h1; rw [← hg i]; exact hi.ticks.none i h1
  · intro i x h1; rw [← hg i, ← hn i]; exact hi.ticks.some i x h1
  · rw [hi.liq, active_cons, he]; simp

theorem sgt_zero_pos {a : U256} (h : invariant (a.sgt zero) = .ok ()) : 0 < a.toInt ∧ (a.toNat : Int) = a.toInt := by
  unfold invariant at h
  split at h
  · rename_i hc
    have h1 := (sgt_iff _ _).1 hc
    have h2 : zero.toInt = 0 := by decide
    rw [h2] at h1
    exact ⟨h1, toNat_of_nonneg (le_of_lt h1)⟩
  · cases h

theorem covered_mint {h : List Entry} (hc : Covered h) {l u : Int} {a : U256} (hlu : l < u)
    (h3 : total h + a.toNat < 2 ^ 128) : Covered (⟨l, u, a.toNat⟩ :: h) := by
  refine ⟨hc, hlu, ?_, ?_⟩
  · have := hc.nonneg l u
    rw [outstanding_cons]
    simp
    omega
  · rw [total_cons]; dsimp only; omega

theorem mint_inv {h : List Entry} {p p' : Pool} (hi : Inv h p) {l u : Int} {a : U256}
    (h3 : total h + a.toNat < 2 ^ 128) (hx : p.mint l u a = .ok p') : Inv (⟨l, u, a.toNat⟩ :: h) p' := by
  unfold mint at hx
  obtain ⟨_, h4, hx⟩ := bind_ok hx
  obtain ⟨h5, h6⟩ := sgt_zero_pos h4
  have hlu := (modifyPosition_eq hi.ticks.inc hx).1
  exact modifyPosition_inv hi (e := ⟨l, u, a.toNat⟩) (covered_mint hi.cov hlu h3) (by rw [← h6]) (Or.inl (by dsimp only; omega)) hx

theorem exists_of_outstanding {h : List Entry} {l u : Int} (ho : outstanding h l u ≠ 0) : ∃ e ∈ h, e.lower = l ∧ e.upper = u := by
  induction h with
  | nil => exact absurd rfl ho
  | cons e h ih =>
    rw [outstanding_cons] at ho
    by_cases hc : e.lower = l ∧ e.upper = u
    · exact ⟨e, List.mem_cons_self, hc⟩
    · rw [if_neg hc] at ho
      obtain ⟨x, hx, h1⟩ := ih (by omega)
      exact ⟨x, List.mem_cons_of_mem _ hx, h1⟩

theorem covered_burn {h : List Entry} (hc : Covered h) {l u : Int} {a : U256} (h1 : (a.toNat : Int) ≤ outstanding h l u)
    (h2 : 0 < outstanding h l u) : Covered (⟨l, u, -a.toNat⟩ :: h) := by
  obtain ⟨e, he, e1, e2⟩ := exists_of_outstanding (show outstanding h l u ≠ 0 by omega)
  have h3 := hc.range e he
  rw [e1, e2] at h3
  refine ⟨hc, h3, ?_, ?_⟩
  · rw [outstanding_cons]; simp; omega
  · have := hc.total_lt
    rw [total_cons]; dsimp only; omega

theorem neg_toInt {a : U256} (h : a.toNat < 2 ^ 255) : (neg a).toInt = -(a.toNat : Int) := by
  have h1 : a.toInt = a.toNat := toInt_of_lt (by omega)
  rw [toInt_neg_of a (by omega), h1]

theorem burn_inv {h : List Entry} {p p' : Pool} (hi : Inv h p) {l u : Int} {a : U256} (h1 : (a.toNat : Int) ≤ outstanding h l u)
    (h2 : 0 < outstanding h l u) (hx : p.burn l u a = .ok p') :
    Inv (⟨l, u, -a.toNat⟩ :: h) p' := by
  have h3 := hi.cov.outstanding_lt l u
  have hg := hi.cov.gross_pos h2
  exact modifyPosition_inv hi (e := ⟨l, u, -a.toNat⟩) (covered_burn hi.cov h1 h2) (neg_toInt (by omega))
    (Or.inr ⟨hi.ticks.has.2 (by dsimp only; omega), hi.ticks.has.2 (by dsimp only; omega)⟩) hx

/-- What `updatePosition` does. -/
theorem updatePosition_eq {p p' : Pool} {pos : Info} {l u : Int} {d : U256} (hs : Increasing p.ticks.ticks) (hlu : l < u)
    (hx : p.updatePosition l u d = .ok (pos, p')) :
    ∃ (t2 t' : TickData) (ins : U256 × U256), Increasing t2.ticks ∧
      (∀ j, lookup t2.ticks j = if d.toNat = 0 then lookup p.ticks.ticks j
        else if j = u then some (updated (lookup p.ticks.ticks u) u p.tick d p.growth0 p.growth1 true)
        else if j = l then some (updated (lookup p.ticks.ticks l) l p.tick d p.growth0 p.growth1 false) else lookup p.ticks.ticks j) ∧
      t2.getFeeGrowthInside l u p.tick p.growth0 p.growth1 = .ok ins ∧
      (posOrNew (p.positions (posKey l u))).update d ins.1 ins.2 = .ok pos ∧
      Increasing t'.ticks ∧ t'.spacing = p.ticks.spacing ∧
      (∀ j, lookup t'.ticks j = if d.toNat = 0 then lookup p.ticks.ticks j
        else if j = u then (if d.toInt < 0 ∧ nowEmpty (lookup p.ticks.ticks u) d = true then none
          else some (updated (lookup p.ticks.ticks u) u p.tick d p.growth0 p.growth1 true))
        else if j = l then (if d.toInt < 0 ∧ nowEmpty (lookup p.ticks.ticks l) d = true then none
          else some (updated (lookup p.ticks.ticks l) l p.tick d p.growth0 p.growth1 false))
        else lookup p.ticks.ticks j) ∧
      p' = { p with ticks := t', positions := setPos p.positions (posKey l u) pos } := by
  unfold updatePosition at hx
  obtain ⟨b, hb, hx⟩ := bind_ok hx
  obtain ⟨ins, hins, hx⟩ := bind_ok hx
  obtain ⟨pos', hpos, hx⟩ := bind_ok hx
  dsimp only at hx
  obtain ⟨t3, hc1, hx⟩ := bind_ok hx
  obtain ⟨t4, hc2, hx⟩ := bind_ok hx
  have hx' : (pos', ({ p with ticks := t4, positions := setPos p.positions (posKey l u) pos' } : Pool)) = (pos, p') := Except.ok.inj hx
  obtain ⟨rfl, rfl⟩ := Prod.mk.inj hx'
  have hneg : decide (d.sign = -1) = decide (d.toInt < 0) := by
    congr 1
    rw [sign_eq_toInt]
    apply propext
    constructor
    · intro h; exact Int.sign_eq_neg_one_iff_neg.1 h
    · intro h; exact Int.sign_eq_neg_one_iff_neg.2 h
  rw [hneg] at hc1 hc2
  unfold updateBounds at hb
  by_cases hz : d.toNat = 0
  · rw [if_pos ((isZero_iff _).2 hz)] at hb
    cases hb
    rw [Bool.and_false] at hc1 hc2
    unfold clearIf at hc1 hc2
    rw [if_neg (by decide)] at hc1 hc2
    cases hc1; cases hc2
    refine ⟨p.ticks, p.ticks, ins, hs, ?_, hins, hpos, hs, rfl, ?_, rfl⟩ <;> (intro j; rw [if_pos hz])
  · rw [if_neg (fun h => hz ((isZero_iff _).1 h))] at hb
    obtain ⟨t1, t2, b1, b2, b3, b4, b5⟩ := bounds_spec hs (show l ≠ u by omega) p.tick d p.growth0 p.growth1
    rw [b1, Except_bind_ok] at hb
    dsimp only at hb
    rw [b2, Except_bind_ok] at hb
    cases hb
    dsimp only at hins hc1 hc2
    obtain ⟨t3', c1, c2, c3, c4⟩ := clearIf_spec b3 (decide (d.toInt < 0) && nowEmpty (lookup p.ticks.ticks l) d) l
    rw [c1] at hc1; cases hc1
    obtain ⟨t4', d1, d2, d3, d4⟩ := clearIf_spec c2 (decide (d.toInt < 0) && nowEmpty (lookup p.ticks.ticks u) d) u
    rw [d1] at hc2; cases hc2
    refine ⟨t2, t4, ins, b3, ?_, hins, hpos, d2, by rw [d3, c3, b4], ?_, rfl⟩
    · intro j; rw [if_neg hz, b5 j]
    · intro j
      rw [if_neg hz, d4 j, c4 j, b5 j]
      simp only [Bool.and_eq_true, decide_eq_true_eq]
      by_cases hju : j = u
      · subst hju
        have hjl : ¬ j = l := by omega
        by_cases hn : d.toInt < 0 ∧ nowEmpty (lookup p.ticks.ticks j) d = true
        · simp [hn]
        · simp [hn, hjl]
      · by_cases hjl : j = l
        · subst hjl
          by_cases hn : d.toInt < 0 ∧ nowEmpty (lookup p.ticks.ticks j) d = true
          · simp [hn, hju]
          · simp [hn, hju]
        · simp [hju, hjl]

/-- What `modifyPositionStrategy` does. -/
theorem modifyStrategy_eq {p p' : Pool} {pos : Info} {l u : Int} {d a0 a1 : U256}
    (hx : p.modifyPositionStrategy l u d = .ok (pos, a0, a1, p')) :
    l < u ∧ -887272 ≤ l ∧ u ≤ 887272 ∧ ∃ q, p.updatePosition l u d = .ok (pos, q) ∧
      (d.toNat = 0 → a0 = zero ∧ a1 = zero ∧ p' = q) ∧
      (d.toNat ≠ 0 → q.amountsFor l u d = .ok (a0, a1) ∧
        p' = { q with liquidity := if l ≤ p.tick ∧ p.tick < u then add q.liquidity d else q.liquidity }) := by
  unfold modifyPositionStrategy at hx
  obtain ⟨_, hct, hx⟩ := bind_ok hx
  obtain ⟨hlu, hl, hu⟩ := checkTicks_ok hct
  obtain ⟨r, hr, hx⟩ := bind_ok hx
  refine ⟨hlu, hl, hu, r.2, ?_, ?_, ?_⟩
  · by_cases hz : d.toNat = 0
    · rw [if_pos ((isZero_iff _).2 hz)] at hx
      cases hx; exact hr
    · rw [if_neg (fun h => hz ((isZero_iff _).1 h))] at hx
      obtain ⟨am, ha, hx⟩ := bind_ok hx
      split at hx <;> (cases hx; exact hr)
  · intro hz
    rw [if_pos ((isZero_iff _).2 hz)] at hx
    cases hx; exact ⟨rfl, rfl, rfl⟩
  · intro hz
    rw [if_neg (fun h => hz ((isZero_iff _).1 h))] at hx
    obtain ⟨am, ha, hx⟩ := bind_ok hx
    by_cases hr : l ≤ p.tick ∧ p.tick < u
    · rw [if_pos hr] at hx ⊢
      cases hx; exact ⟨ha, rfl⟩
    · rw [if_neg hr] at hx ⊢
      cases hx; exact ⟨ha, rfl⟩

theorem modifyStrategy_inv {h : List Entry} {p p' : Pool} (hi : Inv h p) {e : Entry} (hc : Covered (e :: h)) {pos : Info} {d a0 a1 : U256}
    (hd : d.toInt = e.delta) (hne : e.delta ≠ 0)
    (hx : p.modifyPositionStrategy e.lower e.upper d = .ok (pos, a0, a1, p')) : Inv (e :: h) p' := by
  obtain ⟨hlu, hl, hu, q, h1, _, h2⟩ := modifyStrategy_eq hx
  have hdn : d.toNat ≠ 0 := fun h0 => hne (by rw [← hd, toInt_eq_zero.2 h0])
  obtain ⟨_, rfl⟩ := h2 hdn
  obtain ⟨t2, t', ins, _, _, _, _, k1, k2, k3, rfl⟩ := updatePosition_eq hi.ticks.inc hlu h1
  refine change_inv hi hc ⟨hl, hu⟩ hd (ticks_after hi.ticks hc hd (Or.inl hne) (cur := p.tick) (g0 := p.growth0) (g1 := p.growth1) k1 ?_) k2 rfl rfl rfl rfl rfl
  intro j
  show lookup t'.ticks j = _
  rw [k3 j, if_neg hdn]
  have aux : ∀ i (up : Bool), (i = if up then e.upper else e.lower) → nowEmpty (lookup p.ticks.ticks i) d = true → d.toInt < 0 := by
    intro i up hiu hn
    obtain ⟨_, _, h3⟩ := updated_ok hi.ticks hc hd up hiu p.tick p.growth0 p.growth1
    obtain ⟨h4, h5⟩ := h3.1 hn
    have h6 := hi.ticks.has.1 h4
    have h7 := hi.cov.gross_nonneg i
    rw [grossAt_cons e h i hlu, if_pos] at h5
    · omega
    · cases up
      · left; rw [hiu, if_neg (by decide)]
      · right; rw [hiu, if_pos rfl]
  have auxu := aux e.upper true rfl
  have auxl := aux e.lower false rfl
  by_cases c1 : j = e.upper
  · rw [if_pos c1, if_pos c1]
    by_cases hn : nowEmpty (lookup p.ticks.ticks e.upper) d = true
    · rw [if_pos hn, if_pos ⟨auxu hn, hn⟩]
    · rw [if_neg hn, if_neg (fun h => hn h.2)]
  · rw [if_neg c1, if_neg c1]
    by_cases c2 : j = e.lower
    · rw [if_pos c2, if_pos c2]
      by_cases hn : nowEmpty (lookup p.ticks.ticks e.lower) d = true
      · rw [if_pos hn, if_pos ⟨auxl hn, hn⟩]
      · rw [if_neg hn, if_neg (fun h => hn h.2)]
    · rw [if_neg c2, if_neg c2]

/-- A pool that differs only in the growths and position records. -/
theorem inv_same {h : List Entry} {p p' : Pool} (hi : Inv h p) (h1 : p'.fee = p.fee) (h2 : p'.price = p.price) (h3 : p'.spacing = p.spacing)
    (h4 : p'.tick = p.tick) (h5 : p'.liquidity = p.liquidity) (h6 : p'.ticks.spacing = p.ticks.spacing)
    (h7 : Increasing p'.ticks.ticks) (h8 : ∀ j, lookup p'.ticks.ticks j = lookup p.ticks.ticks j) : Inv h p' := by
  refine ⟨hi.cov, hi.bounds, by rw [h3]; exact hi.sp_pos, by rw [h6, h3, hi.spacing], ⟨h7, ?_, ?_⟩, by rw [h5, h4]; exact hi.liq,
    by rw [h4]; exact hi.tlo,
    by rw [h4]; exact hi.thi, by rw [h4, h2]; exact hi.plo, by rw [h4, h2]; exact hi.phi, by rw [h2]; exact hi.pmax,
    by rw [h1]; exact hi.fee0, by rw [h1]; exact hi.fee1⟩
  · intro i; rw [h8 i]; exact hi.ticks.none i
  · intro i x; rw [h8 i]; exact hi.ticks.some i x

theorem mintStrategy_eq {p p' : Pool} {l u : Int} {a a0 a1 : U256} (hx : p.mintStrategy l u a = .ok (a0, a1, p')) :
    0 < a.toInt ∧ (a.toNat : Int) = a.toInt ∧ ∃ pos, p.modifyPositionStrategy l u a = .ok (pos, a0, a1, p') := by
  unfold mintStrategy at hx
  obtain ⟨_, h4, hx⟩ := bind_ok hx
  obtain ⟨h5, h6⟩ := sgt_zero_pos h4
  obtain ⟨r, hr, hx⟩ := bind_ok hx
  refine ⟨h5, h6, r.1, ?_⟩
  rw [hr, ← Except.ok.inj hx]

theorem mintStrategy_inv {h : List Entry} {p p' : Pool} (hi : Inv h p) {l u : Int} {a a0 a1 : U256}
    (h3 : total h + a.toNat < 2 ^ 128) (hx : p.mintStrategy l u a = .ok (a0, a1, p')) : Inv (⟨l, u, a.toNat⟩ :: h) p' := by
  obtain ⟨h5, h6, pos, hr⟩ := mintStrategy_eq hx
  have hlu := (modifyStrategy_eq hr).1
  exact modifyStrategy_inv hi (e := ⟨l, u, a.toNat⟩) (covered_mint hi.cov hlu h3) (by rw [← h6]) (by dsimp only; omega) hr

theorem burnStrategy_eq {p p' : Pool} {l u : Int} {a b0 b1 : U256} (hx : p.burnStrategy l u a = .ok (b0, b1, p')) :
    ∃ pos a0 a1 q, p.modifyPositionStrategy l u (neg a) = .ok (pos, a0, a1, q) ∧ b0 = neg a0 ∧ b1 = neg a1 ∧
      p' = { q with positions := setPos q.positions (posKey l u) { pos with owed0 := add pos.owed0 b0, owed1 := add pos.owed1 b1 } } := by
  unfold burnStrategy at hx
  obtain ⟨r, hr, hx⟩ := bind_ok hx
  dsimp only at hx
  refine ⟨r.1, r.2.1, r.2.2.1, r.2.2.2, hr, ?_⟩
  have hx' := Except.ok.inj hx
  obtain ⟨h1, h2⟩ := Prod.mk.inj hx'
  obtain ⟨h3, h4⟩ := Prod.mk.inj h2
  refine ⟨h1.symm, h3.symm, ?_⟩
  rw [← h4, ← h1, ← h3]

theorem burnStrategy_inv {h : List Entry} {p p' : Pool} (hi : Inv h p) {l u : Int} {a b0 b1 : U256} (h1 : (a.toNat : Int) ≤ outstanding h l u)
    (hx : p.burnStrategy l u a = .ok (b0, b1, p')) : Inv (if a.toNat = 0 then h else ⟨l, u, -a.toNat⟩ :: h) p' := by
  obtain ⟨pos, a0, a1, q, hr, _, _, rfl⟩ := burnStrategy_eq hx
  have h3 := hi.cov.outstanding_lt l u
  have hneg : (neg a).toInt = -(a.toNat : Int) := neg_toInt (by omega)
  have key : Inv (if a.toNat = 0 then h else ⟨l, u, -a.toNat⟩ :: h) q := by
    by_cases h0 : a.toNat = 0
    · rw [if_pos h0]
      obtain ⟨hlu, hl, hu, q', k1, k2, _⟩ := modifyStrategy_eq hr
      have hz : (neg a).toNat = 0 := by rw [← toInt_eq_zero, hneg]; omega
      obtain ⟨_, _, rfl⟩ := k2 hz
      obtain ⟨t2, t', ins, _, _, _, _, m1, m2, m3, rfl⟩ := updatePosition_eq hi.ticks.inc hlu k1
      refine inv_same hi rfl rfl rfl rfl rfl m2 m1 ?_
      intro j
      show lookup t'.ticks j = _
      rw [m3 j, if_pos hz]
    · rw [if_neg h0]
      exact modifyStrategy_inv hi (e := ⟨l, u, -a.toNat⟩) (covered_burn hi.cov h1 (by omega)) hneg (by dsimp only; omega) hr
  exact inv_same key rfl rfl rfl rfl rfl rfl key.ticks.inc (fun _ => rfl)

theorem collectStrategy_inv {h : List Entry} {p p' : Pool} (hi : Inv h p) {l u : Int} {b0 b1 : U256}
    (hx : p.collectStrategy l u = .ok (b0, b1, p')) : Inv h p' := by
  unfold collectStrategy at hx
  split at hx
  · cases hx
  · cases hx
    exact inv_same hi rfl rfl rfl rfl rfl rfl hi.ticks.inc (fun _ => rfl)

theorem flash_inv {h : List Entry} {p p' : Pool} (hi : Inv h p) {a b : U256} (hx : p.flash a b = .ok p') : Inv h p' := by
  unfold flash at hx
  obtain ⟨_, _, hx⟩ := bind_ok hx
  obtain ⟨_, _, hx⟩ := bind_ok hx
  obtain ⟨_, _, hx⟩ := bind_ok hx
  obtain ⟨_, _, hx⟩ := bind_ok hx
  obtain ⟨_, _, hx⟩ := bind_ok hx
  cases hx
  exact inv_same hi rfl rfl rfl rfl rfl rfl hi.ticks.inc (fun _ => rfl)

/-! ### Swaps -/

theorem toNat_effLimit (z : Bool) (limit : U256) : (effLimit z limit).toNat =
    if limit.toNat = 0 then (if z then ratioN (-887272) + 1 else ratioN 887272 - 1) else limit.toNat := by
  unfold effLimit
  by_cases h : limit.toNat = 0
  · rw [if_pos ((isZero_iff _).2 h), if_pos h]
    cases z
    · rw [if_neg (by decide), if_neg (by decide), ratioN_max]; decide +kernel
    · rw [if_pos rfl, if_pos rfl, ratioN_min]; decide +kernel
  · rw [if_neg (fun hc => h ((isZero_iff _).1 hc)), if_neg h]

theorem limitOk_iff (p : Pool) (z : Bool) (limit : U256) : limitOk p z limit = true ↔
    (z = true → limit.toNat < p.price.toNat ∧ ratioN (-887272) < limit.toNat) ∧
    (z = false → p.price.toNat < limit.toNat ∧ limit.toNat < ratioN 887272) := by
  unfold limitOk
  rw [ratioN_max, ratioN_min, ← toNat_minSqrtRatio, ← toNat_maxSqrtRatio]
  cases z
  · rw [if_neg (by decide), Bool.and_eq_true, decide_eq_true_iff, decide_eq_true_iff, cmp_pos_iff, cmp_neg_iff]
    simp
  · rw [if_pos rfl, Bool.and_eq_true, decide_eq_true_iff, decide_eq_true_iff, cmp_pos_iff, cmp_neg_iff]
    simp

theorem invariant_ok {c : Bool} (h : invariant c = .ok ()) : c = true := by
  unfold invariant at h
  split at h
  · assumption
  · cases h

/-- Inversion of a swap that returns. -/
theorem swap_eq {fuel : Nat} {p p' : Pool} {z : Bool} {amount limit r0 r1 : U256} (hx : swap fuel p z amount limit = .ok (r0, r1, p')) :
    amount.toInt ≠ 0 ∧ limitOk p z (effLimit z limit) = true ∧
    ∃ s, swapLoop p z (decide (0 ≤ amount.toInt)) (effLimit z limit) fuel (initState p z amount) = .ok s ∧
      (r0, r1) = swapResult z (decide (0 ≤ amount.toInt)) amount s ∧ p' = afterSwap p z s := by
  unfold swap at hx
  obtain ⟨_, h1, hx⟩ := bind_ok hx
  obtain ⟨_, h2, hx⟩ := bind_ok hx
  dsimp only at hx
  obtain ⟨s, h3, hx⟩ := bind_ok hx
  rw [sign_decide] at h3 hx
  refine ⟨?_, invariant_ok h2, s, h3, ?_⟩
  · have := invariant_ok h1
    intro hc
    rw [(isZero_iff _).2 (toInt_eq_zero.1 hc)] at this
    cases this
  · cases hx
    exact ⟨rfl, rfl⟩

theorem init_sinv {h : List Entry} {p : Pool} (hi : Inv h p) {z : Bool} {amount limit : U256} (ha : amount.toInt < 2 ^ 160)
    (hl : limitOk p z limit = true)
    (hc : z = true → ClearAbove p.spacing p.tick h) : SInv h p.spacing z (decide (0 ≤ amount.toInt)) limit (initState p z amount) := by
  obtain ⟨h1, h2⟩ := (limitOk_iff p z limit).1 hl
  refine ⟨⟨hi.cov, by have := hi.sp_pos; omega, hi.spacing, hi.ticks, hi.liq, hi.tlo, hi.thi, hi.plo, hi.phi, hi.pmax⟩, ?_, ?_, ha, ?_, ?_, hc⟩
  · intro hz
    have := h1 hz
    exact ⟨by show _ ≤ p.price.toNat; omega, this.2⟩
  · intro hz
    have := h2 hz
    exact ⟨by show p.price.toNat ≤ _; omega, this.2⟩
  · intro he; exact of_decide_eq_true he
  · intro he
    have := of_decide_eq_false he
    show amount.toInt ≤ 0
    omega

theorem after_inv {h : List Entry} {p : Pool} (hi : Inv h p) {z ein : Bool} {limit : U256} {s : SwapState} (hs : SInv h p.spacing z ein limit s) :
    Inv h (afterSwap p z s) :=
  ⟨hi.cov, hi.bounds, hi.sp_pos, hs.inv.spacing, hs.inv.ticks, hs.inv.liq, hs.inv.tlo, hs.inv.thi, hs.inv.plo, hs.inv.phi, hs.inv.pmax,
    hi.fee0, hi.fee1⟩

theorem swap_inv {h : List Entry} {p p' : Pool} (hi : Inv h p) {fuel : Nat} {z : Bool} {amount limit r0 r1 : U256} (ha : amount.toInt < 2 ^ 160)
    (hc : z = true → ClearAbove p.spacing p.tick h) (hx : swap fuel p z amount limit = .ok (r0, r1, p')) : Inv h p' := by
  obtain ⟨_, h2, s, h3, _, rfl⟩ := swap_eq hx
  exact after_inv hi (loop_inv (init_sinv hi ha h2 hc) hi.fee0 hi.fee1 h3).1

/-- Fields that no operation changes. -/
def SameId (p p' : Pool) : Prop := p'.spacing = p.spacing ∧ p'.fee = p.fee ∧ p'.token0 = p.token0 ∧ p'.token1 = p.token1

theorem modifyPosition_id {p p' : Pool} {l u : Int} {d : U256} (hx : p.modifyPosition l u d = .ok p') : SameId p p' := by
  unfold modifyPosition at hx
  obtain ⟨_, _, hx⟩ := bind_ok hx
  obtain ⟨_, _, hx⟩ := bind_ok hx
  obtain ⟨_, _, hx⟩ := bind_ok hx
  obtain ⟨_, _, hx⟩ := bind_ok hx
  obtain ⟨_, _, hx⟩ := bind_ok hx
  split at hx <;> (cases hx; exact ⟨rfl, rfl, rfl, rfl⟩)

theorem updatePosition_id {p p' : Pool} {pos : Info} {l u : Int} {d : U256} (hx : p.updatePosition l u d = .ok (pos, p')) : SameId p p' := by
  unfold updatePosition at hx
  obtain ⟨_, _, hx⟩ := bind_ok hx
  obtain ⟨_, _, hx⟩ := bind_ok hx
  obtain ⟨_, _, hx⟩ := bind_ok hx
  dsimp only at hx
  obtain ⟨_, _, hx⟩ := bind_ok hx
  obtain ⟨_, _, hx⟩ := bind_ok hx
  cases hx
  exact ⟨rfl, rfl, rfl, rfl⟩

theorem modifyStrategy_id {p p' : Pool} {pos : Info} {l u : Int} {d a0 a1 : U256}
    (hx : p.modifyPositionStrategy l u d = .ok (pos, a0, a1, p')) : SameId p p' := by
  obtain ⟨_, _, _, q, h1, h2, h3⟩ := modifyStrategy_eq hx
  have h4 := updatePosition_id h1
  by_cases hz : d.toNat = 0
  · obtain ⟨_, _, rfl⟩ := h2 hz; exact h4
  · obtain ⟨_, rfl⟩ := h3 hz; exact h4

theorem swap_id {fuel : Nat} {p p' : Pool} {z : Bool} {amount limit r0 r1 : U256} (hx : swap fuel p z amount limit = .ok (r0, r1, p')) :
    SameId p p' := by
  obtain ⟨_, _, s, _, _, rfl⟩ := swap_eq hx
  exact ⟨rfl, rfl, rfl, rfl⟩

theorem exec_id {fuel : Nat} {p p' : Pool} {op : PoolOp} (hx : op.exec fuel p = .ok p') : SameId p p' := by
  cases op with
  | mint l u a =>
    obtain ⟨_, _, h1⟩ := bind_ok hx
    exact modifyPosition_id h1
  | burn l u a => exact modifyPosition_id hx
  | mintStrategy l u a =>
    obtain ⟨⟨r0, r1, q⟩, h1, hx⟩ := bind_ok hx
    cases hx
    obtain ⟨_, _, pos, h2⟩ := mintStrategy_eq h1
    exact modifyStrategy_id h2
  | burnStrategy l u a =>
    obtain ⟨⟨r0, r1, q⟩, h1, hx⟩ := bind_ok hx
    cases hx
    obtain ⟨pos, a0, a1, q', h2, _, _, h3⟩ := burnStrategy_eq h1
    have h4 := modifyStrategy_id h2
    dsimp only
    rw [h3]
    exact h4
  | collectStrategy l u =>
    obtain ⟨⟨r0, r1, q⟩, h1, hx⟩ := bind_ok hx
    cases hx
    unfold collectStrategy at h1
    split at h1
    · cases h1
    · cases h1; exact ⟨rfl, rfl, rfl, rfl⟩
  | flash a b =>
    change p.flash a b = _ at hx
    unfold flash at hx
    obtain ⟨_, _, hx⟩ := bind_ok hx
    obtain ⟨_, _, hx⟩ := bind_ok hx
    obtain ⟨_, _, hx⟩ := bind_ok hx
    obtain ⟨_, _, hx⟩ := bind_ok hx
    obtain ⟨_, _, hx⟩ := bind_ok hx
    cases hx
    exact ⟨rfl, rfl, rfl, rfl⟩
  | exactInput a t l =>
    obtain ⟨⟨r0, r1, q⟩, h1, hx⟩ := bind_ok hx
    cases hx
    exact swap_id h1
  | exactOutput a t l =>
    obtain ⟨⟨r0, r1, q⟩, h1, hx⟩ := bind_ok hx
    cases hx
    exact swap_id h1

/-! ### Position records -/

theorem modifyPosition_pos {p p' : Pool} {l u : Int} {d : U256} (hx : p.modifyPosition l u d = .ok p') : p'.positions = p.positions := by
  unfold modifyPosition at hx
  obtain ⟨_, _, hx⟩ := bind_ok hx
  obtain ⟨_, _, hx⟩ := bind_ok hx
  obtain ⟨_, _, hx⟩ := bind_ok hx
  obtain ⟨_, _, hx⟩ := bind_ok hx
  obtain ⟨_, _, hx⟩ := bind_ok hx
  split at hx <;> (cases hx; rfl)

theorem updatePosition_pos {p p' : Pool} {pos : Info} {l u : Int} {d : U256} (hx : p.updatePosition l u d = .ok (pos, p')) :
    p'.positions = setPos p.positions (posKey l u) pos := by
  unfold updatePosition at hx
  obtain ⟨_, _, hx⟩ := bind_ok hx
  obtain ⟨_, _, hx⟩ := bind_ok hx
  obtain ⟨_, _, hx⟩ := bind_ok hx
  dsimp only at hx
  obtain ⟨_, _, hx⟩ := bind_ok hx
  obtain ⟨_, _, hx⟩ := bind_ok hx
  cases hx
  rfl

theorem modifyStrategy_pos {p p' : Pool} {pos : Info} {l u : Int} {d a0 a1 : U256}
    (hx : p.modifyPositionStrategy l u d = .ok (pos, a0, a1, p')) : p'.positions = setPos p.positions (posKey l u) pos := by
  obtain ⟨_, _, _, q, h1, h2, h3⟩ := modifyStrategy_eq hx
  have h4 := updatePosition_pos h1
  by_cases hz : d.toNat = 0
  · obtain ⟨_, _, rfl⟩ := h2 hz; exact h4
  · obtain ⟨_, rfl⟩ := h3 hz; exact h4

theorem setPos_setPos (m : String → Option Info) (k : String) (a b : Info) : setPos (setPos m k a) k b = setPos m k b := by
  funext k'
  unfold setPos
  by_cases h : k' = k
  · rw [if_pos h, if_pos h]
  · rw [if_neg h, if_neg h, if_neg h]

theorem mintStrategy_pos {p p' : Pool} {l u : Int} {a a0 a1 : U256} (hx : p.mintStrategy l u a = .ok (a0, a1, p')) :
    ∃ pos, p'.positions = setPos p.positions (posKey l u) pos := by
  obtain ⟨_, _, pos, h⟩ := mintStrategy_eq hx
  exact ⟨pos, modifyStrategy_pos h⟩

theorem burnStrategy_pos {p p' : Pool} {l u : Int} {a b0 b1 : U256} (hx : p.burnStrategy l u a = .ok (b0, b1, p')) :
    ∃ pos, p'.positions = setPos p.positions (posKey l u) pos := by
  obtain ⟨pos, a0, a1, q, h, _, _, rfl⟩ := burnStrategy_eq hx
  refine ⟨{ pos with owed0 := add pos.owed0 b0, owed1 := add pos.owed1 b1 }, ?_⟩
  show setPos q.positions _ _ = _
  rw [modifyStrategy_pos h, setPos_setPos]

theorem swap_pos {fuel : Nat} {p p' : Pool} {z : Bool} {amount limit r0 r1 : U256} (hx : swap fuel p z amount limit = .ok (r0, r1, p')) :
    p'.positions = p.positions := by
  obtain ⟨_, _, s, _, _, rfl⟩ := swap_eq hx
  rfl

/-- Everything but the position records. -/
def core (p : Pool) : String × String × Int × U256 × U256 × U256 × U256 × Int × Int × TickData :=
  (p.token0, p.token1, p.fee, p.price, p.liquidity, p.growth0, p.growth1, p.spacing, p.tick, p.ticks)

theorem ext_core {p q : Pool} (h1 : p.core = q.core) (h2 : p.positions = q.positions) : p = q := by
  cases p; cases q
  unfold core at h1
  simp only [Prod.mk.injEq] at h1
  obtain ⟨rfl, rfl, rfl, rfl, rfl, rfl, rfl, rfl, rfl, rfl⟩ := h1
  cases h2
  rfl

/-- The invariant holds after every history. -/
theorem exec_inv {h : List Entry} {p p' : Pool} (hi : Inv h p) {fuel : Nat} {op : PoolOp} (ha : op.Admissible p h)
    (hx : op.exec fuel p = .ok p') : Inv (op.ledger h) p' := by
  cases op with
  | mint l u a => exact mint_inv hi ha hx
  | burn l u a =>
    have h1 := burn_inv hi ha.1 ha.2 hx
    show Inv (if a.toNat = 0 then h else _) p'
    by_cases h0 : a.toNat = 0
    · rw [if_pos h0]; exact inv_zero (by dsimp only; omega) h1
    · rw [if_neg h0]; exact h1
  | mintStrategy l u a =>
    obtain ⟨⟨r0, r1, q⟩, h1, hx⟩ := bind_ok hx
    cases hx
    exact mintStrategy_inv hi ha h1
  | burnStrategy l u a =>
    obtain ⟨⟨r0, r1, q⟩, h1, hx⟩ := bind_ok hx
    cases hx
    exact burnStrategy_inv hi ha h1
  | collectStrategy l u =>
    obtain ⟨⟨r0, r1, q⟩, h1, hx⟩ := bind_ok hx
    cases hx
    exact collectStrategy_inv hi h1
  | flash a b => exact flash_inv hi hx
  | exactInput a t l =>
    obtain ⟨⟨r0, r1, q⟩, h1, hx⟩ := bind_ok hx
    cases hx
    exact swap_inv hi ha.1 (fun hz => ha.2 (of_decide_eq_true hz)) h1
  | exactOutput a t l =>
    obtain ⟨⟨r0, r1, q⟩, h1, hx⟩ := bind_ok hx
    cases hx
    exact swap_inv hi ha.1 (fun hz => ha.2 (of_decide_eq_true hz)) h1

theorem reaches_inv {p0 p : Pool} (hi : Inv [] p0) {h : List Entry} (hr : Reaches p0 h p) :
    Inv h p ∧ SameId p0 p := by
  induction hr with
  | start => exact ⟨hi, rfl, rfl, rfl, rfl⟩
  | step fuel op hr ha hx ih =>
    obtain ⟨h1, h2, h3, h4, h5⟩ := ih
    obtain ⟨k1, k2, k3, k4⟩ := exec_id hx
    exact ⟨exec_inv h1 ha hx, k1.trans h2, k2.trans h3, k3.trans h4, k4.trans h5⟩

end Pool
end Uni
