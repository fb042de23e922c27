import Verif.Proofs.Total
import Verif.Proofs.StratRuns
/-! # When a strategy can close its positions -/
namespace Uni
open U256 Spec TickData TickMath SwapMath FullMath SqrtPriceMath LiquidityAmounts Pool
namespace Strat

/-! ### The records hold the liquidity of the positions -/

theorem burn_liq {p p1 : Pool} {l u : Int} {a b0 b1 : U256} (hb : p.burnStrategy l u a = .ok (b0, b1, p1)) (k : String) :
    liqAt p1 k = liqAt p k + if posKey l u = k then - a else 0 := by
  obtain ⟨pos, a0, a1, q, h1, _, _, rfl⟩ := burnStrategy_eq hb
  refine liqAt_set (i := { pos with owed0 := add pos.owed0 b0, owed1 := add pos.owed1 b1 }) ?_ ?_ k
  · dsimp only
    rw [modifyStrategy_pos h1, setPos_setPos]
  · exact modifyStrategy_liq (pos := pos) h1

theorem collect_liq {p p1 : Pool} {l u : Int} {b0 b1 : U256} (hc : p.collectStrategy l u = .ok (b0, b1, p1)) (k : String) :
    liqAt p1 k = liqAt p k := by
  unfold collectStrategy at hc
  split at hc
  · cases hc
  · rename_i pos hp
    cases hc
    have := liqAt_set (p := p) (p' := { p with positions := setPos p.positions (posKey l u) { pos with owed0 := zero, owed1 := zero } })
      (k := posKey l u) (i := { pos with owed0 := zero, owed1 := zero }) (d := 0) rfl (by unfold liqAt; rw [hp, add_zero]; rfl) k
    rw [this]
    split <;> rw [add_zero]

theorem sumAt_cons (q : StratPos) (ps : List StratPos) (k : String) :
    sumAt (q :: ps) k = (if posKey q.lower q.upper = k then q.amount else 0) + sumAt ps k := by
  unfold sumAt; rw [List.map_cons, List.sum_cons]

theorem zero_of_self {a b : U256} (h : b = a + b) : a = 0 := by
  have : 0 + b = a + b := by rw [zero_add]; exact h
  exact (add_right_cancel this).symm

theorem burnLoop_liq {ps : List StratPos} : ∀ {s s1 : Strat}, burnLoop ps s = .ok s1 →
    ∀ k, liqAt s.pool k = liqAt s1.pool k + sumAt ps k := by
  induction ps with
  | nil =>
    intro s s1 hx k
    cases hx
    exact (add_zero _).symm
  | cons q ps ih =>
    intro s s1 hx k
    unfold burnLoop at hx
    obtain ⟨⟨b0, b1, p1⟩, hb, hx⟩ := bind_ok hx
    obtain ⟨⟨c0, c1, p2⟩, hc, hx⟩ := bind_ok hx
    dsimp only at hc hx
    have e := ih hx k
    dsimp only at e
    rw [collect_liq hc, burn_liq hb] at e
    rw [sumAt_cons]
    have : liqAt s.pool k = (liqAt s.pool k + if posKey q.lower q.upper = k then -q.amount else 0) +
        (if posKey q.lower q.upper = k then q.amount else 0) := by
      split
      · abel
      · abel
    rw [this, e]
    abel

theorem trade_liq {m : List Entry} {s : Strat} {p' : Pool} {fuel : Nat} {op : PoolOp} (hb : op.ByOthers m s)
    (hx : op.exec fuel s.pool = .ok p') : p'.positions = s.pool.positions := by
  cases op with
  | mint l u a => obtain ⟨_, _, h⟩ := bind_ok hx; exact modifyPosition_pos h
  | burn l u a => exact modifyPosition_pos hx
  | mintStrategy l u a => exact hb.elim
  | burnStrategy l u a => exact hb.elim
  | collectStrategy l u => exact hb.elim
  | flash a b =>
    change s.pool.flash a b = .ok p' at hx
    unfold flash at hx
    obtain ⟨_, _, hx⟩ := bind_ok hx
    obtain ⟨_, _, hx⟩ := bind_ok hx
    obtain ⟨_, _, hx⟩ := bind_ok hx
    obtain ⟨_, _, hx⟩ := bind_ok hx
    obtain ⟨_, _, hx⟩ := bind_ok hx
    cases hx
    rfl
  | exactInput a t l =>
    obtain ⟨⟨r0, r1, q⟩, h, hx⟩ := bind_ok hx
    cases hx
    exact swap_pos h
  | exactOutput a t l =>
    obtain ⟨⟨r0, r1, q⟩, h, hx⟩ := bind_ok hx
    cases hx
    exact swap_pos h

/-- In every run the record with key `k` holds exactly the liquidity of the open positions with this key. -/
theorem runs_liq {m : List Entry} {s : Strat} (hr : Runs m s) : ∀ k, liqAt s.pool k = sumAt s.positions k := by
  induction hr with
  | start hf hn hs =>
    intro k
    obtain ⟨h1, h2, _⟩ := new_owns hf hn hs
    have hp := (new_inv hf hn).2.2.2.2.2.2.2.2.2
    rw [h1, h2]
    unfold liqAt
    rw [hp k]
    rfl
  | trade fuel op _ hb hx ih =>
    intro k
    rw [← ih k]
    unfold liqAt
    dsimp only
    rw [trade_liq hb hx]
  | snapshot _ hx ih =>
    obtain ⟨h1, h2⟩ := makeSnapshot_eq hx
    rw [h1, h2]; exact ih
  | init fuel hr0 hx hf hw ih =>
    obtain ⟨h1, rfl⟩ := init_eq hx
    obtain ⟨new, x0, x1, rs, h2, _⟩ := openFirst_opened (runs_owns hr0) hf hw h1
    intro k
    rw [h2.recs, h2.pos, sumAt_append, ih]
  | rebalance fuel hr0 hx hf hw ih =>
    rcases rebalance_eq hx with ⟨_, _, rfl⟩ | ⟨_, c0, s1, h1, h2, rfl⟩
    · exact ih
    · obtain ⟨o, e, hb, hk, _, _, _, hst, rfl⟩ := closed_owns (runs_owns hr0) h1
      obtain ⟨new, x0, x1, rs, h3, _⟩ := openAgain_opened o hf (closed_swap hk hb hst (hw _ rfl)) h2
      intro k
      obtain ⟨_, _, _, _, h4⟩ := closeAll_spec (runs_owns hr0) h1
      have e2 := burnLoop_liq h4 k
      rw [ih k] at e2
      have e3 : liqAt s1.pool k = 0 := by
        have : sumAt _ k = liqAt s1.pool k + sumAt _ k := e2
        have h5 := zero_of_self this
        exact h5
      rw [h3.recs, h3.pos, sumAt_append, e, e3]
      rfl
  | burnAll hr0 hx he ih =>
    rcases burnAll_eq hx with ⟨_, _, rfl⟩ | ⟨t, h1, _, h2⟩
    · exact ih
    · intro k
      have e2 := burnLoop_liq h1 k
      rw [ih k] at e2
      have e3 : liqAt t.pool k = 0 := zero_of_self e2
      rw [he]
      rcases h2 with rfl | rfl <;> exact e3

/-! ### Sums without overflow -/

def natAt (ps : List StratPos) (k : String) : Nat := (ps.map (fun q => if posKey q.lower q.upper = k then q.amount.toNat else 0)).sum

theorem natAt_cons (q : StratPos) (ps : List StratPos) (k : String) :
    natAt (q :: ps) k = (if posKey q.lower q.upper = k then q.amount.toNat else 0) + natAt ps k := by
  unfold natAt; rw [List.map_cons, List.sum_cons]

theorem natAt_le (ps : List StratPos) (k : String) : (natAt ps k : Int) ≤ total (entries ps) := by
  induction ps with
  | nil => exact le_refl _
  | cons q ps ih =>
    rw [natAt_cons]
    show _ ≤ total (⟨q.lower, q.upper, q.amount.toNat⟩ :: entries ps)
    rw [total_cons]
    dsimp only
    push_cast
    split <;> omega

theorem sumAt_toNat {ps : List StratPos} {k : String} (h : natAt ps k < 2 ^ 256) : (sumAt ps k).toNat = natAt ps k := by
  induction ps with
  | nil => rfl
  | cons q ps ih =>
    rw [natAt_cons] at h
    rw [sumAt_cons, natAt_cons]
    have e := ih (by omega)
    by_cases hk : posKey q.lower q.upper = k
    · rw [if_pos hk] at h ⊢
      rw [if_pos hk]
      have := toNat_add_of_lt (x := q.amount) (y := sumAt ps k) (by omega)
      rw [e] at this
      exact this
    · rw [if_neg hk, if_neg hk, zero_add, Nat.zero_add, e]

theorem natAt_mem {ps : List StratPos} {q : StratPos} (hq : q ∈ ps) : q.amount.toNat ≤ natAt ps (posKey q.lower q.upper) := by
  induction ps with
  | nil => cases hq
  | cons q' ps ih =>
    rw [natAt_cons]
    rcases List.mem_cons.1 hq with rfl | h
    · rw [if_pos rfl]; omega
    · have := ih h; omega

theorem owns_total {m : List Entry} {ps : List StratPos} {p : Pool} (ho : Owns m ps p) (k : String) : natAt ps k < 2 ^ 128 := by
  obtain ⟨h, hi, hs⟩ := ho.inv
  have h1 := hi.cov.total_lt
  rw [hs.total, total_append] at h1
  have h2 : 0 ≤ total m := wsum_nonneg ho.nonneg (fun _ _ _ => by norm_num)
  have h3 := natAt_le ps k
  omega

/-! ### One burn -/

theorem liqAt_record (p : Pool) (l u : Int) : liqAt p (posKey l u) = (recordOf p (l, u)).liquidity := by
  unfold liqAt recordOf
  dsimp only
  cases p.positions (posKey l u) <;> rfl

theorem owns_holds {m : List Entry} {ps : List StratPos} {p : Pool} (ho : Owns m ps p) {q : StratPos} (hq : q ∈ ps) {h : List Entry}
    (hs : SameBook h (entries ps ++ m)) : (q.amount.toNat : Int) ≤ outstanding h q.lower q.upper := by
  rw [hs.outstanding, outstanding_append]
  obtain ⟨a, b, rfl⟩ := List.append_of_mem hq
  rw [entries_append, outstanding_append]
  have := outstanding_entries_nonneg a q.lower q.upper
  have := outstanding_entries_nonneg b q.lower q.upper
  have := ho.nonneg q.lower q.upper
  have e : outstanding (entries (q :: b)) q.lower q.upper = (q.amount.toNat : Int) + outstanding (entries b) q.lower q.upper := by
    show outstanding (⟨q.lower, q.upper, q.amount.toNat⟩ :: entries b) _ _ = _
    rw [outstanding_cons, if_pos ⟨rfl, rfl⟩]
  omega

theorem owns_initialized {m : List Entry} {ps : List StratPos} {p : Pool} (ho : Owns m ps p) {q : StratPos} (hq : q ∈ ps) :
    Increasing p.ticks.ticks ∧ Pool.Initialized p q.lower ∧ Pool.Initialized p q.upper := by
  obtain ⟨h, hi, hs⟩ := ho.inv
  have h1 := owns_holds ho hq hs
  have h2 := (ho.wf q hq).1
  obtain ⟨g1, g2⟩ := hi.cov.gross_pos (show 0 < outstanding h q.lower q.upper by omega)
  exact ⟨hi.ticks.inc, init_of_gross hi (by omega), init_of_gross hi (by omega)⟩

theorem owns_burn {m : List Entry} {ps : List StratPos} {p : Pool} (ho : Owns m ps p) {q : StratPos} (hq : q ∈ ps) :
    (∃ r, p.burnStrategy q.lower q.upper q.amount = .ok r) ↔ Creditable p q.lower q.upper := by
  obtain ⟨h, hi, hs⟩ := ho.inv
  have h1 := owns_holds ho hq hs
  obtain ⟨w1, w2, w3, w4⟩ := ho.wf q hq
  have h2 := hi.cov.outstanding_lt q.lower q.upper
  have e : (neg q.amount).toInt = - (q.amount.toNat : Int) := by
    have e1 : q.amount.toInt = q.amount.toNat := toInt_of_lt (by omega)
    rw [toInt_neg_of _ (by omega), e1]
  rw [burnStrategy_total, modifyStrategy_total hi (by omega) (by omega) (by omega)]
  constructor
  · rintro ⟨_, h3, _⟩; exact h3
  · intro h3
    exact ⟨⟨w2, w3, w4⟩, h3, fun h4 => by omega⟩

theorem burn_then_collect {p p1 : Pool} {l u : Int} {a b0 b1 : U256} (hb : p.burnStrategy l u a = .ok (b0, b1, p1)) :
    ∃ r, p1.collectStrategy l u = .ok r := by
  obtain ⟨pos, a0, a1, q, h1, _, _, rfl⟩ := burnStrategy_eq hb
  unfold collectStrategy
  dsimp only
  rw [setPos_same]
  exact ⟨_, rfl⟩

/-- A record holding at least `2^64` and less than `2^128` can always be credited. -/
theorem creditable_of_large {p : Pool} {l u : Int} (h1 : 2 ^ 64 ≤ (recordOf p (l, u)).liquidity.toNat)
    (h2 : (recordOf p (l, u)).liquidity.toNat < 2 ^ 128) : Creditable p l u := by
  have key : ∀ L g : U256, 2 ^ 64 ≤ L.toNat → L.toNat < 2 ^ 128 → Payable L g := by
    intro L g a b
    rcases Nat.eq_zero_or_pos g.toNat with h | h
    · left; rw [h, Nat.mul_zero]
    · right
      have hg := g.toNat_lt
      constructor
      · calc 2 ^ 64 ≤ L.toNat := a
          _ ≤ L.toNat * g.toNat := Nat.le_mul_of_pos_right _ h
      · calc L.toNat * g.toNat < 2 ^ 128 * 2 ^ 256 := Nat.mul_lt_mul'' b hg
          _ = 2 ^ (128 + 256) := (Nat.pow_add 2 128 256).symm
          _ ≤ 2 ^ 448 := Nat.pow_le_pow_right (by norm_num) (by norm_num)
  exact ⟨key _ _ h1 h2, key _ _ h1 h2⟩

/-! ### The loop -/

theorem burnLoop_large {m : List Entry} {ps : List StratPos} : ∀ {s : Strat}, Owns m ps s.pool →
    (∀ k, liqAt s.pool k = sumAt ps k) → (∀ q ∈ ps, 2 ^ 64 ≤ q.amount.toNat) → ∃ t, burnLoop ps s = .ok t := by
  induction ps with
  | nil => intro s _ _ _; exact ⟨s, rfl⟩
  | cons q ps ih =>
    intro s ho hl hb
    have hq := List.mem_cons_self (a := q) (l := ps)
    have hlt := owns_total ho (posKey q.lower q.upper)
    have e1 : (recordOf s.pool (q.lower, q.upper)).liquidity.toNat = natAt (q :: ps) (posKey q.lower q.upper) := by
      rw [← liqAt_record, hl]
      exact sumAt_toNat (by omega)
    have h1 := natAt_mem hq
    have h2 := hb q hq
    obtain ⟨⟨b0, b1, p1⟩, hb1⟩ := (owns_burn ho hq).2 (creditable_of_large (by omega) (by omega))
    obtain ⟨⟨c0, c1, p2⟩, hc⟩ := burn_then_collect hb1
    obtain ⟨o, _⟩ := burnOne ho hb1 hc
    unfold burnLoop
    rw [hb1, Except_bind_ok]
    dsimp only
    rw [hc, Except_bind_ok]
    refine ih (s := { s with pool := p2, amount0 := add s.amount0 c0, amount1 := add s.amount1 c1 }) o ?_
      (fun q' hq' => hb q' (List.mem_cons_of_mem _ hq'))
    intro k
    dsimp only
    rw [collect_liq hc, burn_liq hb1, hl k, sumAt_cons]
    split
    · abel
    · abel

theorem burnLoop_exact {m : List Entry} {ps : List StratPos} : ∀ {s : Strat}, Owns m ps s.pool →
    ps.Pairwise (fun q q' => posKey q.lower q.upper ≠ posKey q'.lower q'.upper) →
    ((∃ t, burnLoop ps s = .ok t) ↔ ∀ q ∈ ps, Creditable s.pool q.lower q.upper) := by
  induction ps with
  | nil => intro s _ _; exact ⟨fun _ q hq => (List.not_mem_nil hq).elim, fun _ => ⟨s, rfl⟩⟩
  | cons q ps ih =>
    intro s ho hp
    obtain ⟨hp1, hp2⟩ := List.pairwise_cons.1 hp
    have hq := List.mem_cons_self (a := q) (l := ps)
    have same : ∀ {b0 b1 p1 c0 c1 p2}, s.pool.burnStrategy q.lower q.upper q.amount = .ok (b0, b1, p1) →
        p1.collectStrategy q.lower q.upper = .ok (c0, c1, p2) → ∀ q' ∈ ps,
        (Creditable p2 q'.lower q'.upper ↔ Creditable s.pool q'.lower q'.upper) := by
      intro b0 b1 p1 c0 c1 p2 hb hc q' hq'
      obtain ⟨o, _, _, _, _, _, fr⟩ := burnOne ho hb hc
      obtain ⟨k1, k2⟩ := fr q' hq' (hp1 q' hq')
      obtain ⟨x1, x2, x3⟩ := owns_initialized ho (List.mem_cons_of_mem q hq')
      obtain ⟨y1, y2, y3⟩ := owns_initialized o hq'
      have e : insideOf p2 q'.lower q'.upper = insideOf s.pool q'.lower q'.upper := by
        rw [inside_stored x1 x2 x3, inside_stored y1 y2 y3] at k2
        exact Except.ok.inj k2
      have e2 : recordOf p2 (q'.lower, q'.upper) = recordOf s.pool (q'.lower, q'.upper) := by
        unfold recordOf
        dsimp only
        rw [k1]
      unfold Creditable
      rw [e, e2]
    constructor
    · rintro ⟨t, hx⟩
      unfold burnLoop at hx
      obtain ⟨⟨b0, b1, p1⟩, hb, hx⟩ := bind_ok hx
      obtain ⟨⟨c0, c1, p2⟩, hc, hx⟩ := bind_ok hx
      dsimp only at hc hx
      have o := (burnOne ho hb hc).1
      have h1 := (ih (s := { s with pool := p2, amount0 := add s.amount0 c0, amount1 := add s.amount1 c1 }) o hp2).1 ⟨t, hx⟩
      intro q' hq'
      rcases List.mem_cons.1 hq' with rfl | h
      · exact (owns_burn ho hq).1 ⟨_, hb⟩
      · exact (same hb hc q' h).1 (h1 q' h)
    · intro hcr
      obtain ⟨⟨b0, b1, p1⟩, hb⟩ := (owns_burn ho hq).2 (hcr q hq)
      obtain ⟨⟨c0, c1, p2⟩, hc⟩ := burn_then_collect hb
      have o := (burnOne ho hb hc).1
      unfold burnLoop
      rw [hb, Except_bind_ok]
      dsimp only
      rw [hc, Except_bind_ok]
      exact (ih (s := { s with pool := p2, amount0 := add s.amount0 c0, amount1 := add s.amount1 c1 }) o hp2).2
        (fun q' h => (same hb hc q' h).2 (hcr q' (List.mem_cons_of_mem _ h)))

theorem burnAll_total (s : Strat) :
    (∃ r, s.burnAll = .ok r) ↔ (s.kind = .noProvision ∨ ∃ t, burnLoop s.positions s = .ok t) := by
  constructor
  · rintro ⟨⟨c, s'⟩, hx⟩
    rcases burnAll_eq hx with ⟨h, _⟩ | ⟨t, h, _⟩
    · exact Or.inl h
    · exact Or.inr ⟨t, h⟩
  · rintro (h | ⟨t, h⟩)
    · unfold burnAll; rw [h]; exact ⟨_, rfl⟩
    · unfold burnAll closeAll closeAllKeep
      rw [h]
      split <;> exact ⟨_, rfl⟩

end Strat
end Uni
