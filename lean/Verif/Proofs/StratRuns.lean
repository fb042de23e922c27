import Verif.Proofs.StratRanges
import Verif.Proofs.StratSwap
import Verif.Proofs.StratBurn
/-! # Runs of strategies -/
namespace Uni
open U256 Spec TickData TickMath SwapMath FullMath SqrtPriceMath LiquidityAmounts Pool
namespace Strat

/-- From one state to the next by opening the positions `new`, with a swap of `x0` and `x1` before. -/
structure Opened (m : List Entry) (s s' : Strat) (new : List StratPos) (x0 x1 : Int) : Prop where
  pos : s'.positions = s.positions ++ new
  kind : s'.kind = s.kind
  history : s'.history = s.history
  same : SameId s.pool s'.pool
  own : Owns m s'.positions s'.pool
  bal0 : (s.amount0.toNat : Int) = s'.amount0.toNat + cost0 s'.pool.price.toNat new + x0
  bal1 : (s.amount1.toNat : Int) = s'.amount1.toNat + cost1 s'.pool.price.toNat new + x1
  sign : (0 ≤ x0 ∧ x1 ≤ 0) ∨ (x0 ≤ 0 ∧ 0 ≤ x1)
  half : 2 * x0 ≤ s.amount0.toNat ∧ 2 * x1 ≤ s.amount1.toNat
  swap : ∃ p1, SwapOf s.pool p1 x0 x1 ∧ Still p1 s'.pool
  still : (∀ w, s.kind ≠ .swapHalf w) → x0 = 0 ∧ x1 = 0 ∧ Still s.pool s'.pool
  recs : ∀ k, liqAt s'.pool k = liqAt s.pool k + sumAt new k

theorem opened_of_grown {m : List Entry} {s s' : Strat} {new : List StratPos} (ho : Owns m s.positions s.pool) (hf : Fits m s')
    (h : Grown m s s' new) : Opened m s s' new 0 0 := by
  obtain ⟨o, b0, b1⟩ := h.own ho hf
  exact ⟨h.pos, h.kind, h.history, h.still.same, o, by rw [h.still.price]; omega, by rw [h.still.price]; omega, by omega, by omega,
    ⟨_, Or.inl ⟨rfl, rfl, rfl⟩, h.still⟩, fun _ => ⟨rfl, rfl, h.still⟩, h.recs⟩

theorem SameId.trans' {p q r : Pool} (h1 : SameId p q) (h2 : SameId q r) : SameId p r := by
  obtain ⟨a1, a2, a3, a4⟩ := h1
  obtain ⟨b1, b2, b3, b4⟩ := h2
  exact ⟨b1.trans a1, b2.trans a2, b3.trans a3, b4.trans a4⟩

theorem swapOf_liq {p p' : Pool} {x0 x1 : Int} (h : SwapOf p p' x0 x1) (k : String) : liqAt p' k = liqAt p k := by
  rcases h with ⟨_, _, rfl⟩ | ⟨fuel, a, t, r0, r1, hx, _⟩
  · rfl
  · unfold liqAt; rw [swap_pos hx]

theorem opened_of_traded {m : List Entry} {s s1 s' : Strat} {new : List StratPos} {x0 x1 : Int} {w : Int} (hk : s.kind = .swapHalf w)
    (ht : Traded m s s1 x0 x1) (hf : Fits m s') (h : Grown m s1 s' new) : Opened m s s' new x0 x1 := by
  obtain ⟨o, b0, b1⟩ := h.own ht.own hf
  have e0 := ht.bal0
  have e1 := ht.bal1
  exact ⟨h.pos.trans (by rw [ht.pos]), h.kind.trans ht.kind, h.history.trans ht.history, SameId.trans' ht.same h.still.same, o,
    by rw [h.still.price]; omega, by rw [h.still.price]; omega, ht.sign, ht.half, ⟨_, ht.swap, h.still⟩,
    fun hn => absurd hk (hn w), fun k => by rw [h.recs, swapOf_liq ht.swap]⟩

theorem openFirst_opened {m : List Entry} {s s' : Strat} {fuel : Nat} (ho : Owns m s.positions s.pool) (hf : Fits m s')
    (hw : MaySwap s (s.amount0, s.amount1) (book m s)) (hx : s.openFirst fuel = .ok s') :
    ∃ new x0 x1 rs, Opened m s s' new x0 x1 ∧ (ranges new).Sublist rs ∧ (Kind.Sane s.kind → InitRanges s rs) := by
  by_cases hs : ∃ w, s.kind = .swapHalf w
  · obtain ⟨w, hk⟩ := hs
    obtain ⟨n1, n2, n3, n4⟩ := hw w hk
    unfold openFirst at hx
    rw [hk] at hx
    dsimp only at hx
    obtain ⟨s1, x0, x1, t, new, g, hsub⟩ := swapMint_opens ho n1 n2 n3 n4 hx
    refine ⟨new, x0, x1, _, opened_of_traded hk t hf g, hsub, ?_⟩
    intro hsane
    unfold InitRanges
    rw [hk] at hsane ⊢
    exact ⟨_, around_centred ho.ready ho.ready.lo ho.ready.hi hsane, rfl⟩
  · have hns : ∀ w, s.kind ≠ .swapHalf w := fun w h => hs ⟨w, h⟩
    obtain ⟨rs, h1, new, g, hsub⟩ := openFirst_opens m hns hx
    exact ⟨new, 0, 0, rs, opened_of_grown ho hf g, hsub, h1 ho.ready⟩

theorem openAgain_opened {m : List Entry} {s s' : Strat} {fuel : Nat} (ho : Owns m s.positions s.pool) (hf : Fits m s')
    (hw : MaySwap s (s.amount0, s.amount1) (book m s)) (hx : s.openAgain fuel = .ok s') :
    ∃ new x0 x1 rs, Opened m s s' new x0 x1 ∧ (ranges new).Sublist rs ∧ (Kind.Sane s.kind → RebalanceRanges s rs) := by
  by_cases hs : ∃ w, s.kind = .swapHalf w
  · obtain ⟨w, hk⟩ := hs
    obtain ⟨n1, n2, n3, n4⟩ := hw w hk
    unfold openAgain at hx
    rw [hk] at hx
    dsimp only at hx
    obtain ⟨s1, x0, x1, t, new, g, hsub⟩ := swapMint_opens ho n1 n2 n3 n4 hx
    refine ⟨new, x0, x1, _, opened_of_traded hk t hf g, hsub, ?_⟩
    intro hsane
    unfold RebalanceRanges InitRanges
    rw [hk] at hsane ⊢
    exact ⟨_, around_centred ho.ready ho.ready.lo ho.ready.hi hsane, rfl⟩
  · have hns : ∀ w, s.kind ≠ .swapHalf w := fun w h => hs ⟨w, h⟩
    obtain ⟨rs, h1, new, g, hsub⟩ := openAgain_opens m hns hx
    exact ⟨new, 0, 0, rs, opened_of_grown ho hf g, hsub, h1 ho.ready⟩

theorem closeAll_spec {m : List Entry} {s s1 : Strat} {c : U256 × U256} (ho : Owns m s.positions s.pool) (hx : s.closeAll = .ok (c, s1)) :
    Owns m [] s1.pool ∧ Still s.pool s1.pool ∧ c = (s1.amount0, s1.amount1) ∧
      s1 = { s with pool := s1.pool, amount0 := s1.amount0, amount1 := s1.amount1, positions := [] } ∧
      burnLoop s.positions s = .ok { s1 with positions := s.positions } := by
  unfold closeAll at hx
  obtain ⟨t, h1, hx⟩ := bind_ok hx
  cases hx
  obtain ⟨i1, i2, i3, _⟩ := burnLoop_spec ho h1
  refine ⟨i1, i2, rfl, ?_, ?_⟩
  · dsimp only; rw [i3]
  · rw [h1]
    dsimp only
    congr 1
    rw [i3]

theorem rebalance_eq {s s' : Strat} {fuel : Nat} {c : Option (U256 × U256)} (hx : s.rebalance fuel = .ok (c, s')) :
    (s.kind = .noProvision ∧ c = none ∧ s' = s) ∨
      (s.kind ≠ .noProvision ∧ ∃ c0 s1, s.closeAll = .ok (c0, s1) ∧ s1.openAgain fuel = .ok s' ∧ c = some c0) := by
  by_cases hk : s.kind = .noProvision
  · left
    unfold rebalance at hx
    rw [hk] at hx
    cases hx
    exact ⟨hk, rfl, rfl⟩
  · right
    refine ⟨hk, ?_⟩
    unfold rebalance at hx
    have hx' : (do
      let c ← s.closeAll
      let s' ← c.2.openAgain fuel
      return (some c.1, s')) = (Except.ok (c, s') : Go (Option (U256 × U256) × Strat)) := by
      split at hx
      · exact absurd (by assumption) hk
      · exact hx
    obtain ⟨⟨c0, s1⟩, h1, hx'⟩ := bind_ok hx'
    obtain ⟨s2, h2, hx'⟩ := bind_ok hx'
    cases hx'
    exact ⟨c0, s1, h1, h2, rfl⟩

theorem init_eq {s s' : Strat} {fuel : Nat} {c : U256 × U256} (hx : s.init fuel = .ok (c, s')) :
    s.openFirst fuel = .ok s' ∧ c = (s.amount0, s.amount1) := by
  unfold init at hx
  obtain ⟨t, h1, hx⟩ := bind_ok hx
  cases hx
  exact ⟨h1, rfl⟩

theorem burnAll_eq {s s' : Strat} {c : U256 × U256} (hx : s.burnAll = .ok (c, s')) :
    (s.kind = .noProvision ∧ c = (s.amount0, s.amount1) ∧ s' = s) ∨
      (∃ t, burnLoop s.positions s = .ok t ∧ c = (t.amount0, t.amount1) ∧ (s' = t ∨ s' = { t with positions := [] })) := by
  unfold burnAll at hx
  have keep : s.closeAllKeep = .ok (c, s') →
      (∃ t, burnLoop s.positions s = .ok t ∧ c = (t.amount0, t.amount1) ∧ (s' = t ∨ s' = { t with positions := [] })) := by
    intro hx
    obtain ⟨t, h1, hx⟩ := bind_ok hx
    cases hx
    exact ⟨_, h1, rfl, Or.inl rfl⟩
  split at hx
  · exact Or.inr (keep hx)
  · exact Or.inr (keep hx)
  · exact Or.inr (keep hx)
  · cases hx
    exact Or.inl ⟨by assumption, rfl, rfl⟩
  · obtain ⟨t, h1, hx⟩ := bind_ok hx
    cases hx
    exact Or.inr ⟨t, h1, rfl, Or.inr rfl⟩

theorem makeSnapshot_eq {s s' : Strat} (hx : s.makeSnapshot = .ok s') : s'.pool = s.pool ∧ s'.positions = s.positions := by
  unfold makeSnapshot at hx
  split at hx
  · obtain ⟨h, h1, hx⟩ := bind_ok hx; cases hx; exact ⟨rfl, rfl⟩
  · obtain ⟨h, h1, hx⟩ := bind_ok hx; cases hx; exact ⟨rfl, rfl⟩
  · obtain ⟨h, h1, hx⟩ := bind_ok hx; cases hx; exact ⟨rfl, rfl⟩
  · obtain ⟨h, h1, hx⟩ := bind_ok hx; cases hx; exact ⟨rfl, rfl⟩
  · cases hx; exact ⟨rfl, rfl⟩

theorem new_owns {a b : String} {fee : Int} {price x0 x1 : U256} {p0 : Pool} {kind : Kind} {s : Strat}
    (hf : fee = 500 ∨ fee = 3000 ∨ fee = 10000) (hn : Pool.new a b fee price = .ok p0) (hs : Strat.new kind x0 x1 p0 = .ok s) :
    s.pool = p0 ∧ s.positions = [] ∧ Owns [] s.positions s.pool := by
  have hp := (new_inv hf hn).2.2.2.2.2.2.2.2.2
  unfold Strat.new at hs
  obtain ⟨h, h1, hs⟩ := bind_ok hs
  cases hs
  have hcl : p0.clone = p0 := by
    have : (fun k => (p0.positions k).map Info.clone) = p0.positions := by
      funext k; rw [hp k]; rfl
    unfold Pool.clone
    rw [this]
  refine ⟨hcl, rfl, ⟨[], ?_, SameBook.refl _⟩, fun _ _ => le_refl _, fun q hq => by cases hq⟩
  show Reachable [] p0.clone
  rw [hcl]
  exact ⟨a, b, fee, price, p0, hf, hn, .start⟩

theorem trade_owns {m : List Entry} {s : Strat} {p' : Pool} {fuel : Nat} {op : PoolOp} (ho : Owns m s.positions s.pool)
    (hb : op.ByOthers m s) (hx : op.exec fuel s.pool = .ok p') : Owns (op.ledger m) s.positions p' := by
  obtain ⟨h, hr, hs⟩ := ho.pool
  have hs' : SameBook h (book m s) := hs
  have hadd : ∀ e : Entry, SameBook (e :: h) (entries s.positions ++ e :: m) := by
    intro e R _ w
    rw [(hs.cons e) R w]
    exact sameBook_front _ _ _ R w
  cases op with
  | mint l u a =>
    have := reachable_step hr fuel (.mint l u a) (by have h1 : _ < _ := hb; rw [← hs'.total] at h1; exact h1) hx
    refine ⟨⟨_, this, hadd _⟩, fun l' u' => ?_, ho.wf⟩
    show 0 ≤ outstanding (⟨l, u, a.toNat⟩ :: m) l' u'
    rw [outstanding_cons]
    have := ho.nonneg l' u'
    dsimp only
    split <;> omega
  | burn l u a =>
    obtain ⟨b1, b2⟩ := hb
    have hle : outstanding m l u ≤ outstanding h l u := by
      rw [hs.outstanding, outstanding_append]
      have := outstanding_entries_nonneg s.positions l u
      omega
    have := reachable_step hr fuel (.burn l u a) ⟨by omega, by omega⟩ hx
    show Owns (if a.toNat = 0 then m else ⟨l, u, -a.toNat⟩ :: m) _ _
    change Reachable (if a.toNat = 0 then h else ⟨l, u, -a.toNat⟩ :: h) _ at this
    by_cases hz : a.toNat = 0
    · rw [if_pos hz] at this ⊢
      exact ⟨⟨_, this, hs⟩, ho.nonneg, ho.wf⟩
    · rw [if_neg hz] at this ⊢
      refine ⟨⟨_, this, hadd _⟩, fun l' u' => ?_, ho.wf⟩
      rw [outstanding_cons]
      have := ho.nonneg l' u'
      dsimp only
      split
      · rename_i he
        obtain ⟨e1, e2⟩ := he
        subst e1 e2
        omega
      · omega
  | mintStrategy l u a => exact hb.elim
  | burnStrategy l u a => exact hb.elim
  | collectStrategy l u => exact hb.elim
  | flash a b => exact ⟨⟨_, reachable_step hr fuel (.flash a b) trivial hx, hs⟩, ho.nonneg, ho.wf⟩
  | exactInput a t l =>
    exact ⟨⟨_, reachable_step hr fuel (.exactInput a t l) ⟨hb.1, fun h => hs'.clear (hb.2 h)⟩ hx, hs⟩, ho.nonneg, ho.wf⟩
  | exactOutput a t l =>
    exact ⟨⟨_, reachable_step hr fuel (.exactOutput a t l) ⟨hb.1, fun h => hs'.clear (hb.2 h)⟩ hx, hs⟩, ho.nonneg, ho.wf⟩

/-- The state in which a rebalance opens its positions. -/
theorem closed_owns {m : List Entry} {s s1 : Strat} {c : U256 × U256} (ho : Owns m s.positions s.pool) (hx : s.closeAll = .ok (c, s1)) :
    Owns m s1.positions s1.pool ∧ s1.positions = [] ∧ book m s1 = m ∧ s1.kind = s.kind ∧ s1.history = s.history ∧
      s1.tickLower = s.tickLower ∧ s1.tickUpper = s.tickUpper ∧ Still s.pool s1.pool ∧ c = (s1.amount0, s1.amount1) := by
  obtain ⟨h1, h2, h3, h4, _⟩ := closeAll_spec ho hx
  have e : s1.positions = [] := by rw [h4]
  refine ⟨by rw [e]; exact h1, e, by unfold book; rw [e]; rfl, ?_, ?_, ?_, ?_, h2, h3⟩ <;> rw [h4]

theorem closed_swap {m : List Entry} {s s1 : Strat} (hk : s1.kind = s.kind) (hb : book m s1 = m) (hst : Still s.pool s1.pool)
    (hw : MaySwap s (s1.amount0, s1.amount1) m) : MaySwap s1 (s1.amount0, s1.amount1) (book m s1) := by
  intro w hk'
  obtain ⟨a1, a2, a3, a4⟩ := hw w (hk ▸ hk')
  obtain ⟨i1, _, i3, i4⟩ := hst.same
  rw [hb, i1, i3, i4, hst.tick]
  exact ⟨a1, a2, a3, a4⟩

theorem runs_owns {m : List Entry} {s : Strat} (hr : Runs m s) : Owns m s.positions s.pool := by
  induction hr with
  | start hf hn hs => exact (new_owns hf hn hs).2.2
  | trade fuel op _ hb hx ih => have := trade_owns ih hb hx; exact this
  | snapshot _ hx ih =>
    obtain ⟨h1, h2⟩ := makeSnapshot_eq hx
    rw [h1, h2]; exact ih
  | init fuel _ hx hf hw ih =>
    obtain ⟨h1, rfl⟩ := init_eq hx
    obtain ⟨new, x0, x1, rs, h2, _⟩ := openFirst_opened ih hf hw h1
    exact h2.own
  | rebalance fuel _ hx hf hw ih =>
    rcases rebalance_eq hx with ⟨_, _, rfl⟩ | ⟨_, c0, s1, h1, h2, rfl⟩
    · exact ih
    · obtain ⟨o, e, hb, hk, _, _, _, hst, rfl⟩ := closed_owns ih h1
      obtain ⟨new, x0, x1, rs, h3, _⟩ := openAgain_opened o hf (closed_swap hk hb hst (hw _ rfl)) h2
      exact h3.own
  | burnAll _ hx he ih =>
    rcases burnAll_eq hx with ⟨_, _, rfl⟩ | ⟨t, h1, _, h2⟩
    · exact ih
    · obtain ⟨o, _⟩ := burnLoop_spec ih h1
      rw [he]
      rcases h2 with rfl | rfl <;> exact o

end Strat
end Uni
