import Verif.Proofs.Returns
import Verif.Spec.History
import Verif.Props.Prices
import Verif.Props.Strategy
/-! # The prices a strategy has seen -/
namespace Uni
open U256 Spec Pool Props
namespace Strat

/-- Kind and history are the same. -/
def Mind (s s' : Strat) : Prop := s'.kind = s.kind ∧ s'.history = s.history

theorem Mind.refl (s : Strat) : Mind s s := ⟨rfl, rfl⟩
theorem Mind.trans {a b c : Strat} (h1 : Mind a b) (h2 : Mind b c) : Mind a c := ⟨h2.1.trans h1.1, h2.2.trans h1.2⟩

theorem mintAmount_mind {s s' : Strat} {l u : Int} {a : U256} (h : s.mintAmount l u a = .ok s') : Mind s s' := by
  unfold mintAmount at h
  obtain ⟨_, _, h⟩ := bind_ok h
  cases h; exact ⟨rfl, rfl⟩

theorem mintPosition_mind {s s' : Strat} {l u : Int} (h : s.mintPosition l u = .ok s') : Mind s s' := by
  unfold mintPosition at h
  obtain ⟨a, _, h⟩ := bind_ok h
  split at h
  · cases h; exact .refl _
  · exact mintAmount_mind h

theorem mintUnchecked_mind {s s' : Strat} {l u : Int} (h : s.mintUnchecked l u = .ok s') : Mind s s' := by
  unfold mintUnchecked at h
  obtain ⟨a, _, h⟩ := bind_ok h
  exact mintAmount_mind h

theorem mintHalf_mind {s s' : Strat} {l u : Int} (h : s.mintHalf l u = .ok s') : Mind s s' := by
  unfold mintHalf at h
  obtain ⟨a, _, h⟩ := bind_ok h
  obtain ⟨b, _, h⟩ := bind_ok h
  split at h
  · cases h; exact .refl _
  · exact mintAmount_mind h

theorem swapPay_mind {s s' : Strat} {fuel : Nat} {a : U256} {t : String} (h : s.swapPay fuel a t = .ok s') : Mind s s' := by
  unfold swapPay at h
  obtain ⟨_, _, h⟩ := bind_ok h
  cases h; exact ⟨rfl, rfl⟩

theorem swapExcess_mind {s s' : Strat} {fuel : Nat} {a b : U256} (h : s.swapExcess fuel a b = .ok s') : Mind s s' := by
  unfold swapExcess at h
  obtain ⟨_, _, h⟩ := bind_ok h
  obtain ⟨_, _, h⟩ := bind_ok h
  dsimp only at h
  split at h <;> obtain ⟨_, _, h⟩ := bind_ok h <;> split at h
  · exact swapPay_mind h
  · cases h; exact .refl _
  · exact swapPay_mind h
  · cases h; exact .refl _

theorem swapMint_mind {s s' : Strat} {fuel : Nat} {l u : Int} (h : s.swapMint fuel l u = .ok s') : Mind s s' := by
  unfold swapMint at h
  obtain ⟨_, _, h⟩ := bind_ok h
  obtain ⟨_, _, h⟩ := bind_ok h
  obtain ⟨s1, h1, h⟩ := bind_ok h
  obtain ⟨_, _, h⟩ := bind_ok h
  exact (swapExcess_mind h1).trans (mintAmount_mind h)

theorem twoAbove_mind {s s' : Strat} {u b : Int} (h : s.twoAbove u b = .ok s') : Mind s s' := by
  unfold twoAbove at h
  split at h
  · cases h; exact .refl _
  · exact mintPosition_mind h

theorem twoBelow_mind {s s' : Strat} {u b : Int} (h : s.twoBelow u b = .ok s') : Mind s s' := by
  unfold twoBelow at h
  split at h
  · cases h; exact .refl _
  · exact mintPosition_mind h

theorem setTwo_mind {s s' : Strat} {a b : Int} (h : s.setTwo a b = .ok s') : Mind s s' := by
  unfold setTwo at h
  dsimp only at h
  obtain ⟨_, h1, h⟩ := bind_ok h
  obtain ⟨_, h2, h⟩ := bind_ok h
  exact (mintPosition_mind h1).trans ((twoAbove_mind h2).trans (twoBelow_mind h))

theorem fillSide_mind {s s' : Strat} {l u : Int} (h : s.fillSide l u = .ok s') : Mind s s' := by
  unfold fillSide at h
  split at h
  · split at h
    · exact mintPosition_mind h
    · cases h; exact .refl _
  · split at h
    · split at h
      · exact mintPosition_mind h
      · cases h; exact .refl _
    · cases h; exact .refl _

theorem setFill_mind {s s' : Strat} {w : Int} (h : s.setFill w = .ok s') : Mind s s' := by
  unfold setFill at h
  dsimp only at h
  obtain ⟨_, h1, h⟩ := bind_ok h
  exact (mintPosition_mind h1).trans (fillSide_mind h)

theorem limitAbove_mind {s s' : Strat} {u : Int} (h : s.limitAbove u = .ok s') : Mind s s' := by
  unfold limitAbove at h
  split at h
  · cases h; exact .refl _
  · dsimp only at h
    obtain ⟨_, h1, h⟩ := bind_ok h
    cases h
    have k := mintHalf_mind h1
    exact ⟨k.1, k.2⟩

theorem limitBelow_mind {s s' : Strat} {u : Int} (h : s.limitBelow u = .ok s') : Mind s s' := by
  unfold limitBelow at h
  split at h
  · cases h; exact .refl _
  · dsimp only at h
    obtain ⟨_, h1, h⟩ := bind_ok h
    cases h
    have k := mintHalf_mind h1
    exact ⟨k.1, k.2⟩

theorem setLimit_mind {s s' : Strat} {w : Int} (h : s.setLimit w = .ok s') : Mind s s' := by
  unfold setLimit at h
  dsimp only at h
  obtain ⟨_, h1, h⟩ := bind_ok h
  obtain ⟨_, h2, h⟩ := bind_ok h
  exact (mintPosition_mind h1).trans ((limitAbove_mind h2).trans (limitBelow_mind h))

theorem setBollingerFill_mind {s s' : Strat} {k : Int} (h : s.setBollingerFill k = .ok s') : Mind s s' := by
  unfold setBollingerFill at h
  obtain ⟨_, _, h⟩ := bind_ok h
  obtain ⟨_, h2, h⟩ := bind_ok h
  split at h
  · exact (mintPosition_mind h2).trans (fillSide_mind h)
  · cases h; exact mintPosition_mind h2

theorem openFirst_mind {s s' : Strat} {fuel : Nat} (h : s.openFirst fuel = .ok s') : Mind s s' := by
  unfold openFirst at h
  split at h
  · dsimp only at h
    have k := mintUnchecked_mind h
    exact ⟨k.1, k.2⟩
  · exact mintUnchecked_mind h
  · exact setTwo_mind h
  · obtain ⟨_, _, h⟩ := bind_ok h; exact mintPosition_mind h
  · obtain ⟨_, _, h⟩ := bind_ok h; exact mintPosition_mind h
  · obtain ⟨_, _, h⟩ := bind_ok h; exact mintPosition_mind h
  · obtain ⟨_, _, h⟩ := bind_ok h; exact mintPosition_mind h
  · exact setFill_mind h
  · exact setLimit_mind h
  · exact swapMint_mind h
  · exact mintPosition_mind h
  · cases h; exact .refl _

theorem openAgain_mind {s s' : Strat} {fuel : Nat} (h : s.openAgain fuel = .ok s') : Mind s s' := by
  unfold openAgain at h
  split at h
  · exact mintPosition_mind h
  · exact mintPosition_mind h
  · exact setTwo_mind h
  · obtain ⟨_, _, h⟩ := bind_ok h; exact mintPosition_mind h
  · obtain ⟨_, _, h⟩ := bind_ok h; exact mintPosition_mind h
  · exact setBollingerFill_mind h
  · obtain ⟨_, _, h⟩ := bind_ok h; exact mintPosition_mind h
  · exact setFill_mind h
  · exact setLimit_mind h
  · exact swapMint_mind h
  · exact mintPosition_mind h
  · cases h; exact .refl _

theorem burnLoop_mind (ps : List StratPos) : ∀ {s s' : Strat}, burnLoop ps s = .ok s' → Mind s s' := by
  induction ps with
  | nil => intro s s' h; cases h; exact .refl _
  | cons q qs ih =>
    intro s s' h
    unfold burnLoop at h
    obtain ⟨_, _, h⟩ := bind_ok h
    obtain ⟨_, _, h⟩ := bind_ok h
    have k := ih h
    exact ⟨k.1, k.2⟩

theorem closeAll_mind {s s' : Strat} {c : U256 × U256} (h : s.closeAll = .ok (c, s')) : Mind s s' := by
  unfold closeAll at h
  obtain ⟨s1, h1, h⟩ := bind_ok h
  cases h
  have k := burnLoop_mind _ h1
  exact ⟨k.1, k.2⟩

theorem closeAllKeep_mind {s s' : Strat} {c : U256 × U256} (h : s.closeAllKeep = .ok (c, s')) : Mind s s' := by
  unfold closeAllKeep at h
  obtain ⟨s1, h1, h⟩ := bind_ok h
  cases h
  have k := burnLoop_mind _ h1
  exact ⟨k.1, k.2⟩

theorem burnAll_mind {s s' : Strat} {c : U256 × U256} (h : s.burnAll = .ok (c, s')) : Mind s s' := by
  unfold burnAll at h
  split at h
  · exact closeAllKeep_mind h
  · exact closeAllKeep_mind h
  · exact closeAllKeep_mind h
  · cases h; exact .refl _
  · exact closeAll_mind h

theorem init_mind {s s' : Strat} {fuel : Nat} {c : U256 × U256} (h : s.init fuel = .ok (c, s')) : Mind s s' := by
  unfold init at h
  obtain ⟨s1, h1, h⟩ := bind_ok h
  cases h
  exact openFirst_mind h1

theorem rebalance_mind {s s' : Strat} {fuel : Nat} {c : Option (U256 × U256)} (h : s.rebalance fuel = .ok (c, s')) : Mind s s' := by
  unfold rebalance at h
  split at h
  · cases h; exact .refl _
  · obtain ⟨c1, h1, h⟩ := bind_ok h
    obtain ⟨s1, h2, h⟩ := bind_ok h
    cases h
    exact (closeAll_mind (c := c1.1) h1).trans (openAgain_mind h2)

theorem other_mind {s s' : Strat} {fuel : Nat} {vs : List U256} {e : Event} (hn : e ≠ .price) (h : e.Does fuel s vs s') : Mind s s' := by
  cases e with
  | init => obtain ⟨c, v, h, _⟩ := h; exact init_mind h
  | price => exact absurd rfl hn
  | value => obtain ⟨c, v, _, h, _⟩ := h; rw [h]; exact .refl _
  | rebalance => obtain ⟨c, h, _⟩ := h; exact rebalance_mind h
  | apply t => obtain ⟨p', _, h, _⟩ := h; rw [h]; exact ⟨rfl, rfl⟩

theorem price_mind {s s' : Strat} {n : Int} (hm : memory s.kind = some n) (h : s.makeSnapshot = .ok s') :
    s'.kind = s.kind ∧ s.history.add s.pool.price = .ok s'.history := by
  unfold makeSnapshot at h
  split at h
  case _ | _ | _ | _ =>
    obtain ⟨x, h1, h⟩ := bind_ok h
    cases h
    exact ⟨rfl, h1⟩
  case _ h1 h2 h3 h4 =>
    exfalso
    cases hk : s.kind <;> rw [hk] at hm h1 h2 h3 h4 <;> first | cases hm | skip
    · exact h1 _ _ rfl
    · exact h2 _ _ rfl
    · exact h3 _ _ rfl
    · exact h4 _ _ rfl

theorem sees_history {fuel : Nat} {es : List Event} {s s' : Strat} {xs : List U256} (h : Sees fuel es s xs s') {n : Int}
    (hm : memory s.kind = some n) : s'.kind = s.kind ∧ xs.foldlM Prices.add s.history = .ok s'.history := by
  induction h with
  | nil => exact ⟨rfl, rfl⟩
  | price h ht ih =>
    obtain ⟨k1, k2⟩ := price_mind hm h.1
    obtain ⟨k3, k4⟩ := ih (by rw [k1]; exact hm)
    refine ⟨k3.trans k1, ?_⟩
    rw [List.foldlM_cons, k2]
    exact k4
  | other hn h ht ih =>
    obtain ⟨k1, k2⟩ := other_mind hn h
    obtain ⟨k3, k4⟩ := ih (by rw [k1]; exact hm)
    exact ⟨k3.trans k1, by rw [← k2]; exact k4⟩

theorem trace_sees {fuel : Nat} {es : List Event} {s s' : Strat} {vs : List U256} (h : Trace fuel es s vs s') :
    ∃ xs, Sees fuel es s xs s' := by
  induction h with
  | nil => exact ⟨[], .nil⟩
  | @cons e es s s1 s' vs ws h ht ih =>
    obtain ⟨xs, ih⟩ := ih
    by_cases he : e = .price
    · subst he
      have : vs = [] := h.2
      subst this
      exact ⟨_, .price h ih⟩
    · exact ⟨xs, .other he h ih⟩

theorem sees_trace {fuel : Nat} {es : List Event} {s s' : Strat} {xs : List U256} (h : Sees fuel es s xs s') :
    ∃ vs, Trace fuel es s vs s' := by
  induction h with
  | nil => exact ⟨[], .nil⟩
  | price h ht ih => obtain ⟨vs, ih⟩ := ih; exact ⟨_, .cons h ih⟩
  | other hn h ht ih => obtain ⟨vs, ih⟩ := ih; exact ⟨_, .cons h ih⟩

theorem new_record {kind : Kind} {a b : U256} {p : Pool} {s : Strat} {n : Int} (h : Strat.new kind a b p = .ok s) (hm : memory kind = some n) :
    s.kind = kind ∧ 0 ≤ n ∧ Prices.new n.toNat = .ok s.history := by
  unfold Strat.new at h
  obtain ⟨x, h1, h⟩ := bind_ok h
  cases h
  have h2 : Prices.new n = .ok x := by
    cases kind <;> cases hm <;> exact h1
  have h3 : 0 ≤ n := by
    unfold Prices.new at h2
    by_contra hc
    rw [if_pos (by omega)] at h2
    cases h2
  refine ⟨rfl, h3, ?_⟩
  rw [Int.toNat_of_nonneg h3]
  exact h2

theorem window_sum (n : Nat) (vs : List Nat) : (window n vs).sum = (vs.drop (vs.length - n)).sum := by
  unfold window
  by_cases h : vs.length ≤ n
  · rw [List.drop_append_of_le_length (by rw [List.length_replicate]; exact h), List.sum_append, List.drop_replicate, List.sum_replicate,
      show vs.length - n = 0 by omega, List.drop_zero]
    simp
  · rw [List.drop_append, List.drop_eq_nil_of_le (by rw [List.length_replicate]; omega), List.length_replicate, List.nil_append]

theorem stored_latest {n : Nat} {xs : List U256} (hx : ∀ x ∈ latest n xs, x.toNat < 2 ^ 128) :
    (window n (stored xs)).sum = squareSum (latest n xs) := by
  rw [window_sum]
  unfold stored squareSum latest
  rw [List.length_map, ← List.map_drop]
  congr 1
  refine List.map_congr_left fun x h => Nat.mod_eq_of_lt ?_
  have := Nat.pow_lt_pow_left (hx x h) (show 2 ≠ 0 by norm_num)
  exact lt_of_lt_of_eq this (by norm_num)

end Strat
end Uni
