import Verif.Spec.LimitOrder
import Verif.Proofs.Invest
/-! # What the limit order strategy reports -/
namespace Uni
namespace Strat
open U256 Spec TickData TickMath SwapMath FullMath SqrtPriceMath LiquidityAmounts Pool

theorem mintAmount_marks {s s' : Strat} {l u : Int} {L : U256} (hx : s.mintAmount l u L = .ok s') :
    s'.limitTick = s.limitTick ∧ s'.direction = s.direction := by
  unfold mintAmount at hx
  obtain ⟨r, h1, hx⟩ := bind_ok hx
  cases hx
  exact ⟨rfl, rfl⟩

theorem mintPosition_marks {s s' : Strat} {l u : Int} (hx : s.mintPosition l u = .ok s') :
    s'.limitTick = s.limitTick ∧ s'.direction = s.direction := by
  unfold mintPosition at hx
  obtain ⟨L, h1, hx⟩ := bind_ok hx
  by_cases hz : L.isZero
  · rw [if_pos hz] at hx
    cases hx
    exact ⟨rfl, rfl⟩
  · rw [if_neg hz] at hx
    exact mintAmount_marks hx

theorem limitAbove_marks {s s' : Strat} {unit : Int} (hx : s.limitAbove unit = .ok s') :
    (s.amount0.toNat = 0 → s'.limitTick = s.limitTick ∧ s'.direction = s.direction) ∧
      (s.amount0.toNat ≠ 0 → s'.limitTick = TickRound.ceil s.pool.tick unit + 10 ∧ s'.direction = true) := by
  unfold limitAbove at hx
  by_cases hz : s.amount0.isZero
  · rw [if_pos hz] at hx
    cases hx
    exact ⟨fun _ => ⟨rfl, rfl⟩, fun h => absurd ((isZero_iff _).1 hz) h⟩
  · rw [if_neg hz] at hx
    dsimp only at hx
    obtain ⟨s1, h1, hx⟩ := bind_ok hx
    cases hx
    exact ⟨fun h => absurd ((isZero_iff _).2 h) hz, fun _ => ⟨rfl, rfl⟩⟩

theorem limitBelow_marks {s s' : Strat} {unit : Int} (hx : s.limitBelow unit = .ok s') :
    (s.amount1.toNat = 0 → s'.limitTick = s.limitTick ∧ s'.direction = s.direction) ∧
      (s.amount1.toNat ≠ 0 → s'.limitTick = TickRound.floor s.pool.tick unit - 10 ∧ s'.direction = false) := by
  unfold limitBelow at hx
  by_cases hz : s.amount1.isZero
  · rw [if_pos hz] at hx
    cases hx
    exact ⟨fun _ => ⟨rfl, rfl⟩, fun h => absurd ((isZero_iff _).1 hz) h⟩
  · rw [if_neg hz] at hx
    dsimp only at hx
    obtain ⟨s1, h1, hx⟩ := bind_ok hx
    cases hx
    exact ⟨fun h => absurd ((isZero_iff _).2 h) hz, fun _ => ⟨rfl, rfl⟩⟩

theorem setLimit_reports {m : List Entry} {s s' : Strat} {w : Int} (ho : Owns m s.positions s.pool) (hf : Fits m s') (hw : |w| ≤ 2 ^ 30)
    (hx : s.setLimit w = .ok s') : ∃ new, s'.positions = s.positions ++ new ∧
      LimitReport s w (s.amount0, s.amount1) new (s'.amount0, s'.amount1) s.limitTick s'.limitTick s.direction s'.direction := by
  have hr := ho.ready
  unfold setLimit at hx
  dsimp only at hx
  obtain ⟨s1, h1, hx⟩ := bind_ok hx
  obtain ⟨s2, h2, hx⟩ := bind_ok hx
  have m1 := mintPosition_marks h1
  have m2 := limitAbove_marks h2
  have m3 := limitBelow_marks hx
  have k1 := mintPosition_all m h1
  have k2 := limitAbove_follows m h2
  have k3 := limitBelow_follows m hx
  have t1 := k1.tick
  have t2 := k2.tick
  rw [t2, t1] at k3 m3
  rw [t1] at k2 m2
  obtain ⟨p1, g1, b1⟩ := k1
  obtain ⟨p2, g2, b2⟩ := k2
  obtain ⟨p3, g3, b3⟩ := k3
  have f2 := g3.fits hf
  have f1 := g2.fits f2
  have o1 := (g1.own ho f1).1
  have o2 := (g2.own o1 f2).1
  have c1 := b1 ho f1
  have c2 := b2 o1 f2
  have c3 := b3 o2 hf
  rw [g2.still.price, g1.still.price] at c3
  rw [g1.still.price] at c2
  obtain ⟨n1, n2⟩ := next_ok hr
  refine ⟨p1 ++ p2 ++ p3, by rw [g3.pos, g2.pos, g1.pos]; simp only [List.append_assoc],
    s.around s.pool.tick w, _, _, p1, p2, p3, (s1.amount0, s1.amount1), (s2.amount0, s2.amount1),
    around_centred hr hr.lo hr.hi hw, n1, n2, rfl, c1, c2, c3, m3.2, fun a b => ?_, fun a b => ?_⟩
  · rw [(m3.1 a).1, (m3.1 a).2]; exact m2.2 b
  · rw [(m3.1 a).1, (m3.1 a).2, (m2.1 b).1, (m2.1 b).2]; exact m1

end Strat
end Uni
