import Verif.Proofs.Strategy
import Verif.Proofs.Credit
/-! # Closing the positions of a strategy -/
namespace Uni
open U256 Spec TickData TickMath SwapMath FullMath SqrtPriceMath LiquidityAmounts Pool
namespace Strat

theorem pending_none0 {p : Pool} {l u : Int} (h : p.positions (posKey l u) = none) : pending0 p l u = zero := by
  unfold pending0; rw [h]
theorem pending_none1 {p : Pool} {l u : Int} (h : p.positions (posKey l u) = none) : pending1 p l u = zero := by
  unfold pending1; rw [h]
theorem pending_some0 {p : Pool} {l u : Int} {i : Info} {g : U256 × U256} (h : p.positions (posKey l u) = some i)
    (hg : p.ticks.getFeeGrowthInside l u p.tick p.growth0 p.growth1 = .ok g) :
    pending0 p l u = add i.owed0 (share i.liquidity (sub g.1 i.inside0)) := by
  unfold pending0; rw [h, hg]
theorem pending_some1 {p : Pool} {l u : Int} {i : Info} {g : U256 × U256} (h : p.positions (posKey l u) = some i)
    (hg : p.ticks.getFeeGrowthInside l u p.tick p.growth0 p.growth1 = .ok g) :
    pending1 p l u = add i.owed1 (share i.liquidity (sub g.2 i.inside1)) := by
  unfold pending1; rw [h, hg]

theorem pending_congr {p p' : Pool} {l u : Int} (h1 : p'.positions (posKey l u) = p.positions (posKey l u))
    (h2 : p'.ticks.getFeeGrowthInside l u p'.tick p'.growth0 p'.growth1 = p.ticks.getFeeGrowthInside l u p.tick p.growth0 p.growth1) :
    pending0 p' l u = pending0 p l u ∧ pending1 p' l u = pending1 p l u := by
  unfold pending0 pending1; rw [h1, h2]; exact ⟨rfl, rfl⟩

theorem collect_eq {p p' : Pool} {l u : Int} {c0 c1 : U256} {i : Info} (hi : p.positions (posKey l u) = some i)
    (hx : p.collectStrategy l u = .ok (c0, c1, p')) : c0 = i.owed0 ∧ c1 = i.owed1 := by
  unfold collectStrategy at hx
  rw [hi] at hx
  cases hx
  exact ⟨rfl, rfl⟩

/-- What one burn and collect pays. -/
theorem burn_collect {h : List Entry} {p p1 p2 : Pool} (hi : Inv h p) {l u : Int} {L b0 b1 c0 c1 : U256}
    (ho : 0 < outstanding h l u) (hb : p.burnStrategy l u L = .ok (b0, b1, p1)) (hc : p1.collectStrategy l u = .ok (c0, c1, p2)) :
    c0 = add (pending0 p l u) b0 ∧ c1 = add (pending1 p l u) b1 := by
  obtain ⟨pos, a0, a1, q, h1, rfl, rfl, rfl⟩ := burnStrategy_eq hb
  obtain ⟨ins, k1, k2, _⟩ := touch_inside hi h1
  obtain ⟨g1, g2⟩ := hi.cov.gross_pos ho
  have k3 := k2 ⟨init_of_gross hi (by omega), init_of_gross hi (by omega)⟩
  obtain ⟨_, _, _, u4, u5⟩ := update_ok k1
  obtain ⟨e0, e1⟩ := collect_eq setPos_same hc
  rw [e0, e1]
  dsimp only
  have hn : ∀ i : Info, pos.owed0 = i.owed0 + share i.liquidity (ins.1 - i.inside0) → pos.owed0 = add i.owed0 (share i.liquidity (sub ins.1 i.inside0)) := by
    intro i hx; rw [hx]; rfl
  rcases hp : p.positions (posKey l u) with _ | i
  · rw [hp] at u4 u5
    rw [pending_none0 hp, pending_none1 hp]
    have z : ∀ g : U256, share Info.new.liquidity g = zero := by
      intro g
      unfold share
      rw [show (Info.new.liquidity).toNat = 0 from rfl, Nat.zero_mul, Nat.zero_div]; rfl
    change pos.owed0 = Info.new.owed0 + share Info.new.liquidity (ins.1 - Info.new.inside0) at u4
    change pos.owed1 = Info.new.owed1 + share Info.new.liquidity (ins.2 - Info.new.inside1) at u5
    rw [z] at u4 u5
    rw [u4, u5]
    constructor <;> rfl
  · rw [hp] at u4 u5
    rw [pending_some0 hp k3, pending_some1 hp k3, u4, u5]
    constructor <;> rfl

/-- One step of the loop: the ledger, and the records and fee growths of the other positions. -/
theorem burnOne {m : List Entry} {ps : List StratPos} {q : StratPos} {p p1 p2 : Pool} {b0 b1 c0 c1 : U256} (ho : Owns m (q :: ps) p)
    (hb : p.burnStrategy q.lower q.upper q.amount = .ok (b0, b1, p1)) (hc : p1.collectStrategy q.lower q.upper = .ok (c0, c1, p2)) :
    Owns m ps p2 ∧ Still p p2 ∧ c0 = add (pending0 p q.lower q.upper) b0 ∧ c1 = add (pending1 p q.lower q.upper) b1 ∧
      (b0.toNat : Int) = ⌊q.amount.toNat * holding0 p.price.toNat q.lower q.upper⌋ ∧
      (b1.toNat : Int) = ⌊q.amount.toNat * holding1 p.price.toNat q.lower q.upper⌋ ∧
      (∀ q' ∈ ps, posKey q.lower q.upper ≠ posKey q'.lower q'.upper →
        p2.positions (posKey q'.lower q'.upper) = p.positions (posKey q'.lower q'.upper) ∧
          p2.ticks.getFeeGrowthInside q'.lower q'.upper p2.tick p2.growth0 p2.growth1 =
            p.ticks.getFeeGrowthInside q'.lower q'.upper p.tick p.growth0 p.growth1) := by
  obtain ⟨h, hr, hs⟩ := ho.pool
  have hi := Props.reachable_inv hr
  have hw := ho.wf q (List.mem_cons_self ..)
  have hout : ∀ l u, outstanding h l u = (if q.lower = l ∧ q.upper = u then (q.amount.toNat : Int) else 0) + outstanding (entries ps) l u + outstanding m l u := by
    intro l u
    rw [hs.outstanding, outstanding_append]
    congr 1
    exact outstanding_cons _ _ _ _
  have hq : (q.amount.toNat : Int) ≤ outstanding h q.lower q.upper := by
    rw [hout, if_pos ⟨rfl, rfl⟩]
    have := outstanding_entries_nonneg ps q.lower q.upper
    have := ho.nonneg q.lower q.upper
    omega
  have hw1 := hw.1
  have hlt := hi.cov.outstanding_lt q.lower q.upper
  have hled : (PoolOp.burnStrategy q.lower q.upper q.amount).ledger h = ⟨q.lower, q.upper, -q.amount.toNat⟩ :: h := by
    unfold PoolOp.ledger
    exact if_neg (by omega)
  have r1 := reachable_step hr 0 (.burnStrategy q.lower q.upper q.amount) hq (exec_burn hb)
  have r2 := reachable_step r1 0 (.collectStrategy q.lower q.upper) trivial (exec_collect hc)
  have r3 : Reachable (⟨q.lower, q.upper, -q.amount.toNat⟩ :: h) p2 := by
    rw [← hled]; exact r2
  obtain ⟨e0, e1⟩ := burn_collect hi (by omega) hb hc
  obtain ⟨f0, f1⟩ := burnStrategy_amounts hi (by omega) hb
  refine ⟨⟨⟨_, r3, sameBook_burn ps q m hs⟩, ho.nonneg, fun x hx => ho.wf x (List.mem_cons_of_mem _ hx)⟩,
    (burnStrategy_still hb).trans (collectStrategy_still hc), e0, e1, f0, f1, ?_⟩
  intro q' hq' hne
  have hne' : ¬ (q.lower = q'.lower ∧ q.upper = q'.upper) := by
    rintro ⟨x1, x2⟩; rw [x1, x2] at hne; exact hne rfl
  have hw' := ho.wf q' (List.mem_cons_of_mem _ hq')
  have hpos : 0 < outstanding h q'.lower q'.upper := by
    rw [hout, if_neg hne']
    obtain ⟨a, b, rfl⟩ := List.append_of_mem hq'
    rw [entries_append, outstanding_append]
    have := outstanding_entries_nonneg a q'.lower q'.upper
    have := outstanding_entries_nonneg b q'.lower q'.upper
    have := ho.nonneg q'.lower q'.upper
    have e : outstanding (entries (q' :: b)) q'.lower q'.upper = (q'.amount.toNat : Int) + outstanding (entries b) q'.lower q'.upper := by
      show outstanding (⟨q'.lower, q'.upper, q'.amount.toNat⟩ :: entries b) _ _ = _
      rw [outstanding_cons, if_pos ⟨rfl, rfl⟩]
    have := hw'.1
    omega
  have ev : Evolves (PoolOp.LeavesAlone q'.lower q'.upper) (fun _ => True) h p [] _ p2 :=
    .step 0 (.collectStrategy q.lower q.upper)
      (.step 0 (.burnStrategy q.lower q.upper q.amount) (.refl trivial) hne hq (exec_burn hb) trivial) hne trivial (exec_collect hc) trivial
  obtain ⟨i1, _, i3, i4, i5⟩ := evolves_alone hi hpos ev
  have init : ∀ {h' : List Entry} {p' : Pool}, Inv h' p' → 0 < outstanding h' q'.lower q'.upper →
      ∃ r, p'.ticks.getFeeGrowthInside q'.lower q'.upper p'.tick p'.growth0 p'.growth1 = .ok r := by
    intro h' p' hi' ho'
    obtain ⟨g1, g2⟩ := hi'.cov.gross_pos ho'
    have n1 := init_of_gross hi' (show grossAt h' q'.lower ≠ 0 by omega)
    have n2 := init_of_gross hi' (show grossAt h' q'.upper ≠ 0 by omega)
    obtain ⟨x, hx⟩ := Option.isSome_iff_exists.1 n1
    obtain ⟨y, hy⟩ := Option.isSome_iff_exists.1 n2
    exact ⟨_, inside_eq hi'.ticks.inc hx hy _ _ _⟩
  obtain ⟨ra, hra⟩ := init hi hpos
  obtain ⟨rb, hrb⟩ := init i1 (by omega)
  obtain ⟨x1, x2⟩ := evolves_inside (le_of_lt hw'.2.1) hi i5 hra hrb
  have z1 : rb.1 = ra.1 := by
    rw [x1]; show ra.1 + zero = ra.1; rw [zero_def, add_zero]
  have z2 : rb.2 = ra.2 := by
    rw [x2]; show ra.2 + zero = ra.2; rw [zero_def, add_zero]
  exact ⟨i4, by rw [hra, hrb, Prod.ext z1 z2]⟩

theorem worth0_cons (P : Nat) (q : StratPos) (ps : List StratPos) :
    worth0 P (q :: ps) = ⌊q.amount.toNat * holding0 P q.lower q.upper⌋ + worth0 P ps := by
  unfold worth0; rw [List.map_cons, List.sum_cons]
theorem worth1_cons (P : Nat) (q : StratPos) (ps : List StratPos) :
    worth1 P (q :: ps) = ⌊q.amount.toNat * holding1 P q.lower q.upper⌋ + worth1 P ps := by
  unfold worth1; rw [List.map_cons, List.sum_cons]
theorem fees0_cons (p : Pool) (q : StratPos) (ps : List StratPos) :
    fees0 p (q :: ps) = (pending0 p q.lower q.upper).toNat + fees0 p ps := by
  unfold fees0; rw [List.map_cons, List.sum_cons]
theorem fees1_cons (p : Pool) (q : StratPos) (ps : List StratPos) :
    fees1 p (q :: ps) = (pending1 p q.lower q.upper).toNat + fees1 p ps := by
  unfold fees1; rw [List.map_cons, List.sum_cons]

/-- The new balance of one token after one step of the loop. -/
theorem credit_step {x y f b c : U256} {w W F : Int} (hc : c = add f b) (hb : (b.toNat : Int) = w)
    (hy : (y.toNat : Int) = ((add x c).toNat + W + F) % 2 ^ 256) :
    (y.toNat : Int) = (x.toNat + (w + W) + (f.toNat + F)) % 2 ^ 256 := by
  rw [hc, toNat_add, toNat_add] at hy
  rw [hy]
  push_cast
  omega

theorem burnLoop_spec {m : List Entry} {ps : List StratPos} : ∀ {s s1 : Strat}, Owns m ps s.pool → burnLoop ps s = .ok s1 →
    Owns m [] s1.pool ∧ Still s.pool s1.pool ∧
      s1 = { s with pool := s1.pool, amount0 := s1.amount0, amount1 := s1.amount1 } ∧
      (ps.Pairwise (fun q q' => posKey q.lower q.upper ≠ posKey q'.lower q'.upper) →
        (s1.amount0.toNat : Int) = (s.amount0.toNat + worth0 s.pool.price.toNat ps + fees0 s.pool ps) % 2 ^ 256 ∧
        (s1.amount1.toNat : Int) = (s.amount1.toNat + worth1 s.pool.price.toNat ps + fees1 s.pool ps) % 2 ^ 256) := by
  induction ps with
  | nil =>
    intro s s1 ho hx
    cases hx
    refine ⟨ho, ⟨rfl, rfl, rfl, rfl, rfl, rfl, rfl, rfl⟩, rfl, fun _ => ?_⟩
    have h0 := s.amount0.toNat_lt
    have h1 := s.amount1.toNat_lt
    show (s.amount0.toNat : Int) = (s.amount0.toNat + 0 + 0) % _ ∧ (s.amount1.toNat : Int) = (s.amount1.toNat + 0 + 0) % _
    constructor <;> omega
  | cons q ps ih =>
    intro s s1 ho hx
    unfold burnLoop at hx
    obtain ⟨⟨b0, b1, p1⟩, hb, hx⟩ := bind_ok hx
    obtain ⟨⟨c0, c1, p2⟩, hc, hx⟩ := bind_ok hx
    dsimp only at hc hx
    obtain ⟨o, st, e0, e1, f0, f1, fr⟩ := burnOne ho hb hc
    obtain ⟨i1, i2, i3, i4⟩ := ih (s := { s with pool := p2, amount0 := add s.amount0 c0, amount1 := add s.amount1 c1 }) o hx
    refine ⟨i1, st.trans i2, by rw [i3], ?_⟩
    intro hp
    obtain ⟨hp1, hp2⟩ := List.pairwise_cons.1 hp
    obtain ⟨j1, j2⟩ := i4 hp2
    dsimp only at j1 j2
    have g0 : fees0 p2 ps = fees0 s.pool ps := by
      unfold fees0
      congr 1
      exact List.map_congr_left (fun q' hq' => by
        obtain ⟨k1, k2⟩ := fr q' hq' (hp1 q' hq')
        rw [(pending_congr k1 k2).1])
    have g1 : fees1 p2 ps = fees1 s.pool ps := by
      unfold fees1
      congr 1
      exact List.map_congr_left (fun q' hq' => by
        obtain ⟨k1, k2⟩ := fr q' hq' (hp1 q' hq')
        rw [(pending_congr k1 k2).2])
    rw [st.price, g0] at j1
    rw [st.price, g1] at j2
    rw [worth0_cons, worth1_cons, fees0_cons, fees1_cons]
    push_cast
    exact ⟨credit_step e0 f0 j1, credit_step e1 f1 j2⟩

end Strat
end Uni
