import Verif.Proofs.Pool
import Verif.Proofs.Group
import Mathlib.Data.List.Nodup
import Mathlib.Data.List.Perm.Basic
/-! # Mint followed by burn -/
namespace Uni
open U256 Spec TickData TickMath
namespace Pool

/-- A sorted store is determined by its lookups. -/
theorem ticks_ext {a b : List Tick} (ha : Increasing a) (hb : Increasing b) (h : ∀ i, lookup a i = lookup b i) : a = b := by
  have nd : ∀ {c : List Tick}, Increasing c → c.Nodup := by
    intro c hc
    exact List.Pairwise.imp (fun {x y} hxy he => by rw [he] at hxy; exact lt_irrefl _ hxy) hc
  have hp : a.Perm b := by
    rw [List.perm_ext_iff_of_nodup (nd ha) (nd hb)]
    intro x
    constructor
    · intro hx
      have := lookup_of_mem ha hx
      rw [h] at this
      exact lookup_mem this
    · intro hx
      have := lookup_of_mem hb hx
      rw [← h] at this
      exact lookup_mem this
  exact List.Perm.eq_of_pairwise (le := fun x y : Tick => x.index < y.index) (fun x y _ _ h1 h2 => absurd h1 (by omega)) ha hb hp

/-- Every change of a range with valid boundaries returns. -/
theorem modifyPosition_total {p : Pool} {l u : Int} (d : U256) (hs : Increasing p.ticks.ticks) (hlu : l < u) (hl : -887272 ≤ l)
    (hu : u ≤ 887272) : ∃ p', p.modifyPosition l u d = .ok p' := by
  have e1 : minTick = -887272 := by decide
  have e2 : maxTick = 887272 := by decide
  have hct : checkTicks l u = .ok () := by
    unfold checkTicks
    rw [decide_eq_true hlu, decide_eq_true (show l ≥ minTick by omega), decide_eq_true (show u ≤ maxTick by omega)]
    rfl
  unfold modifyPosition
  rw [hct, Except_bind_ok]
  obtain ⟨t1, t2, b1, b2, b3, b4, b5⟩ := bounds_spec hs (show l ≠ u by omega) p.tick d p.growth0 p.growth1
  rw [b1, Except_bind_ok]
  dsimp only
  rw [b2, Except_bind_ok]
  dsimp only
  obtain ⟨t3, c1, c2, c3, c4⟩ := clearIf_spec b3 (nowEmpty (lookup p.ticks.ticks l) d) l
  rw [c1, Except_bind_ok]
  obtain ⟨t4, d1, d2, d3, d4⟩ := clearIf_spec c2 (nowEmpty (lookup p.ticks.ticks u) d) u
  rw [d1, Except_bind_ok]
  split
  · exact ⟨_, rfl⟩
  · exact ⟨_, rfl⟩

/-- Adding and removing the same amount at one boundary. -/
theorem boundary_restore {h : List Entry} {t : TickData} (ht : TicksOk h t) (hg : ∀ i, grossAt h i < 2 ^ 128)
    (i cur : Int) (L g0 g1 : U256) (up : Bool) (h0 : 0 < L.toNat) (hL : L.toNat < 2 ^ 128) :
    nowEmpty (lookup t.ticks i) L = false ∧
    (if nowEmpty (some (updated (lookup t.ticks i) i cur L g0 g1 up)) (neg L) = true then none
      else some (updated (some (updated (lookup t.ticks i) i cur L g0 g1 up)) i cur (neg L) g0 g1 up)) = lookup t.ticks i := by
  rcases hx : lookup t.ticks i with _ | x
  · refine ⟨rfl, ?_⟩
    have hgross : (updated none i cur L g0 g1 up).gross = L := by
      show (makeTick i cur (if up then neg L else L) L g0 g1).gross = L
      unfold makeTick; split <;> rfl
    have : nowEmpty (some (updated none i cur L g0 g1 up)) (neg L) = true := by
      show (add (updated none i cur L g0 g1 up).gross (neg L)).isZero = true
      rw [hgross]
      simp only [add_def, neg_def]
      rw [add_neg_cancel]
      rfl
    rw [if_pos this]
  · obtain ⟨h1, h2, h3⟩ := ht.some i x hx
    have h4 := hg i
    have h5 : (add x.gross L).toNat = x.gross.toNat + L.toNat := toNat_add_of_lt (by omega)
    refine ⟨?_, ?_⟩
    · rw [Bool.eq_false_iff]
      intro hc
      have := (isZero_iff _).1 hc
      omega
    · have e1 : add (add x.gross L) (neg L) = x.gross := by
        simp only [add_def, neg_def]; abel
      have : nowEmpty (some (updated (some x) i cur L g0 g1 up)) (neg L) = false := by
        rw [Bool.eq_false_iff]
        intro hc
        have hc' : (add (add x.gross L) (neg L)).isZero = true := hc
        rw [e1] at hc'
        have := (isZero_iff _).1 hc'
        omega
      rw [this, if_neg (by decide)]
      have e2 : updated (some (updated (some x) i cur L g0 g1 up)) i cur (neg L) g0 g1 up = x := by
        unfold updated
        dsimp only
        have e3 : (if up = true then sub (if up = true then sub x.net L else add x.net L) (neg L)
            else add (if up = true then sub x.net L else add x.net L) (neg L)) = x.net := by
          cases up
          · rw [if_neg (by decide), if_neg (by decide)]; simp only [add_def, neg_def]; abel
          · rw [if_pos rfl, if_pos rfl]; simp only [sub_def, neg_def]; abel
        rw [e1, e3]
      rw [e2]

/-- Minting and then burning the same liquidity restores the pool. -/
theorem mint_burn_restore {h : List Entry} {p p1 p2 : Pool} (hi : Inv h p) {l u : Int} {L : U256} (h0 : 0 < L.toNat) (hL : L.toNat < 2 ^ 128)
    (h1 : p.modifyPosition l u L = .ok p1) (h2 : p1.modifyPosition l u (neg L) = .ok p2) : p2 = p := by
  obtain ⟨hlu, _, _, t1, a1, a2, a3, rfl⟩ := modifyPosition_eq hi.ticks.inc h1
  obtain ⟨_, _, _, t2, b1, b2, b3, rfl⟩ := modifyPosition_eq a1 h2
  have hlu' : ¬ l = u := by omega
  obtain ⟨c1, c2⟩ := boundary_restore hi.ticks (fun i => hi.cov.gross_lt i) l p.tick L p.growth0 p.growth1 false h0 hL
  obtain ⟨d1, d2⟩ := boundary_restore hi.ticks (fun i => hi.cov.gross_lt i) u p.tick L p.growth0 p.growth1 true h0 hL
  have e : t2 = p.ticks := by
    have hl : t2.ticks = p.ticks.ticks := by
      refine ticks_ext b1 hi.ticks.inc ?_
      intro i
      rw [b3 i]
      change (if i = u then (if nowEmpty (lookup t1.ticks u) (neg L) then none
        else some (updated (lookup t1.ticks u) u p.tick (neg L) p.growth0 p.growth1 true))
        else if i = l then (if nowEmpty (lookup t1.ticks l) (neg L) then none
        else some (updated (lookup t1.ticks l) l p.tick (neg L) p.growth0 p.growth1 false)) else lookup t1.ticks i) = _
      by_cases hiu : i = u
      · subst hiu
        rw [if_pos rfl, a3 i, if_pos rfl, d1, if_neg (show ¬ (false = true) by decide)]
        exact d2
      · rw [if_neg hiu]
        by_cases hil : i = l
        · subst hil
          rw [if_pos rfl, a3 i, if_neg hiu, if_pos rfl, c1, if_neg (show ¬ (false = true) by decide)]
          exact c2
        · rw [if_neg hil, a3 i, if_neg hiu, if_neg hil]
    have hsp : t2.spacing = p.ticks.spacing := b2.trans a2
    cases t2
    cases hp : p.ticks
    rw [hp] at hl hsp
    dsimp only at hl hsp
    rw [hl, hsp]
  have e2 : (if l ≤ p.tick ∧ p.tick < u then add (if l ≤ p.tick ∧ p.tick < u then add p.liquidity L else p.liquidity) (neg L)
      else (if l ≤ p.tick ∧ p.tick < u then add p.liquidity L else p.liquidity)) = p.liquidity := by
    by_cases hc : l ≤ p.tick ∧ p.tick < u
    · rw [if_pos hc, if_pos hc]; simp only [add_def, neg_def]; abel
    · rw [if_neg hc, if_neg hc]
  subst e
  dsimp only at e2 ⊢
  rw [e2]

end Pool
end Uni
