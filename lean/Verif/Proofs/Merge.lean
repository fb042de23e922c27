import Verif.Proofs.Order
import Verif.Props.Positions
/-! # Two liquidity changes on one range, made at once -/
namespace Uni
open U256 Spec TickData TickMath FullMath
namespace Pool

theorem updated_merge (o : Option Tick) (i cur : Int) (d e g0 g1 : U256) (up : Bool) :
    updated (some (updated o i cur d g0 g1 up)) i cur e g0 g1 up = updated o i cur (add d e) g0 g1 up := by
  unfold updated makeTick
  rcases o with _ | x
  · by_cases h : i ≤ cur <;> cases up <;> simp [h, add_def, sub_def, neg_def] <;> (try constructor) <;> abel
  · cases up <;> simp [add_def, sub_def] <;> (try constructor) <;> abel

theorem cut_merge (p : Pool) (o : Option Tick) (i : Int) (d e : U256) (up : Bool) (hd : nowEmpty o d = false)
    (he : nowEmpty (cut p o i d up) e = nowEmpty o (add d e)) : cut p (cut p o i d up) i e up = cut p o i (add d e) up := by
  have e1 : cut p o i d up = some (updated o i p.tick d p.growth0 p.growth1 up) := by unfold cut; rw [hd]; rfl
  rw [e1] at he ⊢
  unfold cut
  rw [he, updated_merge]

/-- Two changes of one range against one change. -/
theorem Effect.merge {p p1 p2 q : Pool} {rec : Bool} {l u : Int} {d e : U256} {ca cb cc : U256 × U256}
    {t1 t2 s : TickData} {x1 x2 y : Info}
    (A : Effect p p1 rec l u d ca t1 x1) (B : Effect p1 p2 rec l u e cb t2 x2) (C : Effect p q rec l u (add d e) cc s y)
    (hd : ∀ i, i = l ∨ i = u → nowEmpty (lookup p.ticks.ticks i) d = false)
    (he : ∀ i, i = l ∨ i = u → nowEmpty (lookup p1.ticks.ticks i) e = nowEmpty (lookup p.ticks.ticks i) (add d e)) :
    q = { p2 with positions := q.positions } ∧
    (rec = false → q.positions = p2.positions) ∧
    (rec = true → p2.positions = setPos p.positions (posKey l u) (credited (credited y ca) cb) ∧
      q.positions = setPos p.positions (posKey l u) (credited y cc)) := by
  have hin : insideOf p1 l u = insideOf p l u := A.inside fun i h1 _ => hd i h1
  have hlu := A.lu
  have key : ∀ j, lookup t2.ticks j = lookup s.ticks j := by
    intro j
    have a1 := A.look
    have b1 := B.look j
    have c1 := C.look j
    rw [A.eq] at b1 he
    change _ = if j = u then cut p (lookup t1.ticks u) u e true
      else if j = l then cut p (lookup t1.ticks l) l e false else lookup t1.ticks j at b1
    change ∀ i, i = l ∨ i = u → nowEmpty (lookup t1.ticks i) e = nowEmpty (lookup p.ticks.ticks i) (add d e) at he
    have hel := he l (.inl rfl)
    have heu := he u (.inr rfl)
    rw [a1 l, if_neg (by omega), if_pos rfl] at hel
    rw [a1 u, if_pos rfl] at heu
    rw [b1, c1, a1 u, a1 l, a1 j, if_pos rfl, if_neg (show ¬ l = u by omega), if_pos rfl,
      cut_merge _ _ _ _ _ _ (hd u (.inr rfl)) heu, cut_merge _ _ _ _ _ _ (hd l (.inl rfl)) hel]
    by_cases j1 : j = u
    · rw [if_pos j1, if_pos j1]
    · by_cases j2 : j = l
      · simp only [if_neg j1, if_pos j2]
      · simp only [if_neg j1, if_neg j2]
  have ht : t2 = s := by
    have h1 := ticks_ext B.inc C.inc key
    have h2 : t2.spacing = s.spacing := by
      rw [B.sp, C.sp, A.eq]
      exact A.sp
    cases t2; cases s
    cases h1; cases h2
    rfl
  refine ⟨?_, ?_, ?_⟩
  · rw [B.eq, C.eq, A.eq]
    dsimp only
    subst ht
    congr 1
    split <;> simp only [add_def] <;> abel
  · rintro rfl
    rw [B.eq, C.eq, A.eq]
    rfl
  · rintro rfl
    have hb := B.upd rfl
    have ha := A.upd rfl
    have hc := C.upd rfl
    rw [hin] at hb
    have e1 : p1.positions = setPos p.positions (posKey l u) (credited x1 ca) := by rw [A.eq]; dsimp only; rw [if_pos rfl]
    rw [e1, posOrNew_setPos, if_pos rfl] at hb
    have u1 := update_again ha hb
    obtain ⟨o0, o1, m0, m1, v1⟩ := update_eq ha
    obtain ⟨o0', o1', m0', m1', v2⟩ := update_eq hc
    have w0 := m0.symm.trans m0'
    have w1 := m1.symm.trans m1'
    cases w0
    cases w1
    constructor
    · rw [B.eq]
      dsimp only
      rw [if_pos rfl, e1, setPos_twice, u1, v1, v2]
      congr 1
      unfold credited
      dsimp only
      simp only [Info.mk.injEq, true_and, and_true]
      simp only [add_def]
      abel
    · rw [C.eq]
      dsimp only
      rw [if_pos rfl]

theorem not_gone {h : List Entry} {p : Pool} (hi : Inv h p) {i : Int} {d e : U256} {g1 g2 : U256} {cur : Int} {up : Bool}
    (hg : grossAt h i ≠ 0) :
    nowEmpty (some (updated (lookup p.ticks.ticks i) i cur d g1 g2 up)) e = nowEmpty (lookup p.ticks.ticks i) (add d e) := by
  rcases hx : lookup p.ticks.ticks i with _ | x
  · exact absurd (hi.ticks.none i hx) hg
  · unfold nowEmpty
    dsimp only
    rw [updated_gross]
    dsimp only
    rw [show add (add x.gross d) e = add x.gross (add d e) by simp only [add_def]; abel]

/-- What `BurnStrategy` returns is what it credits. -/
theorem burn_credit {p p' : Pool} {l u : Int} {a b0 b1 : U256} (hz : (neg a).toNat ≠ 0) (hx : p.burnStrategy l u a = .ok (b0, b1, p'))
    {k : U256 × U256} (hk : CreditOf p ⟨false, true, l, u, a⟩ k) : k = (b0, b1) := by
  obtain ⟨pos, a0, a1, q, h1, rfl, rfl, _⟩ := burnStrategy_eq hx
  obtain ⟨_, _, _, q', h2, _, h3⟩ := modifyStrategy_eq h1
  have h4 := (h3 hz).1
  unfold CreditOf at hk
  rw [if_neg Bool.false_ne_true] at hk
  obtain ⟨am, h5, rfl⟩ := hk rfl
  have ht : q'.tick = p.tick ∧ q'.price = p.price := by
    unfold updatePosition at h2
    obtain ⟨r, h6, h2⟩ := bind_ok h2
    obtain ⟨r', h7, h2⟩ := bind_ok h2
    obtain ⟨_, _, h2⟩ := bind_ok h2
    obtain ⟨_, _, h2⟩ := bind_ok h2
    obtain ⟨_, _, h2⟩ := bind_ok h2
    cases h2
    exact ⟨rfl, rfl⟩
  rw [amountsFor_congr ht.1 ht.2] at h4
  dsimp only at h5
  rw [h4] at h5
  cases h5
  rfl

end Pool
end Uni
