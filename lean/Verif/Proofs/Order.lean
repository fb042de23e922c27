import Verif.Spec.Order
import Verif.Proofs.Total
import Verif.Proofs.Restore
import Verif.Proofs.Strategy
import Verif.Props.Pool
/-! # Liquidity changes commute -/
namespace Uni
open U256 Spec TickData TickMath FullMath
namespace Pool

/-- What one change does to the entry of one boundary. -/
def cut (p : Pool) (o : Option Tick) (i : Int) (d : U256) (up : Bool) : Option Tick :=
  if nowEmpty o d = true then none else some (updated o i p.tick d p.growth0 p.growth1 up)

theorem updated_gross (o : Option Tick) (i cur : Int) (d g0 g1 : U256) (up : Bool) :
    (updated o i cur d g0 g1 up).gross = (match o with | some x => add x.gross d | none => d) := by
  unfold updated makeTick
  rcases o with _ | x
  · dsimp only; split <;> rfl
  · rfl

theorem updated_twice (o : Option Tick) (i cur : Int) (d e g0 g1 : U256) (up up' : Bool) :
    updated (some (updated o i cur d g0 g1 up)) i cur e g0 g1 up' =
      updated (some (updated o i cur e g0 g1 up')) i cur d g0 g1 up := by
  unfold updated makeTick
  rcases o with _ | x
  · by_cases h : i ≤ cur <;> cases up <;> cases up' <;> simp [h, add_def, sub_def, neg_def] <;> (try constructor) <;> abel
  · cases up <;> cases up' <;> simp [add_def, sub_def] <;> (try constructor) <;> abel

theorem nowEmpty_twice (o : Option Tick) (i cur : Int) (d e g0 g1 : U256) (up up' : Bool) :
    nowEmpty (some (updated o i cur d g0 g1 up)) e = nowEmpty (some (updated o i cur e g0 g1 up')) d := by
  unfold nowEmpty
  dsimp only
  rw [updated_gross, updated_gross]
  rcases o with _ | x
  · dsimp only; rw [show add d e = add e d by simp only [add_def]; abel]
  · dsimp only; rw [show add (add x.gross d) e = add (add x.gross e) d by simp only [add_def]; abel]

theorem cut_comm (p : Pool) (o : Option Tick) (i : Int) (d e : U256) (up up' : Bool) (hd : nowEmpty o d = false)
    (he : nowEmpty o e = false) : cut p (cut p o i d up) i e up' = cut p (cut p o i e up') i d up := by
  have e1 : cut p o i d up = some (updated o i p.tick d p.growth0 p.growth1 up) := by unfold cut; rw [hd]; rfl
  have e2 : cut p o i e up' = some (updated o i p.tick e p.growth0 p.growth1 up') := by unfold cut; rw [he]; rfl
  rw [e1, e2]
  unfold cut
  rw [nowEmpty_twice o i p.tick d e p.growth0 p.growth1 up up', updated_twice]

/-- The record after a change with known credits. -/
def credited (i : Info) (c : U256 × U256) : Info := { i with owed0 := add i.owed0 c.1, owed1 := add i.owed1 c.2 }

/-- What one change of liquidity does to the pool. -/
structure Effect (p p' : Pool) (rec : Bool) (l u : Int) (d : U256) (c : U256 × U256) (t' : TickData) (pos : Info) : Prop where
  inc0 : Increasing p.ticks.ticks
  lu : l < u
  inc : Increasing t'.ticks
  sp : t'.spacing = p.ticks.spacing
  look : ∀ j, lookup t'.ticks j = if j = u then cut p (lookup p.ticks.ticks u) u d true
    else if j = l then cut p (lookup p.ticks.ticks l) l d false else lookup p.ticks.ticks j
  upd : rec = true → (posOrNew (p.positions (posKey l u))).update d (insideOf p l u).1 (insideOf p l u).2 = .ok pos
  eq : p' = { p with
    ticks := t'
    liquidity := if l ≤ p.tick ∧ p.tick < u then add p.liquidity d else p.liquidity
    positions := if rec = true then setPos p.positions (posKey l u) (credited pos c) else p.positions }

theorem insideOf_congr {p q : Pool} {l u : Int} (ht : q.tick = p.tick) (h0 : q.growth0 = p.growth0) (h1 : q.growth1 = p.growth1)
    (hl : outsideOf q l = outsideOf p l) (hu : outsideOf q u = outsideOf p u) : insideOf q l u = insideOf p l u := by
  unfold insideOf belowOf
  rw [hl, hu, ht, h0, h1]

/-- The growth stored at a boundary is not affected by a change that does not empty it. -/
theorem Effect.outside {p p' : Pool} {rec : Bool} {l u : Int} {d : U256} {c : U256 × U256} {t' : TickData} {pos : Info}
    (E : Effect p p' rec l u d c t' pos) {i : Int}
    (hi : i = l ∨ i = u → nowEmpty (lookup p.ticks.ticks i) d = false) : outsideOf p' i = outsideOf p i := by
  have hcut : ∀ up, nowEmpty (lookup p.ticks.ticks i) d = false →
      (match cut p (lookup p.ticks.ticks i) i d up with
        | some x => (x.out0, x.out1)
        | none => if i ≤ p.tick then (p.growth0, p.growth1) else (zero, zero)) = outsideOf p i := by
    intro up h
    unfold cut outsideOf
    rw [h, if_neg (by decide)]
    dsimp only
    unfold updated makeTick
    rcases lookup p.ticks.ticks i with _ | x
    · by_cases c : i ≤ p.tick
      · simp [c]
      · simp [c]
    · rfl
  have e := E.look i
  rw [E.eq]
  show (match lookup t'.ticks i with
        | some x => (x.out0, x.out1)
        | none => if i ≤ p.tick then (p.growth0, p.growth1) else (zero, zero)) = outsideOf p i
  rw [e]
  by_cases h1 : i = u
  · subst h1
    rw [if_pos rfl]
    exact hcut true (hi (.inr rfl))
  · rw [if_neg h1]
    by_cases h2 : i = l
    · subst h2
      rw [if_pos rfl]
      exact hcut false (hi (.inl rfl))
    · rw [if_neg h2]
      rfl

theorem Effect.inside {p p' : Pool} {rec : Bool} {l u : Int} {d : U256} {c : U256 × U256} {t' : TickData} {pos : Info}
    (E : Effect p p' rec l u d c t' pos) {a b : Int}
    (hi : ∀ i, i = l ∨ i = u → i = a ∨ i = b → nowEmpty (lookup p.ticks.ticks i) d = false) : insideOf p' a b = insideOf p a b := by
  refine insideOf_congr (by rw [E.eq]) (by rw [E.eq]) (by rw [E.eq]) ?_ ?_
  · exact E.outside fun h => hi a h (.inl rfl)
  · exact E.outside fun h => hi b h (.inr rfl)

theorem mulDiv_zero_left (x y : U256) : mulDiv zero x y = .ok zero := by
  rw [mulDiv_ok_iff]
  have : zero.toNat = 0 := by decide
  rw [this, Nat.zero_mul, Nat.zero_div]
  exact ⟨.inl rfl, by decide⟩

theorem update_eq {i r : Info} {d a b : U256} (h : i.update d a b = .ok r) :
    ∃ o0 o1, mulDiv (sub a i.inside0) i.liquidity Cons.q128 = .ok o0 ∧ mulDiv (sub b i.inside1) i.liquidity Cons.q128 = .ok o1 ∧
      r = ⟨add i.liquidity d, a, b, add i.owed0 o0, add i.owed1 o1⟩ := by
  unfold Info.update at h
  obtain ⟨o0, h0, h⟩ := bind_ok h
  obtain ⟨o1, h1, h⟩ := bind_ok h
  cases h
  exact ⟨o0, o1, h0, h1, rfl⟩

theorem update_again {i r s : Info} {d e a b : U256} {c : U256 × U256} (h : i.update d a b = .ok r)
    (h' : (credited r c).update e a b = .ok s) :
    s = ⟨add (add i.liquidity d) e, a, b, add r.owed0 c.1, add r.owed1 c.2⟩ := by
  obtain ⟨o0, o1, _, _, rfl⟩ := update_eq h
  obtain ⟨o0', o1', h0', h1', rfl⟩ := update_eq h'
  dsimp only [credited] at h0' h1' ⊢
  have z : ∀ x : U256, sub x x = zero := fun x => by simp only [sub_def, zero_def]; abel
  rw [z, mulDiv_zero_left] at h0' h1'
  cases h0'
  cases h1'
  have e : ∀ x : U256, add x zero = x := fun x => by simp only [add_def, zero_def]; abel
  rw [e, e]

theorem posOrNew_setPos (m : String → Option Info) (k k' : String) (v : Info) :
    posOrNew (setPos m k v k') = if k' = k then v else posOrNew (m k') := by
  unfold setPos
  by_cases h : k' = k
  · rw [if_pos h, if_pos h]; rfl
  · rw [if_neg h, if_neg h]

theorem setPos_comm (m : String → Option Info) (k k' : String) (v w : Info) (h : k ≠ k') :
    setPos (setPos m k v) k' w = setPos (setPos m k' w) k v := by
  funext x
  unfold setPos
  by_cases h1 : x = k'
  · subst h1
    rw [if_pos rfl, if_neg (Ne.symm h), if_pos rfl]
  · rw [if_neg h1]
    by_cases h2 : x = k
    · rw [if_pos h2, if_pos h2]
    · rw [if_neg h2, if_neg h2, if_neg h1]

theorem setPos_twice (m : String → Option Info) (k : String) (v w : Info) : setPos (setPos m k v) k w = setPos m k w := by
  funext x
  unfold setPos
  by_cases h : x = k
  · rw [if_pos h, if_pos h]
  · rw [if_neg h, if_neg h, if_neg h]

/-- Two changes that do not empty a shared boundary and do not use one record for two ranges commute. -/
theorem Effect.comm {p p1 p2 q1 q2 : Pool} {ra rb : Bool} {la ua lb ub : Int} {da db : U256} {ca cb : U256 × U256}
    {t1 t2 s1 s2 : TickData} {x1 x2 y1 y2 : Info}
    (A : Effect p p1 ra la ua da ca t1 x1) (B : Effect p1 p2 rb lb ub db cb t2 x2)
    (B' : Effect p q1 rb lb ub db cb s1 y1) (A' : Effect q1 q2 ra la ua da ca s2 y2)
    (hs : ∀ i, i = la ∨ i = ua → i = lb ∨ i = ub →
      nowEmpty (lookup p.ticks.ticks i) da = false ∧ nowEmpty (lookup p.ticks.ticks i) db = false)
    (hk : ra = true → rb = true → posKey la ua = posKey lb ub → la = lb ∧ ua = ub) : p2 = q2 := by
  have hin : insideOf p1 lb ub = insideOf p lb ub := A.inside fun i h1 h2 => (hs i h1 h2).1
  have hin' : insideOf q1 la ua = insideOf p la ua := B'.inside fun i h1 h2 => (hs i h2 h1).2
  have key : ∀ j, lookup t2.ticks j = lookup s2.ticks j := by
    intro j
    have a1 := A.look
    have b1 := B.look j
    have b2 := B'.look
    have a2 := A'.look j
    have hla := A.lu
    have hlb := B.lu
    rw [A.eq] at b1
    rw [B'.eq] at a2
    change _ = if j = ub then cut p (lookup t1.ticks ub) ub db true
      else if j = lb then cut p (lookup t1.ticks lb) lb db false else lookup t1.ticks j at b1
    change _ = if j = ua then cut p (lookup s1.ticks ua) ua da true
      else if j = la then cut p (lookup s1.ticks la) la da false else lookup s1.ticks j at a2
    rw [b1, a2, a1, a1, a1, b2, b2, b2]
    by_cases j1 : j = ua
    · subst j1
      have n1 : ¬ j = la := by omega
      simp only [if_true, n1, if_false]
      by_cases j2 : j = ub
      · subst j2
        simp only [if_true]
        obtain ⟨c1, c2⟩ := hs j (.inr rfl) (.inr rfl)
        exact cut_comm p _ j da db true true c1 c2
      · by_cases j3 : j = lb
        · subst j3
          simp only [if_true, j2, if_false]
          obtain ⟨c1, c2⟩ := hs j (.inr rfl) (.inl rfl)
          exact cut_comm p _ j da db true false c1 c2
        · simp only [j2, j3, if_false]
    · by_cases j1' : j = la
      · subst j1'
        simp only [if_true, j1, if_false]
        by_cases j2 : j = ub
        · subst j2
          simp only [if_true, j1, if_false]
          obtain ⟨c1, c2⟩ := hs j (.inl rfl) (.inr rfl)
          exact cut_comm p _ j da db false true c1 c2
        · by_cases j3 : j = lb
          · subst j3
            simp only [if_true, j1, j2, if_false]
            obtain ⟨c1, c2⟩ := hs j (.inl rfl) (.inl rfl)
            exact cut_comm p _ j da db false false c1 c2
          · simp only [j2, j3, if_false]
      · simp only [j1, j1', if_false]
        by_cases j2 : j = ub
        · subst j2
          simp only [if_true, j1, j1', if_false]
        · by_cases j3 : j = lb
          · subst j3
            simp only [if_true, j1, j1', j2, if_false]
          · simp only [j2, j3, if_false]
  have ht : t2 = s2 := by
    have h1 := ticks_ext B.inc A'.inc key
    have h2 : t2.spacing = s2.spacing := by
      rw [B.sp, A'.sp, A.eq, B'.eq]
      exact A.sp.trans B'.sp.symm
    cases t2; cases s2
    cases h1; cases h2
    rfl
  have hl : p2.liquidity = q2.liquidity := by
    rw [B.eq, A'.eq, A.eq, B'.eq]
    dsimp only
    split <;> split <;> simp only [add_def] <;> abel
  have hpos : p2.positions = q2.positions := by
    have hb := B.upd
    have ha := A.upd
    have hb' := B'.upd
    have ha' := A'.upd
    rw [B.eq, A'.eq]
    dsimp only
    rw [hin] at hb
    rw [hin'] at ha'
    have e1 : p1.positions = if ra = true then setPos p.positions (posKey la ua) (credited x1 ca) else p.positions := by rw [A.eq]
    have e2 : q1.positions = if rb = true then setPos p.positions (posKey lb ub) (credited y1 cb) else p.positions := by rw [B'.eq]
    rw [e1] at hb ⊢
    rw [e2] at ha' ⊢
    cases ra
    · cases rb
      · rfl
      · rw [if_neg (by decide)] at hb
        have := (hb rfl).symm.trans (hb' rfl)
        cases this
        rfl
    · cases rb
      · rw [if_neg (by decide)] at ha'
        have := (ha' rfl).symm.trans (ha rfl)
        cases this
        rfl
      · rw [if_pos rfl] at hb ha'
        rw [if_pos rfl, if_pos rfl, if_pos rfl, if_pos rfl]
        by_cases hkey : posKey la ua = posKey lb ub
        · obtain ⟨k1, k2⟩ := hk rfl rfl hkey
          subst k1
          subst k2
          have h1 := hb rfl
          have h2 := ha' rfl
          rw [posOrNew_setPos, if_pos rfl] at h1 h2
          have u1 := update_again (ha rfl) h1
          have u2 := update_again (hb' rfl) h2
          rw [setPos_twice, setPos_twice]
          obtain ⟨o0, o1, m0, m1, v1⟩ := update_eq (ha rfl)
          obtain ⟨o0', o1', m0', m1', v2⟩ := update_eq (hb' rfl)
          have w0 := m0.symm.trans m0'
          have w1 := m1.symm.trans m1'
          cases w0
          cases w1
          congr 1
          rw [u1, u2, v1, v2]
          unfold credited
          dsimp only
          simp only [Info.mk.injEq, true_and]
          refine ⟨?_, ?_, ?_⟩ <;> simp only [add_def] <;> abel
        · have h1 := hb rfl
          have h2 := ha' rfl
          rw [posOrNew_setPos, if_neg (Ne.symm hkey)] at h1
          rw [posOrNew_setPos, if_neg hkey] at h2
          have w1 := h1.symm.trans (hb' rfl)
          have w2 := h2.symm.trans (ha rfl)
          cases w1
          cases w2
          exact setPos_comm _ _ _ _ _ hkey
  have e : ∀ {a b : Pool}, a.token0 = b.token0 → a.token1 = b.token1 → a.fee = b.fee → a.price = b.price → a.liquidity = b.liquidity →
      a.growth0 = b.growth0 → a.growth1 = b.growth1 → a.spacing = b.spacing → a.tick = b.tick → a.ticks = b.ticks →
      a.positions = b.positions → a = b := by
    intro a b
    cases a; cases b
    dsimp only
    rintro rfl rfl rfl rfl rfl rfl rfl rfl rfl rfl rfl
    rfl
  refine e ?_ ?_ ?_ ?_ hl ?_ ?_ ?_ ?_ ?_ hpos
  all_goals (rw [B.eq, A'.eq, A.eq, B'.eq])
  exact ht

/-! ### The four calls -/

/-- The signed amount of a change, as a 256-bit number. -/
def delta (c : Change) : U256 := if c.add = true then c.amount else neg c.amount

/-- What a change credits to the record besides fees. -/
def CreditOf (p : Pool) (c : Change) (k : U256 × U256) : Prop :=
  if c.add = true then k = (zero, zero)
  else c.record = true → ∃ am, p.amountsFor c.lower c.upper (neg c.amount) = .ok am ∧ k = (neg am.1, neg am.2)

theorem amountsFor_congr {p q : Pool} (ht : q.tick = p.tick) (hp : q.price = p.price) (l u : Int) (d : U256) :
    q.amountsFor l u d = p.amountsFor l u d := by
  unfold amountsFor
  rw [ht, hp]

theorem credited_zero (i : Info) : credited i (zero, zero) = i := by
  have e : ∀ x : U256, add x zero = x := fun x => by simp only [add_def, zero_def]; abel
  unfold credited
  rw [e, e]

theorem credit_unique {p q : Pool} {c : Change} {k k' : U256 × U256} (ht : q.tick = p.tick) (hp : q.price = p.price)
    (h : CreditOf p c k) (h' : CreditOf q c k') (hr : c.add = true ∨ c.record = true) : k = k' := by
  unfold CreditOf at h h'
  by_cases ha : c.add = true
  · rw [if_pos ha] at h h'
    rw [h, h']
  · rw [if_neg ha] at h h'
    have hr' : c.record = true := by rcases hr with hr | hr; exact absurd hr ha; exact hr
    obtain ⟨am, e1, rfl⟩ := h hr'
    obtain ⟨am', e2, rfl⟩ := h' hr'
    rw [amountsFor_congr ht hp, e1] at e2
    cases e2
    rfl

theorem updatePosition_inside {p p' : Pool} {pos : Info} {l u : Int} {d : U256} (hs : Increasing p.ticks.ticks) (hlu : l < u)
    (hd : d.toNat ≠ 0) (hx : p.updatePosition l u d = .ok (pos, p')) :
    ∃ t' : TickData, Increasing t'.ticks ∧ t'.spacing = p.ticks.spacing ∧
      (posOrNew (p.positions (posKey l u))).update d (insideOf p l u).1 (insideOf p l u).2 = .ok pos ∧
      (∀ j, lookup t'.ticks j = if j = u then (if d.toInt < 0 ∧ nowEmpty (lookup p.ticks.ticks u) d = true then none
          else some (updated (lookup p.ticks.ticks u) u p.tick d p.growth0 p.growth1 true))
        else if j = l then (if d.toInt < 0 ∧ nowEmpty (lookup p.ticks.ticks l) d = true then none
          else some (updated (lookup p.ticks.ticks l) l p.tick d p.growth0 p.growth1 false))
        else lookup p.ticks.ticks j) ∧
      p' = { p with ticks := t', positions := setPos p.positions (posKey l u) pos } := by
  obtain ⟨t2, t', ins, a1, a2, a3, a4, a5, a6, a7, a8⟩ := updatePosition_eq hs hlu hx
  refine ⟨t', a5, a6, ?_, ?_, a8⟩
  · have hl : lookup t2.ticks l = some (updated (lookup p.ticks.ticks l) l p.tick d p.growth0 p.growth1 false) := by
      rw [a2 l, if_neg hd, if_neg (by omega), if_pos rfl]
    have hu : lookup t2.ticks u = some (updated (lookup p.ticks.ticks u) u p.tick d p.growth0 p.growth1 true) := by
      rw [a2 u, if_neg hd, if_pos rfl]
    have hin := inside_of_below (p := p) a1 hl hu (touched_below p l d false) (touched_below p u d true)
    rw [a3] at hin
    cases hin
    exact a4
  · intro j
    rw [a7 j, if_neg hd]

theorem nowEmpty_mint {h : List Entry} {p : Pool} (hi : Inv h p) {a : U256} (h0 : 0 < a.toNat) (hL : a.toNat < 2 ^ 128) (i : Int) :
    nowEmpty (lookup p.ticks.ticks i) a = false :=
  (boundary_restore hi.ticks (fun i => hi.cov.gross_lt i) i 0 a zero zero false h0 hL).1

theorem delta_neg {h : List Entry} {p : Pool} (hi : Inv h p) {l u : Int} {a : U256} (hz : a.toNat ≠ 0)
    (ho : (a.toNat : Int) ≤ outstanding h l u) : (neg a).toInt = - (a.toNat : Int) ∧ a.toNat < 2 ^ 128 := by
  have hlt := hi.cov.outstanding_lt l u
  have e1 : a.toInt = a.toNat := toInt_of_lt (by omega)
  refine ⟨?_, by omega⟩
  rw [toInt_neg_of _ (by omega), e1]

theorem add_lt {h : List Entry} {p : Pool} (hi : Inv h p) {a : U256} (ha : total h + a.toNat < 2 ^ 128) : a.toNat < 2 ^ 128 := by
  have h0 : 0 ≤ total h := wsum_nonneg hi.cov.nonneg (fun _ _ _ => by norm_num)
  omega

/-- The effect of a change that was carried out. -/
theorem effect_of_exec {h : List Entry} {p p' : Pool} (hi : Inv h p) {c : Change} {fuel : Nat} (ha : c.op.Admissible p h)
    (hz : c.amount.toNat ≠ 0) (hx : c.op.exec fuel p = .ok p') :
    ∃ k t' pos, CreditOf p c k ∧ Effect p p' c.record c.lower c.upper (delta c) k t' pos := by
  obtain ⟨ad, rec, l, u, a⟩ := c
  dsimp only at hz
  cases ad
  · cases rec
    · -- Burn
      have ha' : (a.toNat : Int) ≤ outstanding h l u ∧ 0 < outstanding h l u := ha
      have hx' : p.modifyPosition l u (neg a) = .ok p' := hx
      obtain ⟨hlu, _, _, t', b1, b2, b3, b4⟩ := modifyPosition_eq hi.ticks.inc hx'
      refine ⟨(zero, zero), t', Info.new, ?_, ?_⟩
      · unfold CreditOf; rw [if_neg Bool.false_ne_true]; exact fun h => absurd h Bool.false_ne_true
      · exact ⟨hi.ticks.inc, hlu, b1, b2, b3, (fun h => absurd h Bool.false_ne_true), b4⟩
    · -- BurnStrategy
      have ha' : (a.toNat : Int) ≤ outstanding h l u := ha
      obtain ⟨hneg, hlt⟩ := delta_neg hi hz ha'
      have hdz : (neg a).toNat ≠ 0 := fun h0 => by have := toInt_eq_zero.2 h0; omega
      have hx0 : (p.burnStrategy l u a >>= fun r => (return r.2.2 : Go Pool)) = .ok p' := hx
      obtain ⟨r, hx1, hx2⟩ := bind_ok hx0
      cases hx2
      unfold burnStrategy at hx1
      obtain ⟨⟨pos, a0, a1, p1⟩, hx3, hx4⟩ := bind_ok hx1
      cases hx4
      obtain ⟨hlu, _, _, q, h1, _, h3⟩ := modifyStrategy_eq hx3
      obtain ⟨h4, h5⟩ := h3 hdz
      obtain ⟨t', b1, b2, b3, b4, rfl⟩ := updatePosition_inside hi.ticks.inc hlu hdz h1
      refine ⟨(neg a0, neg a1), t', pos, ?_, ?_⟩
      · unfold CreditOf
        rw [if_neg Bool.false_ne_true]
        intro _
        exact ⟨(a0, a1), (amountsFor_congr rfl rfl l u (neg a)).symm.trans h4, rfl⟩
      · refine ⟨hi.ticks.inc, hlu, b1, b2, ?_, fun _ => b3, ?_⟩
        · intro j
          rw [b4 j]
          unfold cut delta
          rw [if_neg (show ¬ (false = true) by decide)]
          have : ∀ b : Bool, ((neg a).toInt < 0 ∧ b = true) ↔ b = true := fun b => ⟨fun h => h.2, fun h => ⟨by omega, h⟩⟩
          simp only [this]
        · subst h5
          show _ = _
          dsimp only
          rw [setPos_twice, if_pos rfl]
          rfl
  · cases rec
    · -- Mint
      have ha' : total h + a.toNat < 2 ^ 128 := ha
      have hlt := add_lt hi ha'
      obtain ⟨_, h3, hx'⟩ := bind_ok hx
      obtain ⟨hlu, _, _, t', b1, b2, b3, b4⟩ := modifyPosition_eq hi.ticks.inc hx'
      refine ⟨(zero, zero), t', Info.new, ?_, ?_⟩
      · unfold CreditOf; rw [if_pos rfl]
      · exact ⟨hi.ticks.inc, hlu, b1, b2, b3, (fun h => absurd h Bool.false_ne_true), b4⟩
    · -- MintStrategy
      have ha' : total h + a.toNat < 2 ^ 128 := ha
      have hlt := add_lt hi ha'
      have hpos : a.toInt = a.toNat := toInt_of_lt (by omega)
      have hx0 : (p.mintStrategy l u a >>= fun r => (return r.2.2 : Go Pool)) = .ok p' := hx
      obtain ⟨r, hx1, hx2⟩ := bind_ok hx0
      cases hx2
      unfold mintStrategy at hx1
      obtain ⟨_, h0, hx1⟩ := bind_ok hx1
      obtain ⟨⟨pos, a0, a1, p1⟩, hx3, hx4⟩ := bind_ok hx1
      cases hx4
      obtain ⟨hlu, _, _, q, h1, _, h3⟩ := modifyStrategy_eq hx3
      obtain ⟨h4, h5⟩ := h3 hz
      obtain ⟨t', b1, b2, b3, b4, rfl⟩ := updatePosition_inside hi.ticks.inc hlu hz h1
      refine ⟨(zero, zero), t', pos, ?_, ?_⟩
      · unfold CreditOf; rw [if_pos rfl]
      · refine ⟨hi.ticks.inc, hlu, b1, b2, ?_, fun _ => b3, ?_⟩
        · intro j
          rw [b4 j]
          unfold cut delta
          rw [if_pos rfl]
          have : ∀ i, ¬ (a.toInt < 0 ∧ nowEmpty (lookup p.ticks.ticks i) a = true) := fun i h => by omega
          rw [if_neg (this u), if_neg (this l)]
          dsimp only
          rw [nowEmpty_mint hi (by omega : 0 < a.toNat) hlt u, nowEmpty_mint hi (by omega : 0 < a.toNat) hlt l]
          rfl
        · subst h5
          show _ = _
          dsimp only
          rw [credited_zero, if_pos rfl]
          rfl

/-- When a change can be carried out. -/
theorem exec_returns {h : List Entry} {p : Pool} (hi : Inv h p) (fuel : Nat) {c : Change} (ha : c.op.Admissible p h)
    (hz : c.amount.toNat ≠ 0) :
    (∃ p', c.op.exec fuel p = .ok p') ↔ ValidRange c.lower c.upper ∧ (c.record = true → Creditable p c.lower c.upper ∧
      (c.add = true → ¬ Unpriceable (clamp p.price.toNat (ratioN c.lower) (ratioN c.upper)) (ratioN c.upper) c.amount.toNat)) := by
  obtain ⟨ad, rec, l, u, a⟩ := c
  dsimp only at hz ⊢
  have strip : ∀ (x : Go (U256 × U256 × Pool)), (∃ p', (x >>= fun r => (return r.2.2 : Go Pool)) = .ok p') ↔ ∃ r, x = .ok r := by
    intro x
    constructor
    · rintro ⟨p', hx⟩
      obtain ⟨r, h1, _⟩ := bind_ok hx
      exact ⟨r, h1⟩
    · rintro ⟨r, rfl⟩
      exact ⟨_, rfl⟩
  cases ad
  · cases rec
    · have : (∃ p', (Change.op ⟨false, false, l, u, a⟩).exec fuel p = .ok p') ↔ ValidRange l u := by
        constructor
        · rintro ⟨p', hx⟩
          exact (modifyPosition_eq hi.ticks.inc hx).imp_right fun h => ⟨h.1, h.2.1⟩
        · rintro ⟨h1, h2, h3⟩
          exact modifyPosition_total _ hi.ticks.inc h1 h2 h3
      rw [this]
      exact ⟨fun h => ⟨h, fun h => by cases h⟩, fun h => h.1⟩
    · have ha' : (a.toNat : Int) ≤ outstanding h l u := ha
      obtain ⟨hneg, hlt⟩ := delta_neg hi hz ha'
      show (∃ p', (p.burnStrategy l u a >>= fun r => (return r.2.2 : Go Pool)) = .ok p') ↔ _
      rw [strip, burnStrategy_total, modifyStrategy_total hi (by omega) (by omega) (by omega)]
      exact ⟨fun h => ⟨h.1, fun _ => ⟨h.2.1, fun h => by cases h⟩⟩, fun h => ⟨h.1, (h.2 rfl).1, fun h' => by omega⟩⟩
  · have ha' : total h + a.toNat < 2 ^ 128 := by cases rec <;> exact ha
    have hlt := add_lt hi ha'
    have hpos : a.toInt = a.toNat := toInt_of_lt (by omega)
    cases rec
    · have : (∃ p', (Change.op ⟨true, false, l, u, a⟩).exec fuel p = .ok p') ↔ ValidRange l u := by
        constructor
        · rintro ⟨p', hx⟩
          obtain ⟨_, _, hx⟩ := bind_ok hx
          exact (modifyPosition_eq hi.ticks.inc hx).imp_right fun h => ⟨h.1, h.2.1⟩
        · rintro ⟨h1, h2, h3⟩
          show ∃ p', p.mint l u a = .ok p'
          unfold mint
          rw [positive_ok (by omega), Except_bind_ok]
          exact modifyPosition_total _ hi.ticks.inc h1 h2 h3
      rw [this]
      exact ⟨fun h => ⟨h, fun h => by cases h⟩, fun h => h.1⟩
    · show (∃ p', (p.mintStrategy l u a >>= fun r => (return r.2.2 : Go Pool)) = .ok p') ↔ _
      rw [strip, mintStrategy_total, modifyStrategy_total hi (by omega) (by omega) (by omega)]
      exact ⟨fun h => ⟨h.2.1, fun _ => ⟨h.2.2.1, fun _ => h.2.2.2 (by omega)⟩⟩,
        fun h => ⟨by omega, h.1, (h.2 rfl).1, fun _ => (h.2 rfl).2 rfl⟩⟩

/-- A change does not affect whether the fees of the record used by another change can be credited. -/
theorem creditable_iff {p p' : Pool} {ra rb : Bool} {la ua lb ub : Int} {db : U256} {kb : U256 × U256}
    {t : TickData} {x : Info} (B : Effect p p' rb lb ub db kb t x)
    (hs : ∀ i, i = la ∨ i = ua → i = lb ∨ i = ub → nowEmpty (lookup p.ticks.ticks i) db = false) (hra : ra = true)
    (hk : ra = true → rb = true → posKey la ua = posKey lb ub → la = lb ∧ ua = ub) :
    Creditable p' la ua ↔ Creditable p la ua := by
  have hin : insideOf p' la ua = insideOf p la ua := B.inside fun i h1 h2 => hs i h2 h1
  by_cases hsame : rb = true ∧ posKey la ua = posKey lb ub
  · obtain ⟨k1, k2⟩ := hk hra hsame.1 hsame.2
    subst k1
    subst k2
    have hu := B.upd hsame.1
    have c1 : Creditable p la ua := by
      unfold Creditable
      rw [record_posOrNew]
      exact (update_total _ _ _ _).1 ⟨_, hu⟩
    refine ⟨fun _ => c1, fun _ => ?_⟩
    unfold Creditable
    rw [record_posOrNew, hin]
    obtain ⟨o0, o1, _, _, e⟩ := update_eq hu
    have hpos : posOrNew (p'.positions (posKey la ua)) = credited x kb := by
      rw [B.eq]
      dsimp only
      rw [if_pos hsame.1, posOrNew_setPos, if_pos rfl]
    dsimp only
    rw [hpos, e]
    have z : ∀ x : U256, sub x x = zero := fun x => by simp only [sub_def, zero_def]; abel
    dsimp only [credited]
    rw [z, z]
    have : zero.toNat = 0 := by decide
    exact ⟨.inl (by rw [this, Nat.mul_zero]), .inl (by rw [this, Nat.mul_zero])⟩
  · have hpos : p'.positions (posKey la ua) = p.positions (posKey la ua) := by
      rw [B.eq]
      dsimp only
      by_cases hb : rb = true
      · rw [if_pos hb]
        unfold setPos
        rw [if_neg (fun h => hsame ⟨hb, h⟩)]
      · rw [if_neg hb]
    unfold Creditable
    rw [record_posOrNew, record_posOrNew, hin]
    dsimp only
    rw [hpos]

/-- Two changes in either order. -/
theorem change_comm {h : List Entry} {p p1 p2 : Pool} (hr : Reachable h p) {a b : Change} {fuel : Nat}
    (ha : a.op.Admissible p h) (hb : b.op.Admissible p h)
    (hab : b.op.Admissible p (a.op.ledger h)) (hba : a.op.Admissible p (b.op.ledger h))
    (za : a.amount.toNat ≠ 0) (zb : b.amount.toNat ≠ 0)
    (hs : ∀ i, i = a.lower ∨ i = a.upper → i = b.lower ∨ i = b.upper →
      nowEmpty (lookup p.ticks.ticks i) (delta a) = false ∧ nowEmpty (lookup p.ticks.ticks i) (delta b) = false)
    (hk : Apart a b) (h1 : a.op.exec fuel p = .ok p1) (h2 : b.op.exec fuel p1 = .ok p2) :
    ∃ q1, b.op.exec fuel p = .ok q1 ∧ a.op.exec fuel q1 = .ok p2 := by
  have adm : ∀ (c : Change) (q q' : Pool) (l : List Entry), c.op.Admissible q l → c.op.Admissible q' l := by
    rintro ⟨ad, rec, l, u, am⟩ q q' hh hc
    cases ad <;> cases rec <;> exact hc
  have hi := Props.reachable_inv hr
  have r1 := Strat.reachable_step hr fuel a.op ha h1
  have i1 := Props.reachable_inv r1
  obtain ⟨ka, t1, x1, ca, A⟩ := effect_of_exec hi ha za h1
  obtain ⟨kb, t2, x2, cb, B⟩ := effect_of_exec i1 (adm b p p1 _ hab) zb h2
  have p1tick : p1.tick = p.tick := by rw [A.eq]
  have p1price : p1.price = p.price := by rw [A.eq]
  have hk' : b.record = true → a.record = true → posKey b.lower b.upper = posKey a.lower a.upper → b.lower = a.lower ∧ b.upper = a.upper :=
    fun x y z => by obtain ⟨u, v⟩ := hk y x z.symm; exact ⟨u.symm, v.symm⟩
  have hb1 := (exec_returns i1 fuel (adm b p p1 _ hab) zb).1 ⟨_, h2⟩
  obtain ⟨q1, hq1⟩ := (exec_returns hi fuel hb zb).2 ⟨hb1.1, fun hrec => by
    obtain ⟨c1, c2⟩ := hb1.2 hrec
    rw [p1price] at c2
    exact ⟨(creditable_iff A (fun i h1 h2 => (hs i h2 h1).1) hrec hk').1 c1, c2⟩⟩
  have r2 := Strat.reachable_step hr fuel b.op hb hq1
  have i2 := Props.reachable_inv r2
  obtain ⟨kb', s1, y1, cb', B'⟩ := effect_of_exec hi hb zb hq1
  have q1tick : q1.tick = p.tick := by rw [B'.eq]
  have q1price : q1.price = p.price := by rw [B'.eq]
  have ha1 := (exec_returns hi fuel ha za).1 ⟨_, h1⟩
  obtain ⟨q2, hq2⟩ := (exec_returns i2 fuel (adm a p q1 _ hba) za).2 ⟨ha1.1, fun hrec => by
    obtain ⟨c1, c2⟩ := ha1.2 hrec
    rw [q1price]
    exact ⟨(creditable_iff B' (fun i h1 h2 => (hs i h1 h2).2) hrec hk).2 c1, c2⟩⟩
  obtain ⟨ka', s2, y2, ca', A'⟩ := effect_of_exec i2 (adm a p q1 _ hba) za hq2
  refine ⟨q1, hq1, ?_⟩
  -- without a record the credit is not used
  have anyk : ∀ {p p' : Pool} {rec : Bool} {l u : Int} {d : U256} {c c' : U256 × U256} {t' : TickData} {pos : Info},
      Effect p p' rec l u d c t' pos → (rec = true → c = c') → Effect p p' rec l u d c' t' pos := by
    intro p p' rec l u d c c' t' pos E hc
    refine ⟨E.inc0, E.lu, E.inc, E.sp, E.look, E.upd, ?_⟩
    rw [E.eq]
    cases rec
    · rfl
    · rw [hc rfl]
  have A2 := anyk A' (c' := ka) fun hrec => (credit_unique q1tick q1price ca ca' (.inr hrec)).symm
  have B2 := anyk B' (c' := kb) fun hrec => credit_unique p1tick p1price cb' cb (.inr hrec)
  have := Effect.comm A B B2 A2 hs hk
  rw [this]
  exact hq2

end Pool
end Uni
