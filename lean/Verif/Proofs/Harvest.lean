import Verif.Proofs.Credit
import Verif.Spec.Harvest
/-! # Collecting fees again and again -/
namespace Uni
open U256 Spec TickData TickMath FullMath SwapMath SqrtPriceMath
namespace Pool

/-- The pool with another record under the key `K`. -/
def setRec (K : String) (o : Option Info) (p : Pool) : Pool := { p with positions := fun k => if k = K then o else p.positions k }

theorem setRec_at (K : String) (o : Option Info) (p : Pool) : (setRec K o p).positions K = o := if_pos rfl

theorem setRec_setRec (K : String) (o o' : Option Info) (p : Pool) : setRec K o (setRec K o' p) = setRec K o p := by
  unfold setRec
  congr 1
  funext k
  by_cases h : k = K
  · simp [h]
  · simp [h]

theorem setRec_self {K : String} {o : Option Info} {p : Pool} (h : p.positions K = o) : setRec K o p = p := by
  subst h
  unfold setRec
  obtain ⟨a, b, c, d, e, f, g, i, j, k, m⟩ := p
  congr 1
  funext k
  dsimp only
  split
  · rename_i h; rw [h]
  · rfl

theorem setPos_setRec {K k : String} (hk : k ≠ K) (o : Option Info) (p : Pool) (v : Info) :
    setPos (setRec K o p).positions k v = (setRec K o { p with positions := setPos p.positions k v }).positions := by
  funext k'
  unfold setPos setRec
  dsimp only
  by_cases h : k' = k
  · subst h; simp [hk]
  · simp [h]

theorem swapLoop_rec (K : String) (o : Option Info) (p : Pool) (z e : Bool) (lim : U256) (fuel : Nat) :
    ∀ s, swapLoop (setRec K o p) z e lim fuel s = swapLoop p z e lim fuel s := by
  induction fuel with
  | zero => intro s; rfl
  | succ n ih =>
    intro s
    unfold swapLoop
    split
    · rw [show swapStep (setRec K o p) z e lim s = swapStep p z e lim s from rfl]
      congr 1
      funext s'
      exact ih s'
    · rfl

theorem swapLog_rec (K : String) (o : Option Info) (p : Pool) (z e : Bool) (lim : U256) (fuel : Nat) :
    ∀ s, swapLog (setRec K o p) z e lim fuel s = swapLog p z e lim fuel s := by
  induction fuel with
  | zero => intro s; rfl
  | succ n ih =>
    intro s
    unfold swapLog
    rw [show swapStep (setRec K o p) z e lim s = swapStep p z e lim s from rfl]
    split
    · split
      · rw [ih]
      · rfl
    · rfl

theorem swap_rec {K : String} {p : Pool} {fuel : Nat} {z : Bool} {a lim r0 r1 : U256} {q : Pool} (o : Option Info)
    (hx : swap fuel p z a lim = .ok (r0, r1, q)) : swap fuel (setRec K o p) z a lim = .ok (r0, r1, setRec K o q) := by
  unfold swap at hx ⊢
  obtain ⟨_, h1, hx⟩ := bind_ok hx
  rw [h1, Except_bind_ok]
  dsimp only at hx ⊢
  obtain ⟨_, h2, hx⟩ := bind_ok hx
  rw [show limitOk (setRec K o p) z (effLimit z lim) = limitOk p z (effLimit z lim) from rfl, h2, Except_bind_ok, swapLoop_rec]
  obtain ⟨s, h3, hx⟩ := bind_ok hx
  rw [show initState (setRec K o p) z a = initState p z a from rfl, h3, Except_bind_ok]
  cases hx
  rfl

theorem modifyPosition_rec {K : String} {p q : Pool} {l u : Int} {d : U256} (o : Option Info)
    (hx : p.modifyPosition l u d = .ok q) : (setRec K o p).modifyPosition l u d = .ok (setRec K o q) := by
  unfold modifyPosition at hx ⊢
  obtain ⟨_, h1, hx⟩ := bind_ok hx
  obtain ⟨a, h2, hx⟩ := bind_ok hx
  obtain ⟨b, h3, hx⟩ := bind_ok hx
  obtain ⟨c, h4, hx⟩ := bind_ok hx
  obtain ⟨d', h5, hx⟩ := bind_ok hx
  rw [h1, Except_bind_ok]
  show ((p.ticks.updateTick l p.tick d p.growth0 p.growth1 false) >>= _) = _
  rw [h2, Except_bind_ok]
  show ((a.2.updateTick u p.tick d p.growth0 p.growth1 true) >>= _) = _
  rw [h3, Except_bind_ok, h4, Except_bind_ok, h5, Except_bind_ok]
  show (if p.tick ≥ l ∧ p.tick < u then _ else _) = _
  split at hx <;> rename_i hc
  · rw [if_pos hc]; cases hx; rfl
  · rw [if_neg hc]; cases hx; rfl

theorem updatePosition_rec {K : String} {p q : Pool} {pos : Info} {l u : Int} {d : U256} (o : Option Info) (hk : posKey l u ≠ K)
    (hx : p.updatePosition l u d = .ok (pos, q)) : (setRec K o p).updatePosition l u d = .ok (pos, setRec K o q) := by
  unfold updatePosition at hx ⊢
  obtain ⟨b, h1, hx⟩ := bind_ok hx
  obtain ⟨ins, h2, hx⟩ := bind_ok hx
  obtain ⟨pos', h3, hx⟩ := bind_ok hx
  dsimp only at hx
  obtain ⟨t1, h4, hx⟩ := bind_ok hx
  obtain ⟨t2, h5, hx⟩ := bind_ok hx
  rw [show (setRec K o p).updateBounds l u d = p.updateBounds l u d from rfl, h1, Except_bind_ok]
  show (b.2.2.getFeeGrowthInside l u p.tick p.growth0 p.growth1 >>= _) = _
  rw [h2, Except_bind_ok, show (setRec K o p).positions (posKey l u) = p.positions (posKey l u) from if_neg hk, h3, Except_bind_ok]
  dsimp only
  rw [h4, Except_bind_ok, h5, Except_bind_ok]
  cases hx
  rw [setPos_setRec hk]
  rfl

theorem modifyStrategy_rec {K : String} {p q : Pool} {pos : Info} {l u : Int} {d a0 a1 : U256} (o : Option Info) (hk : posKey l u ≠ K)
    (hx : p.modifyPositionStrategy l u d = .ok (pos, a0, a1, q)) :
    (setRec K o p).modifyPositionStrategy l u d = .ok (pos, a0, a1, setRec K o q) := by
  unfold modifyPositionStrategy at hx ⊢
  obtain ⟨_, h1, hx⟩ := bind_ok hx
  obtain ⟨⟨i, r⟩, h2, hx⟩ := bind_ok hx
  rw [h1, Except_bind_ok, updatePosition_rec o hk h2, Except_bind_ok]
  dsimp only at hx ⊢
  split at hx <;> rename_i hc
  · rw [if_pos hc]; cases hx; rfl
  · rw [if_neg hc]
    obtain ⟨am, h3, hx⟩ := bind_ok hx
    rw [show (setRec K o r).amountsFor l u d = r.amountsFor l u d from rfl, h3, Except_bind_ok]
    show (if l ≤ p.tick ∧ p.tick < u then _ else _) = _
    split at hx <;> rename_i hc2
    · rw [if_pos hc2]; cases hx; rfl
    · rw [if_neg hc2]; cases hx; rfl

theorem exec_rec {l u : Int} {p q : Pool} {fuel : Nat} {op : PoolOp} (hal : op.LeavesAlone l u) (o : Option Info)
    (hx : op.exec fuel p = .ok q) : op.exec fuel (setRec (posKey l u) o p) = .ok (setRec (posKey l u) o q) := by
  cases op with
  | mint a b d =>
    obtain ⟨_, h1, hx⟩ := bind_ok hx
    show (invariant (d.sgt zero) >>= fun _ => _) = _
    rw [h1, Except_bind_ok]
    exact modifyPosition_rec o hx
  | burn a b d => exact modifyPosition_rec o hx
  | mintStrategy a b d =>
    obtain ⟨⟨r0, r1, q'⟩, h3, h4⟩ := bind_ok hx
    cases h4
    unfold mintStrategy at h3
    obtain ⟨_, h1, h3⟩ := bind_ok h3
    obtain ⟨⟨i, x, y, r⟩, h2, h3⟩ := bind_ok h3
    cases h3
    show (Pool.mintStrategy _ _ _ _ >>= _) = _
    unfold mintStrategy
    rw [h1, Except_bind_ok, modifyStrategy_rec o hal h2, Except_bind_ok]
    rfl
  | burnStrategy a b d =>
    obtain ⟨⟨r0, r1, q'⟩, h3, h4⟩ := bind_ok hx
    cases h4
    unfold burnStrategy at h3
    obtain ⟨⟨i, x, y, r⟩, h2, h3⟩ := bind_ok h3
    dsimp only at h3
    cases h3
    show (Pool.burnStrategy _ _ _ _ >>= _) = _
    unfold burnStrategy
    rw [modifyStrategy_rec o hal h2, Except_bind_ok]
    dsimp only
    rw [setPos_setRec hal]
    rfl
  | collectStrategy a b =>
    obtain ⟨⟨r0, r1, q'⟩, h3, h4⟩ := bind_ok hx
    cases h4
    unfold collectStrategy at h3
    show (Pool.collectStrategy _ _ _ >>= _) = _
    unfold collectStrategy
    rw [show (setRec (posKey l u) o p).positions (posKey a b) = p.positions (posKey a b) from if_neg hal]
    rcases hp : p.positions (posKey a b) with _ | pos
    · rw [hp] at h3; cases h3
    · rw [hp] at h3
      cases h3
      dsimp only
      rw [setPos_setRec hal]
      rfl
  | flash a b =>
    obtain ⟨_, h1, hx⟩ := bind_ok hx
    obtain ⟨f0, h2, hx⟩ := bind_ok hx
    obtain ⟨f1, h3, hx⟩ := bind_ok hx
    obtain ⟨g0, h4, hx⟩ := bind_ok hx
    obtain ⟨g1, h5, hx⟩ := bind_ok hx
    cases hx
    show (invariant (decide (p.liquidity.sign = 1)) >>= fun _ => mulDivRoundingUp a (ofGoInt p.fee) (ofWord 1000000) >>= fun fee0 =>
      mulDivRoundingUp b (ofGoInt p.fee) (ofWord 1000000) >>= fun fee1 => mulDiv fee0 Cons.q128 p.liquidity >>= fun f0 =>
      mulDiv fee1 Cons.q128 p.liquidity >>= fun f1 => _) = _
    rw [h1, Except_bind_ok, h2, Except_bind_ok, h3, Except_bind_ok, h4, Except_bind_ok, h5, Except_bind_ok]
    rfl
  | exactInput a t lim =>
    obtain ⟨⟨r0, r1, q'⟩, h3, h4⟩ := bind_ok hx
    cases h4
    show (swap fuel (setRec (posKey l u) o p) (decide (t = p.token0)) a lim >>= _) = _
    rw [swap_rec o h3]; rfl
  | exactOutput a t lim =>
    obtain ⟨⟨r0, r1, q'⟩, h3, h4⟩ := bind_ok hx
    cases h4
    show (swap fuel (setRec (posKey l u) o p) (decide (t = p.token1)) a lim >>= _) = _
    rw [swap_rec o h3]; rfl

theorem log_rec (K : String) (o : Option Info) (fuel : Nat) (p q : Pool) (op : PoolOp) :
    op.log fuel (setRec K o p) (setRec K o q) = op.log fuel p q := by
  cases op <;> first | rfl | exact swapLog_rec _ _ _ _ _ _ _ _


/-! ### One harvest -/

theorem harvest_eq {l u : Int} {p p' : Pool} {j : Info} {c0 c1 : U256} (hj : p.positions (posKey l u) = some j)
    (hx : harvest l u p = .ok (c0, c1, p')) :
    ∃ ins : U256 × U256, p.ticks.getFeeGrowthInside l u p.tick p.growth0 p.growth1 = .ok ins ∧ l < u ∧
      c0 = j.owed0 + share j.liquidity (ins.1 - j.inside0) ∧ c1 = j.owed1 + share j.liquidity (ins.2 - j.inside1) ∧
      p' = setRec (posKey l u) (some ⟨j.liquidity, ins.1, ins.2, zero, zero⟩) p := by
  unfold harvest at hx
  obtain ⟨⟨b0, b1, p1⟩, h1, hx⟩ := bind_ok hx
  obtain ⟨pos, a0, a1, q, h2, rfl, rfl, rfl⟩ := burnStrategy_eq h1
  have hz : (neg zero).toNat = 0 := by decide
  obtain ⟨hlu, _, _, q', h3, h4, _⟩ := modifyStrategy_eq h2
  obtain ⟨rfl, rfl, rfl⟩ := h4 hz
  unfold updatePosition updateBounds at h3
  rw [if_pos ((isZero_iff _).2 hz), Except_bind_ok] at h3
  dsimp only at h3
  obtain ⟨ins, h5, h3⟩ := bind_ok h3
  obtain ⟨pos', h6, h3⟩ := bind_ok h3
  rw [Bool.and_false] at h3
  obtain ⟨t1, h7, h3⟩ := bind_ok h3
  obtain ⟨t2, h8, h3⟩ := bind_ok h3
  cases h7
  cases h8
  cases h3
  rw [hj] at h6
  obtain ⟨u1, u2, u3, u4, u5⟩ := update_ok h6
  change pos.liquidity = j.liquidity + _ at u3
  change pos.owed0 = j.owed0 + share j.liquidity _ at u4
  change pos.owed1 = j.owed1 + share j.liquidity _ at u5
  dsimp only at hx
  unfold collectStrategy at hx
  dsimp only at hx
  rw [setPos_same] at hx
  dsimp only at hx
  have hn : neg zero = (0 : U256) := by decide
  rw [hn] at u3 hx
  have ea : ∀ x : U256, add x 0 = x := fun x => add_zero x
  rw [ea, ea] at hx
  rw [add_zero] at u3
  cases hx
  refine ⟨ins, h5, hlu, u4, u5, ?_⟩
  unfold setRec
  congr 1
  funext k
  unfold setPos
  by_cases hk : k = posKey l u
  · rw [if_pos hk, if_pos hk, u1, u2, u3]
  · rw [if_neg hk, if_neg hk, if_neg hk, if_neg hk]

/-! ### Sums -/

theorem toNat_add_small {a b : U256} (h : a.toNat + b.toNat < 2 ^ 256) : (a + b).toNat = a.toNat + b.toNat := by
  have := toNat_add a b
  rw [add_def] at this
  rw [this, Nat.mod_eq_of_lt h]

theorem accrued_grown0 {l u : Int} {log : List Accrual} (h : grown0 l u log < 2 ^ 256) : (accrued0 l u log).toNat = grown0 l u log := by
  induction log with
  | nil => rfl
  | cons e log ih =>
    unfold grown0 at h ih ⊢
    unfold accrued0 at ih ⊢
    rw [List.map_cons, List.sum_cons] at h ⊢
    rw [List.foldr_cons]
    by_cases hc : l ≤ e.tick ∧ e.tick < u
    · rw [if_pos hc] at h ⊢
      rw [if_pos hc, add_def, toNat_add_small (by rw [ih (by omega)]; exact h), ih (by omega)]
    · rw [if_neg hc] at h ⊢
      rw [if_neg hc, ih (by omega), Nat.zero_add]

theorem accrued_grown1 {l u : Int} {log : List Accrual} (h : grown1 l u log < 2 ^ 256) : (accrued1 l u log).toNat = grown1 l u log := by
  induction log with
  | nil => rfl
  | cons e log ih =>
    unfold grown1 at h ih ⊢
    unfold accrued1 at ih ⊢
    rw [List.map_cons, List.sum_cons] at h ⊢
    rw [List.foldr_cons]
    by_cases hc : l ≤ e.tick ∧ e.tick < u
    · rw [if_pos hc] at h ⊢
      rw [if_pos hc, add_def, toNat_add_small (by rw [ih (by omega)]; exact h), ih (by omega)]
    · rw [if_neg hc] at h ⊢
      rw [if_neg hc, ih (by omega), Nat.zero_add]

theorem grown0_append (l u : Int) (a b : List Accrual) : grown0 l u (a ++ b) = grown0 l u a + grown0 l u b := by
  unfold grown0; rw [List.map_append, List.sum_append]

theorem grown1_append (l u : Int) (a b : List Accrual) : grown1 l u (a ++ b) = grown1 l u a + grown1 l u b := by
  unfold grown1; rw [List.map_append, List.sum_append]

theorem accrued0_append {l u : Int} (hlu : l ≤ u) (a b : List Accrual) : accrued0 l u (a ++ b) = accrued0 l u a + accrued0 l u b := by
  rw [accrued0_eq hlu, accrued0_eq hlu, accrued0_eq hlu, sumBelow_append, sumBelow_append]; abel

theorem accrued1_append {l u : Int} (hlu : l ≤ u) (a b : List Accrual) : accrued1 l u (a ++ b) = accrued1 l u a + accrued1 l u b := by
  rw [accrued1_eq hlu, accrued1_eq hlu, accrued1_eq hlu, sumBelow_append, sumBelow_append]; abel

/-- One credit: `B` was owed, `g1` had grown before, `g2` since. -/
theorem credit_arith {r o L B g1 g2 n c : Nat} (h1 : (r + o) * 2 ^ 128 ≤ B * 2 ^ 128 + L * g1)
    (h2 : B * 2 ^ 128 + L * g1 + n ≤ (r + o + n) * 2 ^ 128) (hc : c = o + L * g2 / 2 ^ 128) :
    (r + c) * 2 ^ 128 ≤ B * 2 ^ 128 + L * (g1 + g2) ∧ B * 2 ^ 128 + L * (g1 + g2) + (n + 1) ≤ (r + c + (n + 1)) * 2 ^ 128 := by
  rw [Nat.mul_add]
  generalize L * g1 = x at *
  generalize L * g2 = y at *
  omega

theorem credit_fits {r c B X : Nat} (h : (r + c) * 2 ^ 128 ≤ B * 2 ^ 128 + X) : c ≤ B + X / 2 ^ 128 := by omega

/-- A credit, as the pool computes it. -/
theorem credited_nat {o L g i j : U256} {r B g1 g2 n : Nat} (hg : g2 < 2 ^ 256) (hd : B + L.toNat * (g1 + g2) / 2 ^ 128 < 2 ^ 256)
    (h1 : (r + o.toNat) * 2 ^ 128 ≤ B * 2 ^ 128 + L.toNat * g1) (h2 : B * 2 ^ 128 + L.toNat * g1 + n ≤ (r + o.toNat + n) * 2 ^ 128)
    (he : (i - j).toNat = g2) (hG : g = i - j) :
    (r + (o + share L g).toNat) * 2 ^ 128 ≤ B * 2 ^ 128 + L.toNat * (g1 + g2) ∧
      B * 2 ^ 128 + L.toNat * (g1 + g2) + (n + 1) ≤ (r + (o + share L g).toNat + (n + 1)) * 2 ^ 128 := by
  obtain ⟨k1, k2⟩ := credit_arith (c := o.toNat + L.toNat * g2 / 2 ^ 128) h1 h2 rfl
  have k3 := credit_fits k1
  have e : (share L g).toNat = L.toNat * g2 / 2 ^ 128 := by
    unfold share
    rw [hG, he, toNat_ofNat, Nat.mod_eq_of_lt (by omega)]
  have e2 : (o + share L g).toNat = o.toNat + L.toNat * g2 / 2 ^ 128 := by
    rw [toNat_add_small (by rw [e]; omega), e]
  rw [e2]
  exact ⟨k1, k2⟩

/-! ### The others alone -/

/-- The operations of the others, with the accruals and the ledger. -/
def play : List (Nat × PoolOp) → List Accrual × List Entry × Pool → Go (List Accrual × List Entry × Pool)
  | [], s => .ok s
  | x :: os, s => x.2.exec x.1 s.2.2 >>= fun p' => play os (s.1 ++ x.2.log x.1 s.2.2 p', x.2.ledger s.2.1, p')

theorem play_snoc (x : Nat × PoolOp) : ∀ (os : List (Nat × PoolOp)) {s t : List Accrual × List Entry × Pool} {p' : Pool},
    play os s = .ok t → x.2.exec x.1 t.2.2 = .ok p' →
    play (os ++ [x]) s = .ok (t.1 ++ x.2.log x.1 t.2.2 p', x.2.ledger t.2.1, p') := by
  intro os
  induction os with
  | nil =>
    intro s t p' h1 h2
    cases h1
    show (x.2.exec x.1 s.2.2 >>= fun p' => play [] _) = _
    rw [h2]; rfl
  | cons y os ih =>
    intro s t p' h1 h2
    obtain ⟨q, h3, h4⟩ := bind_ok (show (y.2.exec y.1 s.2.2 >>= fun p' => play os _) = .ok t from h1)
    show (y.2.exec y.1 s.2.2 >>= fun p' => play (os ++ [x]) _) = _
    rw [h3, Except_bind_ok]
    exact ih h4 h2

theorem others_append (a b : List HarvestEvent) : others (a ++ b) = others a ++ others b := by
  induction a with
  | nil => rfl
  | cons e a ih => cases e <;> simp [others, ih]

theorem harvests_append (a b : List HarvestEvent) : harvests (a ++ b) = harvests a + harvests b := by
  induction a with
  | nil => simp [harvests]
  | cons e a ih => cases e <;> simp [harvests, ih]; omega

/-! ### Histories -/

/-- The state after some events: the pool is the one that the others alone lead to, but for the record, which was last
brought up to date after `log1`. -/
structure Standing (l u : Int) (h : List Entry) (p : Pool) (i : Info) (es : List HarvestEvent) (log log1 log2 : List Accrual) (h' : List Entry)
    (p' plain : Pool) (j : Info) : Prop where
  play : play (others es) ([], h, p) = .ok (log, h', plain)
  ev : Evolves (PoolOp.LeavesAlone l u) (fun _ => True) h p log h' plain
  pool : p' = setRec (posKey l u) (some j) plain
  log : log = log1 ++ log2
  liquidity : j.liquidity = i.liquidity
  inside0 : j.inside0 = i.inside0 + accrued0 l u log1
  inside1 : j.inside1 = i.inside1 + accrued1 l u log1

/-- The books of one token. -/
def Books (B L r o n g : Nat) : Prop :=
  (r + o) * 2 ^ 128 ≤ B * 2 ^ 128 + L * g ∧ B * 2 ^ 128 + L * g + n ≤ (r + o + n) * 2 ^ 128

theorem holds_standing {l u : Int} (hlu : l < u) {h h' : List Entry} {p p' : Pool} {i : Info} (hi : Inv h p) (ho : 0 < outstanding h l u)
    (hf : Fresh l u p i) {es : List HarvestEvent} {log : List Accrual} {r0 r1 : Nat} (hh : Holds l u h p es log h' p' r0 r1) :
    ∃ log1 log2 plain j, Standing l u h p i es log log1 log2 h' p' plain j ∧
      (∀ es', es = es' ++ [.harvest] → log2 = [] ∧ j.owed0 = zero ∧ j.owed1 = zero) ∧
      (grown0 l u log < 2 ^ 256 → due i.owed0 i.liquidity (grown0 l u log) < 2 ^ 256 →
        Books i.owed0.toNat i.liquidity.toNat r0 j.owed0.toNat (harvests es) (grown0 l u log1)) ∧
      (grown1 l u log < 2 ^ 256 → due i.owed1 i.liquidity (grown1 l u log) < 2 ^ 256 →
        Books i.owed1.toNat i.liquidity.toNat r1 j.owed1.toNat (harvests es) (grown1 l u log1)) := by
  induction hh with
  | start =>
    refine ⟨[], [], p, i, ⟨rfl, .refl trivial, (setRec_self hf.1).symm, rfl, rfl, ?_, ?_⟩, ?_, ?_, ?_⟩
    · exact (add_zero _).symm
    · exact (add_zero _).symm
    · intro es' he
      exact absurd (congrArg List.length he) (by simp)
    · intro _ _
      unfold Books grown0 harvests
      simp
    · intro _ _
      unfold Books grown1 harvests
      simp
  | @other es log h1 p1 p2 r0 r1 fuel op hr hal ha hx ih =>
    obtain ⟨log1, log2, plain, j, S, _, b0, b1⟩ := ih
    have hrec : p1.positions (posKey l u) = some j := by rw [S.pool]; exact setRec_at _ _ _
    have hpl : plain = setRec (posKey l u) (plain.positions (posKey l u)) p1 := by
      rw [S.pool, setRec_setRec, setRec_self rfl]
    have hx2 := exec_rec hal (plain.positions (posKey l u)) hx
    rw [← hpl] at hx2
    have hlog := log_rec (posKey l u) (plain.positions (posKey l u)) fuel p1 p2 op
    rw [← hpl] at hlog
    have hadm : op.Admissible plain h1 := by
      have := ha
      rw [S.pool] at this
      cases op <;> exact this
    refine ⟨log1, log2 ++ op.log fuel p1 p2, setRec (posKey l u) (plain.positions (posKey l u)) p2, j,
      ⟨?_, ?_, ?_, ?_, S.liquidity, S.inside0, S.inside1⟩, ?_, ?_, ?_⟩
    · rw [others_append]
      have := play_snoc (fuel, op) (others es) S.play hx2
      dsimp only at this
      rw [hlog] at this
      exact this
    · rw [← hlog]
      exact .step fuel op S.ev hal hadm hx2 trivial
    · rw [setRec_setRec, setRec_self]
      rw [exec_alone hal hx, hrec]
    · rw [S.log, List.append_assoc]
    · intro es' he
      have := List.append_inj_right' he rfl
      cases this
    · rw [harvests_append, grown0_append]
      intro g1 g2
      refine b0 (by omega) (lt_of_le_of_lt ?_ g2)
      unfold due
      have := Nat.div_le_div_right (c := 2 ^ 128) (Nat.mul_le_mul_left i.liquidity.toNat (Nat.le_add_right (grown0 l u log) (grown0 l u (op.log fuel p1 p2))))
      omega
    · rw [harvests_append, grown1_append]
      intro g1 g2
      refine b1 (by omega) (lt_of_le_of_lt ?_ g2)
      unfold due
      have := Nat.div_le_div_right (c := 2 ^ 128) (Nat.mul_le_mul_left i.liquidity.toNat (Nat.le_add_right (grown1 l u log) (grown1 l u (op.log fuel p1 p2))))
      omega
  | @harvest es log h1 p1 p2 r0 r1 c0 c1 hr hx ih =>
    obtain ⟨log1, log2, plain, j, S, _, b0, b1⟩ := ih
    have hrec : p1.positions (posKey l u) = some j := by rw [S.pool]; exact setRec_at _ _ _
    obtain ⟨ins, k1, _, k2, k3, k4⟩ := harvest_eq hrec hx
    rw [S.pool] at k1
    obtain ⟨_, _, _, _, ev⟩ := evolves_alone hi ho S.ev
    obtain ⟨e1, e2⟩ := evolves_inside (le_of_lt hlu) hi ev hf.2 k1
    dsimp only at e1 e2
    have d1 : ins.1 - j.inside0 = accrued0 l u log2 := by
      rw [e1, S.inside0, S.log, accrued0_append (le_of_lt hlu)]; abel
    have d2 : ins.2 - j.inside1 = accrued1 l u log2 := by
      rw [e2, S.inside1, S.log, accrued1_append (le_of_lt hlu)]; abel
    refine ⟨log, [], plain, ⟨j.liquidity, ins.1, ins.2, zero, zero⟩, ⟨?_, S.ev, ?_, (List.append_nil _).symm, S.liquidity, e1, e2⟩, ?_, ?_, ?_⟩
    · rw [others_append]
      show Pool.play (others es ++ []) _ = _
      rw [List.append_nil]; exact S.play
    · rw [k4, S.pool, setRec_setRec]
    · intro _ _
      exact ⟨rfl, rfl, rfl⟩
    · intro g1 g2
      obtain ⟨m1, m2⟩ := b0 g1 g2
      rw [S.log, grown0_append] at g1 g2 ⊢
      have hg : grown0 l u log2 < 2 ^ 256 := by omega
      rw [harvests_append]
      show (r0 + c0.toNat + 0) * _ ≤ _ ∧ _ + (harvests es + 1) ≤ (r0 + c0.toNat + 0 + (harvests es + 1)) * _
      rw [Nat.add_zero, k2, S.liquidity]
      exact credited_nat hg g2 m1 m2 (by rw [d1]; exact accrued_grown0 hg) rfl
    · intro g1 g2
      obtain ⟨m1, m2⟩ := b1 g1 g2
      rw [S.log, grown1_append] at g1 g2 ⊢
      have hg : grown1 l u log2 < 2 ^ 256 := by omega
      rw [harvests_append]
      show (r1 + c1.toNat + 0) * _ ≤ _ ∧ _ + (harvests es + 1) ≤ (r1 + c1.toNat + 0 + (harvests es + 1)) * _
      rw [Nat.add_zero, k3, S.liquidity]
      exact credited_nat hg g2 m1 m2 (by rw [d2]; exact accrued_grown1 hg) rfl

end Pool
end Uni
