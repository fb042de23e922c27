import Verif.Proofs.Order
import Verif.Proofs.Merge
import Verif.Proofs.Demo
/-! # Property C85: the order of liquidity changes -/
namespace Uni
namespace Props
open U256 Spec TickData _root_.Uni.Pool TickMath

/-! ### Ledgers -/

theorem ledger_mint {c : Change} (h : List Entry) (ha : c.add = true) : c.op.ledger h = ⟨c.lower, c.upper, c.amount.toNat⟩ :: h := by
  obtain ⟨ad, rec, l, u, a⟩ := c
  cases ha
  cases rec <;> rfl

theorem ledger_burn {c : Change} (h : List Entry) (ha : c.add = false) (hz : c.amount.toNat ≠ 0) :
    c.op.ledger h = ⟨c.lower, c.upper, -c.amount.toNat⟩ :: h := by
  obtain ⟨ad, rec, l, u, a⟩ := c
  cases ha
  cases rec <;> exact if_neg hz

theorem admissible_mint {c : Change} {h : List Entry} (p : Pool) (ha : c.add = true) (ht : total h + c.amount.toNat < 2 ^ 128) :
    c.op.Admissible p h := by
  obtain ⟨ad, rec, l, u, a⟩ := c
  cases ha
  cases rec <;> exact ht

theorem admissible_burn {c : Change} {h : List Entry} (p : Pool) (ha : c.add = false) (hz : c.amount.toNat ≠ 0)
    (ho : (c.amount.toNat : Int) ≤ outstanding h c.lower c.upper) : c.op.Admissible p h := by
  obtain ⟨ad, rec, l, u, a⟩ := c
  cases ha
  dsimp only at hz ho
  cases rec
  · exact ⟨ho, by show 0 < outstanding h l u; omega⟩
  · exact ho

theorem total_cons (e : Entry) (h : List Entry) : total (e :: h) = e.delta + total h := by
  unfold total
  rw [wsum_cons]
  simp

/-- A boundary that keeps liquidity is not emptied by the change. -/
theorem not_emptied {h : List Entry} {p : Pool} (hi : Inv h p) {c : Change} (hlu : c.lower < c.upper) (ha : c.op.Admissible p h)
    (hz : c.amount.toNat ≠ 0) {i : Int} (hb : i = c.lower ∨ i = c.upper) (hg : grossAt (c.op.ledger h) i ≠ 0) :
    nowEmpty (lookup p.ticks.ticks i) (delta c) = false := by
  cases had : c.add with
  | true =>
    have ht : total h + c.amount.toNat < 2 ^ 128 := by
      obtain ⟨ad, rec, l, u, a⟩ := c
      cases had
      cases rec <;> exact ha
    unfold delta
    rw [if_pos had]
    exact nowEmpty_mint hi (by omega) (add_lt hi ht) i
  | false =>
    rw [ledger_burn h had hz, grossAt_cons _ _ _ hlu, if_pos hb] at hg
    unfold delta
    rw [had, if_neg Bool.false_ne_true]
    rcases hx : lookup p.ticks.ticks i with _ | x
    · rfl
    · rw [Bool.eq_false_iff]
      intro hc
      have hc' : (add x.gross (neg c.amount)).isZero = true := hc
      have h0 := (isZero_iff _).1 hc'
      have e : add x.gross (neg c.amount) = zero := ext_toNat (by rw [h0]; decide)
      have e2 : x.gross = c.amount := by
        simp only [add_def, neg_def, zero_def] at e
        exact add_neg_eq_zero.1 e
      have h1 := (hi.ticks.some i x hx).1
      rw [e2] at h1
      dsimp only at hg
      omega

/-! ### Two changes -/

/-- C85: two changes of liquidity (each a mint or a burn, with or without a record) may be exchanged: either both orders
return, with the same pool, or neither does.  Conditions: both orders are admissible, no boundary that both changes use
is left without liquidity by one of them, and they do not use one record for two ranges. -/
theorem C85_exchange {h : List Entry} {p : Pool} (hr : Reachable h p) (fuel : Nat) (a b : Change)
    (za : a.amount.toNat ≠ 0) (zb : b.amount.toNat ≠ 0) (ha : a.op.Admissible p h) (hb : b.op.Admissible p h)
    (hab : b.op.Admissible p (a.op.ledger h)) (hba : a.op.Admissible p (b.op.ledger h))
    (hg : ∀ i, i = a.lower ∨ i = a.upper → i = b.lower ∨ i = b.upper →
      grossAt (a.op.ledger h) i ≠ 0 ∧ grossAt (b.op.ledger h) i ≠ 0)
    (hk : Apart a b) (p' : Pool) : carryOut fuel [a, b] p = .ok p' ↔ carryOut fuel [b, a] p = .ok p' := by
  have hi := reachable_inv hr
  have two : ∀ (c d : Change) (q : Pool), carryOut fuel [c, d] p = .ok q ↔ ∃ p1, c.op.exec fuel p = .ok p1 ∧ d.op.exec fuel p1 = .ok q := by
    intro c d q
    show (c.op.exec fuel p >>= fun p1 => d.op.exec fuel p1 >>= fun p2 => .ok p2) = .ok q ↔ _
    constructor
    · intro hx
      obtain ⟨p1, h1, hx⟩ := bind_ok hx
      obtain ⟨p2, h2, hx⟩ := bind_ok hx
      cases hx
      exact ⟨p1, h1, h2⟩
    · rintro ⟨p1, h1, h2⟩
      rw [h1, Except_bind_ok, h2, Except_bind_ok]
  rw [two, two]
  have key : ∀ (c d : Change), c.amount.toNat ≠ 0 → d.amount.toNat ≠ 0 → c.op.Admissible p h → d.op.Admissible p h →
      d.op.Admissible p (c.op.ledger h) → c.op.Admissible p (d.op.ledger h) →
      (∀ i, i = c.lower ∨ i = c.upper → i = d.lower ∨ i = d.upper → grossAt (c.op.ledger h) i ≠ 0 ∧ grossAt (d.op.ledger h) i ≠ 0) →
      Apart c d → (∃ p1, c.op.exec fuel p = .ok p1 ∧ d.op.exec fuel p1 = .ok p') →
      ∃ p1, d.op.exec fuel p = .ok p1 ∧ c.op.exec fuel p1 = .ok p' := by
    rintro c d zc zd hc hd hcd hdc hg hk ⟨p1, h1, h2⟩
    have r1 := Strat.reachable_step hr fuel c.op hc h1
    have adm : d.op.Admissible p1 (c.op.ledger h) := by
      obtain ⟨ad, rec, l, u, am⟩ := d
      cases ad <;> cases rec <;> exact hcd
    obtain ⟨_, _, _, _, E⟩ := effect_of_exec hi hc zc h1
    obtain ⟨_, _, _, _, E'⟩ := effect_of_exec (reachable_inv r1) adm zd h2
    refine change_comm hr hc hd hcd hdc zc zd ?_ hk h1 h2
    intro i h3 h4
    exact ⟨not_emptied hi E.lu hc zc h3 (hg i h3 h4).1, not_emptied hi E'.lu hd zd h4 (hg i h3 h4).2⟩
  refine ⟨key a b za zb ha hb hab hba hg hk, key b a zb za hb ha hba hab (fun i h1 h2 => (hg i h2 h1).symm) ?_⟩
  intro x y z
  obtain ⟨u, v⟩ := hk y x z.symm
  exact ⟨u.symm, v.symm⟩

/-! ### Lists of changes -/

theorem amounts_nonneg (cs : List Change) : 0 ≤ amounts cs := by
  unfold amounts
  exact List.sum_nonneg (fun x hx => by obtain ⟨c, _, rfl⟩ := List.mem_map.1 hx; omega)

theorem amountsOn_nonneg (l u : Int) (cs : List Change) : 0 ≤ amountsOn l u cs := by
  unfold amountsOn
  exact List.sum_nonneg (fun x hx => by obtain ⟨c, _, rfl⟩ := List.mem_map.1 hx; split <;> omega)

theorem amounts_cons (c : Change) (cs : List Change) : amounts (c :: cs) = c.amount.toNat + amounts cs := by
  unfold amounts; rw [List.map_cons, List.sum_cons]

theorem amountsOn_cons (l u : Int) (c : Change) (cs : List Change) :
    amountsOn l u (c :: cs) = (if c.lower = l ∧ c.upper = u then (c.amount.toNat : Int) else 0) + amountsOn l u cs := by
  unfold amountsOn; rw [List.map_cons, List.sum_cons]

theorem carryOut_cons (fuel : Nat) (c : Change) (cs : List Change) (p : Pool) :
    carryOut fuel (c :: cs) p = c.op.exec fuel p >>= fun p' => carryOut fuel cs p' := rfl

theorem mint_positive {c : Change} {p p' : Pool} {fuel : Nat} (ha : c.add = true) (hx : c.op.exec fuel p = .ok p') : c.amount.toNat ≠ 0 := by
  obtain ⟨ad, rec, l, u, a⟩ := c
  cases ha
  have h0 : invariant (a.sgt zero) = .ok () := by
    cases rec
    · obtain ⟨_, h, _⟩ := bind_ok (show (invariant (a.sgt zero) >>= fun _ => p.modifyPosition l u a) = .ok p' from hx)
      exact h
    · obtain ⟨r, h, _⟩ := bind_ok (show (p.mintStrategy l u a >>= fun r => (return r.2.2 : Go Pool)) = .ok p' from hx)
      unfold mintStrategy at h
      obtain ⟨_, h, _⟩ := bind_ok h
      exact h
  obtain ⟨h1, h2⟩ := sgt_zero_pos h0
  dsimp only
  omega

theorem mints_perm {fuel : Nat} {cs cs' : List Change} (hp : cs.Perm cs') : ∀ {h : List Entry} {p p' : Pool}, Reachable h p →
    (∀ c ∈ cs, c.add = true) → (∀ c ∈ cs, ∀ d ∈ cs, Apart c d) → total h + amounts cs < 2 ^ 128 →
    carryOut fuel cs p = .ok p' → carryOut fuel cs' p = .ok p' := by
  induction hp with
  | nil => intro h p p' _ _ _ _ hx; exact hx
  | @cons c l l' hl ih =>
    intro h p p' hr ha hk ht hx
    rw [carryOut_cons] at hx ⊢
    obtain ⟨p1, h1, hx⟩ := bind_ok hx
    rw [h1, Except_bind_ok]
    rw [amounts_cons] at ht
    have hn := amounts_nonneg l
    have hc := ha c List.mem_cons_self
    have r1 := Strat.reachable_step hr fuel c.op (admissible_mint p hc (by omega)) h1
    refine ih r1 (fun d hd => ha d (List.mem_cons_of_mem _ hd))
      (fun d hd e he => hk d (List.mem_cons_of_mem _ hd) e (List.mem_cons_of_mem _ he)) ?_ hx
    rw [ledger_mint h hc, total_cons]
    dsimp only
    omega
  | swap a b l =>
    intro h p p' hr ha hk ht hx
    rw [carryOut_cons] at hx ⊢
    obtain ⟨p1, h1, hx⟩ := bind_ok hx
    rw [carryOut_cons] at hx
    obtain ⟨p2, h2, hx⟩ := bind_ok hx
    rw [amounts_cons, amounts_cons] at ht
    have hn := amounts_nonneg l
    have hi := reachable_inv hr
    have hb : b ∈ b :: a :: l := List.mem_cons_self
    have ha' : a ∈ b :: a :: l := List.mem_cons_of_mem _ List.mem_cons_self
    have zb := mint_positive (ha b hb) h1
    have za := mint_positive (ha a ha') h2
    have db : delta b = b.amount := if_pos (ha b hb)
    have da : delta a = a.amount := if_pos (ha a ha')
    obtain ⟨q1, h3, h4⟩ := change_comm hr (admissible_mint p (ha b hb) (by omega)) (admissible_mint p (ha a ha') (by omega))
      (admissible_mint p (ha a ha') (by rw [ledger_mint h (ha b hb), total_cons]; dsimp only; omega))
      (admissible_mint p (ha b hb) (by rw [ledger_mint h (ha a ha'), total_cons]; dsimp only; omega)) zb za
      (fun i _ _ => by
        rw [db, da]
        exact ⟨nowEmpty_mint hi (by omega) (add_lt hi (by omega)) i, nowEmpty_mint hi (by omega) (add_lt hi (by omega)) i⟩)
      (hk b hb a ha') h1 h2
    rw [h3, Except_bind_ok, carryOut_cons, h4, Except_bind_ok]
    exact hx
  | @trans l1 l2 l3 h12 h23 ih1 ih2 =>
    intro h p p' hr ha hk ht hx
    have e : amounts l2 = amounts l1 := (h12.map _).sum_eq.symm
    exact ih2 hr (fun c hc => ha c (h12.mem_iff.2 hc)) (fun c hc d hd => hk c (h12.mem_iff.2 hc) d (h12.mem_iff.2 hd))
      (by rw [e]; exact ht) (ih1 hr ha hk ht hx)

/-- C85: the order in which liquidity is added does not matter: carried out in any two orders, the same mints (with or
without records) either all return and give the same pool, or fail in both orders. -/
theorem C85_mints {h : List Entry} {p : Pool} (hr : Reachable h p) (fuel : Nat) {cs cs' : List Change} (hp : cs.Perm cs')
    (ha : ∀ c ∈ cs, c.add = true) (hk : ∀ c ∈ cs, ∀ d ∈ cs, Apart c d) (ht : total h + amounts cs < 2 ^ 128) (p' : Pool) :
    carryOut fuel cs p = .ok p' ↔ carryOut fuel cs' p = .ok p' := by
  refine ⟨mints_perm hp hr ha hk ht, mints_perm hp.symm hr (fun c hc => ha c (hp.mem_iff.2 hc))
    (fun c hc d hd => hk c (hp.mem_iff.2 hc) d (hp.mem_iff.2 hd)) ?_⟩
  rw [show amounts cs' = amounts cs from (hp.map _).sum_eq.symm]
  exact ht

theorem burns_perm {fuel : Nat} {cs cs' : List Change} (hp : cs.Perm cs') : ∀ {h : List Entry} {p p' : Pool}, Reachable h p →
    (∀ c ∈ cs, c.add = false) → (∀ c ∈ cs, c.amount.toNat ≠ 0) → (∀ c ∈ cs, ∀ d ∈ cs, Apart c d) →
    (∀ l u, amountsOn l u cs ≤ outstanding h l u) →
    carryOut fuel cs p = .ok p' → carryOut fuel cs' p = .ok p' := by
  induction hp with
  | nil => intro h p p' _ _ _ _ _ hx; exact hx
  | @cons c l l' hl ih =>
    intro h p p' hr ha hz hk ht hx
    rw [carryOut_cons] at hx ⊢
    obtain ⟨p1, h1, hx⟩ := bind_ok hx
    rw [h1, Except_bind_ok]
    have hc := ha c List.mem_cons_self
    have zc := hz c List.mem_cons_self
    have ho := ht c.lower c.upper
    rw [amountsOn_cons, if_pos ⟨rfl, rfl⟩] at ho
    have hn := amountsOn_nonneg c.lower c.upper l
    have r1 := Strat.reachable_step hr fuel c.op (admissible_burn p hc zc (by omega)) h1
    refine ih r1 (fun d hd => ha d (List.mem_cons_of_mem _ hd)) (fun d hd => hz d (List.mem_cons_of_mem _ hd))
      (fun d hd e he => hk d (List.mem_cons_of_mem _ hd) e (List.mem_cons_of_mem _ he)) ?_ hx
    intro x y
    have := ht x y
    rw [amountsOn_cons] at this
    rw [ledger_burn h hc zc, outstanding_cons]
    dsimp only
    split at this <;> rename_i hxy
    · rw [if_pos hxy]; omega
    · rw [if_neg hxy]; omega
  | swap a b l =>
    intro h p p' hr ha hz hk ht hx
    rw [carryOut_cons] at hx ⊢
    obtain ⟨p1, h1, hx⟩ := bind_ok hx
    rw [carryOut_cons] at hx
    obtain ⟨p2, h2, hx⟩ := bind_ok hx
    have hi := reachable_inv hr
    have hb : b ∈ b :: a :: l := List.mem_cons_self
    have ha' : a ∈ b :: a :: l := List.mem_cons_of_mem _ List.mem_cons_self
    have zb := hz b hb
    have za := hz a ha'
    have hnb := amountsOn_nonneg b.lower b.upper l
    have hna := amountsOn_nonneg a.lower a.upper l
    have ob := ht b.lower b.upper
    have oa := ht a.lower a.upper
    rw [amountsOn_cons, amountsOn_cons, if_pos ⟨rfl, rfl⟩] at ob
    rw [amountsOn_cons, amountsOn_cons] at oa
    rw [if_pos (show a.lower = a.lower ∧ a.upper = a.upper from ⟨rfl, rfl⟩)] at oa
    have o1 : (b.amount.toNat : Int) ≤ outstanding h b.lower b.upper := by split at ob <;> omega
    have o2 : (a.amount.toNat : Int) ≤ outstanding h a.lower a.upper := by split at oa <;> omega
    have o3 : (a.amount.toNat : Int) ≤ outstanding (b.op.ledger h) a.lower a.upper := by
      rw [ledger_burn h (ha b hb) zb, outstanding_cons]
      dsimp only
      split at oa <;> rename_i hxy
      · rw [if_pos hxy]; omega
      · rw [if_neg hxy]; omega
    have o4 : (b.amount.toNat : Int) ≤ outstanding (a.op.ledger h) b.lower b.upper := by
      rw [ledger_burn h (ha a ha') za, outstanding_cons]
      dsimp only
      split at ob <;> rename_i hxy
      · rw [if_pos hxy]; omega
      · rw [if_neg hxy]; omega
    have ab := admissible_burn p (ha b hb) zb o1
    have aa := admissible_burn p (ha a ha') za o2
    have r1 := Strat.reachable_step hr fuel b.op ab h1
    have aa1 := admissible_burn p1 (ha a ha') za o3
    obtain ⟨_, _, _, _, E⟩ := effect_of_exec hi ab zb h1
    obtain ⟨_, _, _, _, E'⟩ := effect_of_exec (reachable_inv r1) aa1 za h2
    have cov1 := (reachable_inv r1).cov
    have g1 := cov1.gross_pos (l := a.lower) (u := a.upper) (by omega)
    -- the ledger after the other burn is covered as well
    have cov2 : Covered (a.op.ledger h) := by
      rw [ledger_burn h (ha a ha') za]
      refine ⟨hi.cov, E'.lu, ?_, ?_⟩
      · rw [outstanding_cons]; dsimp only; rw [if_pos ⟨rfl, rfl⟩]; omega
      · rw [total_cons]; dsimp only; have := hi.cov.total_lt; omega
    have g2 := cov2.gross_pos (l := b.lower) (u := b.upper) (by omega)
    obtain ⟨q1, h3, h4⟩ := change_comm hr ab aa (admissible_burn p (ha a ha') za o3) (admissible_burn p (ha b hb) zb o4) zb za
      (fun i i1 i2 => ⟨not_emptied hi E.lu ab zb i1 (by rcases i2 with rfl | rfl <;> omega),
        not_emptied hi E'.lu aa za i2 (by rcases i1 with rfl | rfl <;> omega)⟩)
      (hk b hb a ha') h1 h2
    rw [h3, Except_bind_ok, carryOut_cons, h4, Except_bind_ok]
    exact hx
  | @trans l1 l2 l3 h12 h23 ih1 ih2 =>
    intro h p p' hr ha hz hk ht hx
    have e : ∀ l u, amountsOn l u l2 = amountsOn l u l1 := fun l u => (h12.map _).sum_eq.symm
    exact ih2 hr (fun c hc => ha c (h12.mem_iff.2 hc)) (fun c hc => hz c (h12.mem_iff.2 hc))
      (fun c hc d hd => hk c (h12.mem_iff.2 hc) d (h12.mem_iff.2 hd))
      (fun l u => by rw [e]; exact ht l u) (ih1 hr ha hz hk ht hx)

/-- C85: nor does the order in which liquidity is removed, if together the burns take no more than each range holds. -/
theorem C85_burns {h : List Entry} {p : Pool} (hr : Reachable h p) (fuel : Nat) {cs cs' : List Change} (hp : cs.Perm cs')
    (ha : ∀ c ∈ cs, c.add = false) (hz : ∀ c ∈ cs, c.amount.toNat ≠ 0) (hk : ∀ c ∈ cs, ∀ d ∈ cs, Apart c d)
    (ht : ∀ l u, amountsOn l u cs ≤ outstanding h l u) (p' : Pool) :
    carryOut fuel cs p = .ok p' ↔ carryOut fuel cs' p = .ok p' := by
  refine ⟨burns_perm hp hr ha hz hk ht, burns_perm hp.symm hr (fun c hc => ha c (hp.mem_iff.2 hc)) (fun c hc => hz c (hp.mem_iff.2 hc))
    (fun c hc d hd => hk c (hp.mem_iff.2 hc) d (hp.mem_iff.2 hd)) ?_⟩
  intro l u
  rw [show amountsOn l u cs' = amountsOn l u cs from (hp.map _).sum_eq.symm]
  exact ht l u

/-! ### One change instead of two -/

theorem add_small {h : List Entry} {p : Pool} (hi : Inv h p) {c : Change} {b : U256} (hf : PartsFit h c b) :
    (add c.amount b).toNat = c.amount.toNat + b.toNat ∧ c.amount.toNat + b.toNat < 2 ^ 128 := by
  have h0 : 0 ≤ total h := wsum_nonneg hi.cov.nonneg (fun _ _ _ => by norm_num)
  have h1 := hi.cov.outstanding_lt c.lower c.upper
  have hlt : c.amount.toNat + b.toNat < 2 ^ 128 := by
    unfold PartsFit at hf
    split at hf <;> omega
  refine ⟨?_, hlt⟩
  rw [toNat_add, Nat.mod_eq_of_lt (by omega)]

theorem merge_core {h : List Entry} {p p1 p2 q : Pool} (hr : Reachable h p) {fuel : Nat} {c : Change} {b : U256}
    (za : c.amount.toNat ≠ 0) (zb : b.toNat ≠ 0) (hf : PartsFit h c b)
    (h1 : c.op.exec fuel p = .ok p1) (h2 : ({ c with amount := b } : Change).op.exec fuel p1 = .ok p2)
    (h3 : ({ c with amount := add c.amount b } : Change).op.exec fuel p = .ok q) :
    ∃ ca cb cc y, CreditOf p c ca ∧ CreditOf p1 { c with amount := b } cb ∧ CreditOf p { c with amount := add c.amount b } cc ∧
      q = { p2 with positions := q.positions } ∧
      (c.record = false → q.positions = p2.positions) ∧
      (c.record = true → p2.positions = setPos p.positions (posKey c.lower c.upper) (credited (credited y ca) cb) ∧
        q.positions = setPos p.positions (posKey c.lower c.upper) (credited y cc)) := by
  have hi := reachable_inv hr
  obtain ⟨es, elt⟩ := add_small hi hf
  rcases Bool.eq_false_or_eq_true c.add with had | had
  · unfold PartsFit at hf
    rw [if_pos had] at hf
    have aa : c.op.Admissible p h := admissible_mint p had (by omega)
    have r1 := Strat.reachable_step hr fuel c.op aa h1
    have i1 := reachable_inv r1
    have ab : ({ c with amount := b } : Change).op.Admissible p1 (c.op.ledger h) :=
      admissible_mint p1 had (by rw [ledger_mint h had, total_cons]; dsimp only; omega)
    have ac : ({ c with amount := add c.amount b } : Change).op.Admissible p h :=
      admissible_mint p had (by dsimp only; rw [es]; omega)
    obtain ⟨ca, t1, x1, k1, A⟩ := effect_of_exec hi aa za h1
    obtain ⟨cb, t2, x2, k2, B⟩ := effect_of_exec i1 ab zb h2
    obtain ⟨cc, t3, y, k3, C⟩ := effect_of_exec hi ac (by dsimp only; omega) h3
    have dc : delta { c with amount := add c.amount b } = add (delta c) (delta { c with amount := b }) := by
      unfold delta
      rw [if_pos had, if_pos had, if_pos had]
    rw [dc] at C
    have da : delta c = c.amount := if_pos had
    have db : delta { c with amount := b } = b := if_pos had
    refine ⟨ca, cb, cc, y, k1, k2, k3, A.merge B C ?_ ?_⟩
    · intro i _
      rw [da]
      exact nowEmpty_mint hi (by omega) (by omega) i
    · intro i _
      rw [da, db, nowEmpty_mint i1 (by omega) (by omega) i, nowEmpty_mint hi (by omega) (by omega) i]
  · unfold PartsFit at hf
    rw [if_neg (by rw [had]; exact Bool.false_ne_true)] at hf
    have aa : c.op.Admissible p h := admissible_burn p had za (by omega)
    have r1 := Strat.reachable_step hr fuel c.op aa h1
    have i1 := reachable_inv r1
    have ho : (b.toNat : Int) ≤ outstanding (c.op.ledger h) c.lower c.upper := by
      rw [ledger_burn h had za, outstanding_cons]
      dsimp only
      rw [if_pos ⟨rfl, rfl⟩]
      omega
    have ab : ({ c with amount := b } : Change).op.Admissible p1 (c.op.ledger h) := admissible_burn p1 had zb ho
    have ac : ({ c with amount := add c.amount b } : Change).op.Admissible p h :=
      admissible_burn p had (by dsimp only; omega) (by dsimp only; rw [es]; omega)
    obtain ⟨ca, t1, x1, k1, A⟩ := effect_of_exec hi aa za h1
    obtain ⟨cb, t2, x2, k2, B⟩ := effect_of_exec i1 ab zb h2
    obtain ⟨cc, t3, y, k3, C⟩ := effect_of_exec hi ac (by dsimp only; omega) h3
    have nf : ¬ c.add = true := by rw [had]; exact Bool.false_ne_true
    have dc : delta { c with amount := add c.amount b } = add (delta c) (delta { c with amount := b }) := by
      unfold delta
      rw [if_neg nf, if_neg nf, if_neg nf]
      simp only [add_def, neg_def]
      abel
    rw [dc] at C
    have hlu : c.lower < c.upper := A.lu
    have g1 := i1.cov.gross_pos (l := c.lower) (u := c.upper) (by omega)
    have ne : ∀ i, i = c.lower ∨ i = c.upper → nowEmpty (lookup p.ticks.ticks i) (delta c) = false := by
      intro i hx
      exact not_emptied hi hlu aa za hx (by rcases hx with rfl | rfl <;> omega)
    refine ⟨ca, cb, cc, y, k1, k2, k3, A.merge B C ne ?_⟩
    intro i hx
    have g0 := hi.cov.gross_pos (l := c.lower) (u := c.upper) (by omega)
    have hg : grossAt h i ≠ 0 := by rcases hx with rfl | rfl <;> omega
    have hl : ∃ up, lookup p1.ticks.ticks i = some (updated (lookup p.ticks.ticks i) i p.tick (delta c) p.growth0 p.growth1 up) := by
      rw [A.eq]
      dsimp only
      rw [A.look]
      rcases hx with rfl | rfl
      · refine ⟨false, ?_⟩
        rw [if_neg (by omega), if_pos rfl]
        unfold cut
        rw [ne _ (.inl rfl), if_neg Bool.false_ne_true]
      · refine ⟨true, ?_⟩
        rw [if_pos rfl]
        unfold cut
        rw [ne _ (.inr rfl), if_neg Bool.false_ne_true]
    obtain ⟨up, hl⟩ := hl
    rw [hl]
    exact not_gone hi hg

/-- C85: adding liquidity to a range in two mints, or removing it in two burns, gives the pool that one call with the sum
gives (calls without records). -/
theorem C85_once {h : List Entry} {p : Pool} (hr : Reachable h p) (fuel : Nat) (ad : Bool) (l u : Int) (a b : U256)
    (za : a.toNat ≠ 0) (zb : b.toNat ≠ 0) (hf : PartsFit h ⟨ad, false, l, u, a⟩ b) (p' : Pool) :
    carryOut fuel [⟨ad, false, l, u, a⟩, ⟨ad, false, l, u, b⟩] p = .ok p' ↔ carryOut fuel [⟨ad, false, l, u, add a b⟩] p = .ok p' := by
  have hi := reachable_inv hr
  obtain ⟨es, elt⟩ := add_small hi hf
  dsimp only at es elt
  have one : ∀ (c : Change) (q : Pool), carryOut fuel [c] p = .ok q ↔ c.op.exec fuel p = .ok q := by
    intro c q
    show (c.op.exec fuel p >>= fun p1 => .ok p1) = .ok q ↔ _
    constructor
    · intro hx
      obtain ⟨p1, h1, hx⟩ := bind_ok hx
      cases hx
      exact h1
    · intro h1
      rw [h1, Except_bind_ok]
  rw [one, carryOut_cons]
  have ret : ∀ (p : Pool), Increasing p.ticks.ticks → ∀ x : U256, 0 < x.toNat → x.toNat < 2 ^ 128 →
      ((∃ q, (Change.op ⟨ad, false, l, u, x⟩).exec fuel p = .ok q) ↔ ValidRange l u) := by
    intro p hs x h0 hx
    have hpos : x.toInt = x.toNat := toInt_of_lt (by omega)
    cases ad
    · constructor
      · rintro ⟨p', hx⟩
        exact (modifyPosition_eq hs hx).imp_right fun h => ⟨h.1, h.2.1⟩
      · rintro ⟨h1, h2, h3⟩
        exact modifyPosition_total _ hs h1 h2 h3
    · constructor
      · rintro ⟨p', hx⟩
        obtain ⟨_, _, hx⟩ := bind_ok hx
        exact (modifyPosition_eq hs hx).imp_right fun h => ⟨h.1, h.2.1⟩
      · rintro ⟨h1, h2, h3⟩
        show ∃ p', p.mint l u x = .ok p'
        unfold mint
        rw [positive_ok (by omega), Except_bind_ok]
        exact modifyPosition_total _ hs h1 h2 h3
  have inc : ∀ {x : U256} {p1 : Pool}, (Change.op ⟨ad, false, l, u, x⟩).exec fuel p = .ok p1 → Increasing p1.ticks.ticks := by
    intro x p1 hx
    have : ∃ d, p.modifyPosition l u d = .ok p1 := by
      cases ad
      · exact ⟨_, hx⟩
      · obtain ⟨_, _, hx⟩ := bind_ok hx
        exact ⟨_, hx⟩
    obtain ⟨d, hx⟩ := this
    obtain ⟨_, _, _, t', b1, _, _, rfl⟩ := modifyPosition_eq hi.ticks.inc hx
    exact b1
  have same : ∀ {p1 p2 q : Pool}, (Change.op ⟨ad, false, l, u, a⟩).exec fuel p = .ok p1 → (Change.op ⟨ad, false, l, u, b⟩).exec fuel p1 = .ok p2 →
      (Change.op ⟨ad, false, l, u, add a b⟩).exec fuel p = .ok q → q = p2 := by
    intro p1 p2 q h1 h2 h3
    obtain ⟨_, _, _, _, _, _, _, e1, e2, _⟩ := merge_core hr za zb hf h1 h2 h3
    rw [e1, e2 rfl]
  constructor
  · intro hx
    obtain ⟨p1, h1, hx⟩ := bind_ok hx
    obtain ⟨p2, h2, hx⟩ := bind_ok (show ((Change.op ⟨ad, false, l, u, b⟩).exec fuel p1 >>= fun q => .ok q) = .ok p' from hx)
    cases hx
    obtain ⟨q, h3⟩ := (ret p hi.ticks.inc (add a b) (by omega) (by omega)).2 ((ret p hi.ticks.inc a (by omega) (by omega)).1 ⟨_, h1⟩)
    rw [h3, same h1 h2 h3]
  · intro h3
    have v := (ret p hi.ticks.inc (add a b) (by omega) (by omega)).1 ⟨_, h3⟩
    obtain ⟨p1, h1⟩ := (ret p hi.ticks.inc a (by omega) (by omega)).2 v
    obtain ⟨p2, h2⟩ := (ret p1 (inc h1) b (by omega) (by omega)).2 v
    rw [h1, Except_bind_ok]
    show ((Change.op ⟨ad, false, l, u, b⟩).exec fuel p1 >>= fun q => .ok q) = .ok p'
    rw [h2, Except_bind_ok, same h1 h2 h3]

theorem exact0_add (p q : Nat) (x y : Int) : exact0 p q (x + y) = exact0 p q x + exact0 p q y := by
  unfold exact0
  push_cast
  ring

theorem exact1_add (p q : Nat) (x y : Int) : exact1 p q (x + y) = exact1 p q x + exact1 p q y := by
  unfold exact1
  push_cast
  ring

theorem ceil_parts (x y : ℚ) (A B C : Nat) (hA : (A : Int) = ⌈x⌉) (hB : (B : Int) = ⌈y⌉) (hC : (C : Int) = ⌈x + y⌉) :
    C ≤ A + B ∧ A + B ≤ C + 1 := by
  have h1 := Int.ceil_add_le x y
  have h2 := Int.ceil_add_ceil_le x y
  omega

theorem floor_parts (x y : ℚ) (A B C : Nat) (hA : (A : Int) = ⌊x⌋) (hB : (B : Int) = ⌊y⌋) (hC : (C : Int) = ⌊x + y⌋) :
    A + B ≤ C ∧ C ≤ A + B + 1 := by
  have h1 := Int.le_floor_add x y
  have h2 := Int.le_floor_add_floor x y
  omega

/-- C85: two mints with a record give the pool of one mint with the sum, and cost at most one unit more of each token, never
less. -/
theorem C85_once_mint {h : List Entry} {p p1 p2 q : Pool} (hr : Reachable h p) {l u : Int} {a b a0 a1 b0 b1 c0 c1 : U256}
    (ht : total h + a.toNat + b.toNat < 2 ^ 128)
    (h1 : p.mintStrategy l u a = .ok (a0, a1, p1)) (h2 : p1.mintStrategy l u b = .ok (b0, b1, p2))
    (h3 : p.mintStrategy l u (add a b) = .ok (c0, c1, q)) :
    q = p2 ∧ c0.toNat ≤ a0.toNat + b0.toNat ∧ a0.toNat + b0.toNat ≤ c0.toNat + 1 ∧
      c1.toNat ≤ a1.toNat + b1.toNat ∧ a1.toNat + b1.toNat ≤ c1.toNat + 1 := by
  have hi := reachable_inv hr
  have za := (mintStrategy_eq h1).1
  have za' := (mintStrategy_eq h1).2.1
  have zb := (mintStrategy_eq h2).1
  have zb' := (mintStrategy_eq h2).2.1
  have hf : PartsFit h ⟨true, true, l, u, a⟩ b := by unfold PartsFit; rw [if_pos rfl]; exact ht
  obtain ⟨es, elt⟩ := add_small hi hf
  dsimp only at es elt
  have x1 : (Change.op ⟨true, true, l, u, a⟩).exec 0 p = .ok p1 := by
    show (p.mintStrategy l u a >>= fun r => (return r.2.2 : Go Pool)) = _
    rw [h1]; rfl
  have x2 : (Change.op ⟨true, true, l, u, b⟩).exec 0 p1 = .ok p2 := by
    show (p1.mintStrategy l u b >>= fun r => (return r.2.2 : Go Pool)) = _
    rw [h2]; rfl
  have x3 : (Change.op ⟨true, true, l, u, add a b⟩).exec 0 p = .ok q := by
    show (p.mintStrategy l u (add a b) >>= fun r => (return r.2.2 : Go Pool)) = _
    rw [h3]; rfl
  obtain ⟨ca, cb, cc, y, k1, k2, k3, e1, _, e3⟩ := merge_core hr (c := ⟨true, true, l, u, a⟩) (b := b) (by dsimp only; omega) (by omega) hf x1 x2 x3
  have r1 := Strat.reachable_step hr 0 (Change.op ⟨true, true, l, u, a⟩) (admissible_mint p rfl (by dsimp only; omega)) x1
  obtain ⟨_, _, _, A⟩ := effect_of_exec hi (admissible_mint (c := ⟨true, true, l, u, a⟩) p rfl (by dsimp only; omega)) (by dsimp only; omega) x1
  have hprice : p1.price = p.price := by obtain ⟨_, A⟩ := A; rw [A.eq]
  refine ⟨?_, ?_⟩
  · obtain ⟨e4, e5⟩ := e3 rfl
    unfold CreditOf at k1 k2 k3
    rw [if_pos rfl] at k1 k2 k3
    rw [k1, k2, credited_zero, credited_zero] at e4
    rw [k3, credited_zero] at e5
    rw [e1, e5, ← e4]
  · obtain ⟨f0, f1⟩ := C30_mint h p p1 hr l u a a0 a1 (by omega) h1
    obtain ⟨g0, g1⟩ := C30_mint _ p1 p2 r1 l u b b0 b1 (by omega) h2
    obtain ⟨i0, i1⟩ := C30_mint h p q hr l u (add a b) c0 c1 (by omega) h3
    rw [es, Nat.cast_add] at i0 i1
    rw [exact0_add] at i0
    rw [exact1_add] at i1
    rw [hprice] at g0 g1
    obtain ⟨y1, y2⟩ := ceil_parts _ _ _ _ _ f0 g0 i0
    obtain ⟨y3, y4⟩ := ceil_parts _ _ _ _ _ f1 g1 i1
    exact ⟨y1, y2, y3, y4⟩

/-- C85: two burns with a record return at most one unit less of each token than one burn with the sum, never more, and
leave the same pool but for those units in the record. -/
theorem C85_once_burn {h : List Entry} {p p1 p2 q : Pool} (hr : Reachable h p) {l u : Int} {a b a0 a1 b0 b1 c0 c1 : U256}
    (za : a.toNat ≠ 0) (zb : b.toNat ≠ 0) (ho : (a.toNat : Int) + b.toNat ≤ outstanding h l u)
    (h1 : p.burnStrategy l u a = .ok (a0, a1, p1)) (h2 : p1.burnStrategy l u b = .ok (b0, b1, p2))
    (h3 : p.burnStrategy l u (add a b) = .ok (c0, c1, q)) :
    ∃ d0 d1 : U256, d0.toNat ≤ 1 ∧ d1.toNat ≤ 1 ∧ c0.toNat = a0.toNat + b0.toNat + d0.toNat ∧
      c1.toNat = a1.toNat + b1.toNat + d1.toNat ∧
      ∃ i, p2.positions (posKey l u) = some i ∧ q = { p2 with
        positions := setPos p2.positions (posKey l u) { i with owed0 := add i.owed0 d0, owed1 := add i.owed1 d1 } } := by
  have hi := reachable_inv hr
  have hf : PartsFit h ⟨false, true, l, u, a⟩ b := by unfold PartsFit; rw [if_neg Bool.false_ne_true]; exact ho
  obtain ⟨es, elt⟩ := add_small hi hf
  dsimp only at es elt
  have x1 : (Change.op ⟨false, true, l, u, a⟩).exec 0 p = .ok p1 := by
    show (p.burnStrategy l u a >>= fun r => (return r.2.2 : Go Pool)) = _
    rw [h1]; rfl
  have x2 : (Change.op ⟨false, true, l, u, b⟩).exec 0 p1 = .ok p2 := by
    show (p1.burnStrategy l u b >>= fun r => (return r.2.2 : Go Pool)) = _
    rw [h2]; rfl
  have x3 : (Change.op ⟨false, true, l, u, add a b⟩).exec 0 p = .ok q := by
    show (p.burnStrategy l u (add a b) >>= fun r => (return r.2.2 : Go Pool)) = _
    rw [h3]; rfl
  obtain ⟨ca, cb, cc, y, k1, k2, k3, e1, _, e3⟩ := merge_core hr (c := ⟨false, true, l, u, a⟩) (b := b) za zb hf x1 x2 x3
  have aa : (Change.op ⟨false, true, l, u, a⟩).Admissible p h := admissible_burn p rfl za (by dsimp only; omega)
  have r1 := Strat.reachable_step hr 0 (Change.op ⟨false, true, l, u, a⟩) aa x1
  obtain ⟨_, _, _, A⟩ := effect_of_exec hi aa za x1
  have hprice : p1.price = p.price := by obtain ⟨_, A⟩ := A; rw [A.eq]
  have nz : ∀ x : U256, x.toNat ≠ 0 → (neg x).toNat ≠ 0 := by
    intro x hx h0
    apply hx
    have e : neg x = zero := ext_toNat (by rw [h0]; decide)
    have e2 : x = zero := by
      simp only [neg_def, zero_def] at e
      exact neg_eq_zero.1 e
    rw [e2]; decide
  have l1 := burn_credit (nz a za) h1 k1
  have l2 := burn_credit (nz b zb) h2 k2
  have l3 := burn_credit (nz _ (by omega)) h3 k3
  obtain ⟨f0, f1⟩ := C30_burn h p p1 hr l u a a0 a1 (by omega) h1
  obtain ⟨g0, g1⟩ := C30_burn _ p1 p2 r1 l u b b0 b1 (by omega) h2
  obtain ⟨i0, i1⟩ := C30_burn h p q hr l u (add a b) c0 c1 (by omega) h3
  rw [es, Nat.cast_add] at i0 i1
  rw [exact0_add] at i0
  rw [exact1_add] at i1
  rw [hprice] at g0 g1
  have z0 := floor_parts _ _ _ _ _ f0 g0 i0
  have z1 := floor_parts _ _ _ _ _ f1 g1 i1
  clear f0 f1 g0 g1 i0 i1
  have lc0 := c0.toNat_lt
  have lc1 := c1.toNat_lt
  have diff : ∀ a b c : U256, a.toNat + b.toNat ≤ c.toNat → (sub c (add a b)).toNat = c.toNat - (a.toNat + b.toNat) := by
    intro a b c hle
    have lc := c.toNat_lt
    have e : (add a b).toNat = a.toNat + b.toNat := by rw [toNat_add, Nat.mod_eq_of_lt (by omega)]
    rw [toNat_sub_of_le (by omega), e]
  have d0 := diff a0 b0 c0 (by omega)
  have d1 := diff a1 b1 c1 (by omega)
  obtain ⟨e4, e5⟩ := e3 rfl
  refine ⟨sub c0 (add a0 b0), sub c1 (add a1 b1), by omega, by omega, by omega, by omega, credited (credited y ca) cb, ?_, ?_⟩
  · rw [e4]
    unfold setPos
    rw [if_pos rfl]
  · rw [e1, e5]
    congr 1
    rw [e4, setPos_twice]
    congr 1
    rw [l1, l2, l3]
    unfold credited
    dsimp only
    simp only [Info.mk.injEq, true_and]
    constructor <;> simp only [add_def, sub_def] <;> abel

/-! ### Where the order matters -/

namespace OrderDemo
def take : Change := ⟨false, false, 60, 240, ofNat 2000000⟩
def give : Change := ⟨true, false, 60, 240, ofNat 700⟩
def more : Change := ⟨true, true, -120, 180, ofNat 900⟩
def wide : Change := ⟨true, true, -600, 660, ofNat 500⟩
def part : Change := ⟨false, false, 60, 240, ofNat 1500000⟩
def rest : Change := ⟨false, false, 60, 240, ofNat 500000⟩
def mine : Change := ⟨false, true, -120, 180, ofNat 300000⟩
end OrderDemo
open OrderDemo

/-- C85: the condition on shared boundaries is needed.  From a reachable pool, removing the last liquidity of a boundary
before adding to it again forgets the fee growth recorded there, adding first keeps it. -/
theorem C85_emptied : ∃ h p p1 p2, Reachable h p ∧ take.op.Admissible p h ∧ give.op.Admissible p h ∧ Apart take give ∧
    carryOut 0 [take, give] p = .ok p1 ∧ carryOut 0 [give, take] p = .ok p2 ∧
    outsideOf p1 60 = (zero, ofNat 5104235503814076951950619111476523) ∧
    outsideOf p2 60 = (zero, ofNat 3402823669209384634633746074317682) := by
  refine ⟨Demo.h3, Demo.p3, _, _, Demo.reachable Demo.r3, ?_, ?_, ?_, eq_getOk (carryOut 0 [take, give] Demo.p3) (by decide +kernel),
    eq_getOk (carryOut 0 [give, take] Demo.p3) (by decide +kernel), ?_, ?_⟩
  · exact admissible_burn _ rfl (by decide +kernel) (by decide +kernel)
  · exact admissible_mint _ rfl (by decide +kernel)
  · exact fun h => absurd h Bool.false_ne_true
  · decide +kernel
  · decide +kernel

-- three mints in the demo pool with fees collected, two of them with records
example : Reachable Demo.h3 Demo.p3 ∧ [give, more, wide].Perm [wide, give, more] ∧ (∀ c ∈ [give, more, wide], c.add = true) ∧
    (∀ c ∈ [give, more, wide], ∀ d ∈ [give, more, wide], Apart c d) ∧ total Demo.h3 + amounts [give, more, wide] < 2 ^ 128 ∧
    ∃ p', carryOut 0 [give, more, wide] Demo.p3 = .ok p' := by
  refine ⟨Demo.reachable Demo.r3, List.perm_middle (l₁ := [give, more]) (l₂ := []), by decide, ?_, by decide +kernel, _, eq_getOk _ (by decide +kernel)⟩
  unfold Apart
  decide +kernel

-- three burns that together empty the range [60, 240)
example : (∀ c ∈ [part, mine, rest], c.add = false) ∧ (∀ c ∈ [part, mine, rest], c.amount.toNat ≠ 0) ∧
    (∀ c ∈ [part, mine, rest], ∀ d ∈ [part, mine, rest], Apart c d) ∧
    (∀ l u, amountsOn l u [part, mine, rest] ≤ outstanding Demo.h3 l u) ∧ ∃ p', carryOut 0 [part, mine, rest] Demo.p3 = .ok p' := by
  refine ⟨by decide, by decide +kernel, ?_, ?_, _, eq_getOk _ (by decide +kernel)⟩
  · unfold Apart
    decide +kernel
  · intro l u
    have e1 : (ofNat 1500000).toNat = 1500000 := by decide +kernel
    have e2 : (ofNat 500000).toNat = 500000 := by decide +kernel
    have e3 : (ofNat 300000).toNat = 300000 := by decide +kernel
    rw [amountsOn_cons, amountsOn_cons, amountsOn_cons]
    unfold Demo.h3
    rw [outstanding_cons, outstanding_cons]
    simp only [part, mine, rest, e1, e2, e3, amountsOn, List.map_nil, List.sum_nil]
    have e0 : outstanding [] l u = 0 := rfl
    rw [e0]
    split_ifs <;> norm_num

-- a burn and a mint sharing a boundary that keeps liquidity
example : part.op.Admissible Demo.p3 Demo.h3 ∧ give.op.Admissible Demo.p3 Demo.h3 ∧ give.op.Admissible Demo.p3 (part.op.ledger Demo.h3) ∧
    part.op.Admissible Demo.p3 (give.op.ledger Demo.h3) ∧
    (∀ i, i = part.lower ∨ i = part.upper → i = give.lower ∨ i = give.upper →
      grossAt (part.op.ledger Demo.h3) i ≠ 0 ∧ grossAt (give.op.ledger Demo.h3) i ≠ 0) ∧
    ∃ p', carryOut 0 [part, give] Demo.p3 = .ok p' := by
  refine ⟨admissible_burn _ rfl (by decide +kernel) (by decide +kernel), admissible_mint _ rfl (by decide +kernel),
    admissible_mint _ rfl (by decide +kernel), admissible_burn _ rfl (by decide +kernel) (by decide +kernel), ?_, _, eq_getOk _ (by decide +kernel)⟩
  rintro i (rfl | rfl) _ <;> decide +kernel

-- one change instead of two
example : PartsFit Demo.h3 ⟨true, false, 60, 240, ofNat 700⟩ (ofNat 800) ∧ PartsFit Demo.h3 ⟨false, false, 60, 240, ofNat 1500000⟩ (ofNat 500000) ∧
    (∃ p', carryOut 0 [⟨false, false, 60, 240, add (ofNat 1500000) (ofNat 500000)⟩] Demo.p3 = .ok p') := by
  refine ⟨?_, ?_, _, eq_getOk _ (by decide +kernel)⟩
  · unfold PartsFit; decide +kernel
  · unfold PartsFit; decide +kernel

-- two mints with a record cost one unit more of each token
example : ∃ r s t, Demo.p3.mintStrategy (-120) 180 (ofNat 1000) = .ok r ∧ r.2.2.mintStrategy (-120) 180 (ofNat 2000) = .ok s ∧
    Demo.p3.mintStrategy (-120) 180 (add (ofNat 1000) (ofNat 2000)) = .ok t ∧
    r.1.toNat + s.1.toNat = t.1.toNat + 1 ∧ r.2.1.toNat + s.2.1.toNat = t.2.1.toNat + 1 := by
  refine ⟨_, _, _, eq_getOk _ (by decide +kernel), eq_getOk _ (by decide +kernel), eq_getOk _ (by decide +kernel), ?_, ?_⟩ <;> decide +kernel

-- two burns with a record return one unit less of token1
example : ((ofNat 1000).toNat : Int) + (ofNat 2600).toNat ≤ outstanding Demo.h3 (-120) 180 ∧
    ∃ r s t, Demo.p3.burnStrategy (-120) 180 (ofNat 1000) = .ok r ∧ r.2.2.burnStrategy (-120) 180 (ofNat 2600) = .ok s ∧
    Demo.p3.burnStrategy (-120) 180 (add (ofNat 1000) (ofNat 2600)) = .ok t ∧
    r.2.1.toNat + s.2.1.toNat + 1 = t.2.1.toNat := by
  refine ⟨by decide +kernel, _, _, _, eq_getOk _ (by decide +kernel), eq_getOk _ (by decide +kernel), eq_getOk _ (by decide +kernel), ?_⟩
  decide +kernel

end Props
end Uni
