import Verif.Spec.Cash
import Verif.Proofs.Solvency
import Verif.Proofs.Credit
import Verif.Proofs.Fees
import Verif.Props.Positions
/-! # The pool can pay all claims, fees included -/
namespace Uni
open U256 Spec TickData TickMath FullMath
namespace Pool

/-! ### The two tokens at once (`s = true`: token0) -/

def owS (s : Bool) (i : Info) : U256 := if s then i.owed0 else i.owed1
def laS (s : Bool) (i : Info) : U256 := if s then i.inside0 else i.inside1
def giS (s : Bool) (x : U256 × U256) : U256 := if s then x.1 else x.2
def ddS (s : Bool) (e : Accrual) : U256 := if s then e.d0 else e.d1
def accS (s : Bool) (l u : Int) (log : List Accrual) : U256 := if s then accrued0 l u log else accrued1 l u log
def prinS (s : Bool) (h : List Entry) (P : Nat) : ℚ := if s then principal0 h P else principal1 h P
def pairS (s : Bool) (x : Int × Int) : Int := if s then x.1 else x.2

/-- The claims of the range `r` in units of `2^-128` tokens. -/
def pot (s : Bool) (p : Pool) (r : Int × Int) : Nat :=
  (owS s (recordOf p r)).toNat * 2 ^ 128 +
    (recordOf p r).liquidity.toNat * (giS s (growthNow p r) - laS s (recordOf p r)).toNat

def liqOf (p : Pool) (r : Int × Int) : Nat := (recordOf p r).liquidity.toNat

theorem record_posOrNew (p : Pool) (r : Int × Int) : recordOf p r = posOrNew (p.positions (posKey r.1 r.2)) := by
  unfold recordOf posOrNew Info.new
  rfl

theorem toNat_add_le (a b : U256) : (a + b).toNat ≤ a.toNat + b.toNat := by
  have := toNat_add a b
  rw [show a + b = add a b from rfl, this]
  exact Nat.mod_le _ _

/-! ### Sums over the ranges -/

theorem sum_le {α : Type} {rs : List α} {f g : α → Nat} (h : ∀ r ∈ rs, f r ≤ g r) : (rs.map f).sum ≤ (rs.map g).sum := by
  induction rs with
  | nil => exact Nat.le_refl _
  | cons r rs ih =>
    rw [List.map_cons, List.map_cons, List.sum_cons, List.sum_cons]
    have h1 := h r List.mem_cons_self
    have h2 := ih fun x hx => h x (List.mem_cons_of_mem _ hx)
    omega

theorem sum_add {α : Type} (rs : List α) (f g : α → Nat) : (rs.map fun r => f r + g r).sum = (rs.map f).sum + (rs.map g).sum := by
  induction rs with
  | nil => rfl
  | cons r rs ih =>
    rw [List.map_cons, List.map_cons, List.map_cons, List.sum_cons, List.sum_cons, List.sum_cons, ih]
    omega

theorem sum_one {α : Type} {rs : List α} (hn : rs.Nodup) {f g : α → Nat} {r0 : α} {X Y : Nat} (hr : r0 ∈ rs)
    (h : ∀ r ∈ rs, r ≠ r0 → f r ≤ g r) (h0 : f r0 + X ≤ g r0 + Y) : (rs.map f).sum + X ≤ (rs.map g).sum + Y := by
  induction rs with
  | nil => cases hr
  | cons r rs ih =>
    rw [List.map_cons, List.map_cons, List.sum_cons, List.sum_cons]
    obtain ⟨n1, n2⟩ := List.nodup_cons.1 hn
    by_cases he : r = r0
    · subst he
      have h2 : (rs.map f).sum ≤ (rs.map g).sum := sum_le fun x hx => h x (List.mem_cons_of_mem _ hx) (by
        rintro rfl; exact n1 hx)
      omega
    · have h1 := h r List.mem_cons_self he
      have h2 := ih n2 ((List.mem_cons.1 hr).resolve_left (Ne.symm he)) fun x hx => h x (List.mem_cons_of_mem _ hx)
      omega

/-- The part of the listed ranges in a weighted sum over the ledger. -/
theorem ranges_le {rs : List (Int × Int)} (hn : rs.Nodup) {f : Int → Int → Int} (hf : ∀ a b, 0 ≤ f a b) :
    ∀ {h : List Entry}, (∀ l u, 0 ≤ outstanding h l u) → (rs.map fun r => f r.1 r.2 * outstanding h r.1 r.2).sum ≤ wsum f h := by
  induction rs with
  | nil => intro h ho; exact wsum_nonneg ho fun _ _ _ => hf _ _
  | cons r rs ih =>
    intro h ho
    obtain ⟨n1, n2⟩ := List.nodup_cons.1 hn
    rw [List.map_cons, List.sum_cons, wsum_filter f r.1 r.2 h]
    have ho' : ∀ l u, 0 ≤ outstanding (h.filter (fun e => !decide (e.lower = r.1 ∧ e.upper = r.2))) l u := by
      intro l u
      rw [outstanding_filter]
      split
      · exact le_refl _
      · exact ho l u
    have h1 := ih n2 ho'
    have h2 : (rs.map fun x => f x.1 x.2 * outstanding (h.filter (fun e => !decide (e.lower = r.1 ∧ e.upper = r.2))) x.1 x.2) =
        rs.map fun x => f x.1 x.2 * outstanding h x.1 x.2 := by
      apply List.map_congr_left
      intro x hx
      rw [outstanding_filter, if_neg]
      rintro ⟨e1, e2⟩
      apply n1
      have : x = r := Prod.ext e1 e2
      rw [← this]; exact hx
    rw [h2] at h1
    have h3 : f r.1 r.2 * outstanding h r.1 r.2 = f r.1 r.2 * ((outstanding h r.1 r.2 : Int) : Int) := rfl
    push_cast at *
    linarith

/-- The recorded liquidity of the listed ranges that contain a tick is active there. -/
theorem recorded_active {rs : List (Int × Int)} (hn : rs.Nodup) {h : List Entry} (hc : Covered h) {p : Pool}
    (hrec : ∀ r ∈ rs, (liqOf p r : Int) ≤ outstanding h r.1 r.2) (t : Int) :
    (((rs.map fun r => if r.1 ≤ t ∧ t < r.2 then liqOf p r else 0).sum : Nat) : Int) ≤ active h t := by
  have h1 := ranges_le hn (f := fun a b => if a ≤ t ∧ t < b then 1 else 0) (fun a b => by split <;> omega) hc.nonneg
  refine le_trans ?_ h1
  clear h1 hn
  induction rs with
  | nil => exact le_refl _
  | cons r rs ih =>
    rw [List.map_cons, List.map_cons, List.sum_cons, List.sum_cons]
    have h2 := ih fun x hx => hrec x (List.mem_cons_of_mem _ hx)
    have h3 := hrec r List.mem_cons_self
    push_cast
    by_cases hc : r.1 ≤ t ∧ t < r.2
    · rw [if_pos hc, if_pos hc]; push_cast at h2 ⊢; omega
    · rw [if_neg hc, if_neg hc]; push_cast at h2 ⊢; omega

/-! ### Growth of the claims -/

/-- The increments at ticks in the range, without wrap-around. -/
def accN (s : Bool) (r : Int × Int) : List Accrual → Nat
  | [] => 0
  | e :: log => (if r.1 ≤ e.tick ∧ e.tick < r.2 then (ddS s e).toNat else 0) + accN s r log

theorem accS_le (s : Bool) (r : Int × Int) (log : List Accrual) : (accS s r.1 r.2 log).toNat ≤ accN s r log := by
  induction log with
  | nil => cases s <;> exact Nat.le_refl _
  | cons e log ih =>
    have key : accS s r.1 r.2 (e :: log) = if r.1 ≤ e.tick ∧ e.tick < r.2 then ddS s e + accS s r.1 r.2 log else accS s r.1 r.2 log := by
      cases s <;> rfl
    rw [key]
    unfold accN
    by_cases hc : r.1 ≤ e.tick ∧ e.tick < r.2
    · rw [if_pos hc, if_pos hc]
      have := toNat_add_le (ddS s e) (accS s r.1 r.2 log)
      omega
    · rw [if_neg hc, if_neg hc]
      omega

/-- The increments of a log, each times the liquidity active at its tick. -/
def feeN (s : Bool) (h : List Entry) : List Accrual → Nat
  | [] => 0
  | e :: log => (ddS s e).toNat * (active h e.tick).toNat + feeN s h log

theorem sum_accN {rs : List (Int × Int)} (hn : rs.Nodup) {h : List Entry} (hc : Covered h) {p : Pool}
    (hrec : ∀ r ∈ rs, (liqOf p r : Int) ≤ outstanding h r.1 r.2) (s : Bool) (log : List Accrual) :
    (rs.map fun r => liqOf p r * accN s r log).sum ≤ feeN s h log := by
  induction log with
  | nil =>
    have : (rs.map fun r => liqOf p r * accN s r []).sum ≤ (rs.map fun _ => 0).sum := sum_le fun r _ => by
      show liqOf p r * 0 ≤ 0
      omega
    refine this.trans ?_
    have : ∀ l : List (Int × Int), (l.map fun _ => 0).sum = 0 := by
      intro l
      induction l with
      | nil => rfl
      | cons x l ih => rw [List.map_cons, List.sum_cons, ih]
    rw [this]
    exact Nat.zero_le _
  | cons e log ih =>
    have h1 : (fun r => liqOf p r * accN s r (e :: log)) = fun r =>
        (ddS s e).toNat * (if r.1 ≤ e.tick ∧ e.tick < r.2 then liqOf p r else 0) + liqOf p r * accN s r log := by
      funext r
      show liqOf p r * ((if r.1 ≤ e.tick ∧ e.tick < r.2 then (ddS s e).toNat else 0) + accN s r log) = _
      split <;> ring
    rw [h1, sum_add]
    show _ ≤ (ddS s e).toNat * (active h e.tick).toNat + feeN s h log
    refine Nat.add_le_add ?_ ih
    have h2 : ∀ l : List (Int × Int), (l.map fun r => (ddS s e).toNat * (if r.1 ≤ e.tick ∧ e.tick < r.2 then liqOf p r else 0)).sum =
        (ddS s e).toNat * (l.map fun r => if r.1 ≤ e.tick ∧ e.tick < r.2 then liqOf p r else 0).sum := by
      intro l
      induction l with
      | nil => rfl
      | cons x l ih => rw [List.map_cons, List.map_cons, List.sum_cons, List.sum_cons, ih]; ring
    rw [h2]
    apply Nat.mul_le_mul_left
    have := recorded_active hn hc hrec e.tick
    omega

theorem range_lt {h : List Entry} (hc : Covered h) {l u : Int} (ho : 0 < outstanding h l u) : l < u := by
  by_contra hn
  have : outstanding h l u = wsum (fun _ _ => (0 : Int)) h := wsum_congr fun e he => by
    have := hc.range e he
    rw [if_neg]
    rintro ⟨rfl, rfl⟩
    exact hn this
  have h0 : wsum (fun _ _ => (0 : Int)) h = 0 := by
    unfold wsum
    induction h with
    | nil => rfl
    | cons e h ih => simp
  omega

theorem init_of_out {h : List Entry} {p : Pool} (hi : Inv h p) {l u : Int} (ho : 0 < outstanding h l u) :
    Pool.Initialized p l ∧ Pool.Initialized p u := by
  obtain ⟨h1, h2⟩ := hi.cov.gross_pos ho
  exact ⟨init_of_gross hi (by omega), init_of_gross hi (by omega)⟩

theorem growthNow_eq {p : Pool} (hs : Increasing p.ticks.ticks) {r : Int × Int} {x y : Tick} (hx : lookup p.ticks.ticks r.1 = some x)
    (hy : lookup p.ticks.ticks r.2 = some y) :
    growthNow p r = (growthBelow r.2 p.tick p.growth0 y.out0 - growthBelow r.1 p.tick p.growth0 x.out0,
      growthBelow r.2 p.tick p.growth1 y.out1 - growthBelow r.1 p.tick p.growth1 x.out1) := by
  unfold growthNow
  rw [inside_eq hs hx hy]

theorem growthNow_ok {p : Pool} {r : Int × Int} {a : U256 × U256}
    (h : p.ticks.getFeeGrowthInside r.1 r.2 p.tick p.growth0 p.growth1 = .ok a) : growthNow p r = a := by
  unfold growthNow
  rw [h]

/-- The growth inside a range that holds liquidity before and after an operation. -/
theorem growthNow_step {h h' : List Entry} {p p' : Pool} {log : List Accrual} (hi : Inv h p) (hi' : Inv h' p')
    (hg : GrowthStep p p' log) {r : Int × Int} (ho : 0 < outstanding h r.1 r.2) (ho' : 0 < outstanding h' r.1 r.2) (s : Bool) :
    giS s (growthNow p' r) = giS s (growthNow p r) + accS s r.1 r.2 log := by
  obtain ⟨i1, i2⟩ := init_of_out hi ho
  obtain ⟨j1, j2⟩ := init_of_out hi' ho'
  obtain ⟨x, hx⟩ := Option.isSome_iff_exists.1 i1
  obtain ⟨y, hy⟩ := Option.isSome_iff_exists.1 i2
  obtain ⟨x', hx'⟩ := Option.isSome_iff_exists.1 j1
  obtain ⟨y', hy'⟩ := Option.isSome_iff_exists.1 j2
  have hlu := le_of_lt (range_lt hi.cov ho)
  obtain ⟨_, _, hg⟩ := hg
  obtain ⟨a1, a2⟩ := hg _ x x' hx hx'
  obtain ⟨b1, b2⟩ := hg _ y y' hy hy'
  rw [growthNow_eq hi.ticks.inc hx hy, growthNow_eq hi'.ticks.inc hx' hy', a1, a2, b1, b2]
  cases s
  · show _ = _ + accrued1 _ _ _
    rw [accrued1_eq hlu]
    unfold giS
    simp only [Bool.false_eq_true, if_false]
    abel
  · show _ = _ + accrued0 _ _ _
    rw [accrued0_eq hlu]
    unfold giS
    simp only [if_true]
    abel

theorem record_congr {p p' : Pool} {r : Int × Int} (h : p'.positions (posKey r.1 r.2) = p.positions (posKey r.1 r.2)) :
    recordOf p' r = recordOf p r := by
  unfold recordOf
  rw [h]

/-- The claims of a range whose record is not used. -/
theorem pot_step {h h' : List Entry} {p p' : Pool} {log : List Accrual} (hi : Inv h p) (hi' : Inv h' p')
    (hg : GrowthStep p p' log) {r : Int × Int} (hpos : p'.positions (posKey r.1 r.2) = p.positions (posKey r.1 r.2))
    (h1 : (liqOf p r : Int) ≤ outstanding h r.1 r.2) (h2 : (liqOf p r : Int) ≤ outstanding h' r.1 r.2) (s : Bool) :
    pot s p' r ≤ pot s p r + liqOf p r * accN s r log := by
  unfold pot
  rw [record_congr hpos]
  rcases Nat.eq_zero_or_pos (liqOf p r) with h0 | h0
  · unfold liqOf at h0
    rw [h0, Nat.zero_mul, Nat.zero_mul]
    omega
  · rw [growthNow_step hi hi' hg (by omega) (by omega) s]
    have e : giS s (growthNow p r) + accS s r.1 r.2 log - laS s (recordOf p r) =
        (giS s (growthNow p r) - laS s (recordOf p r)) + accS s r.1 r.2 log := by abel
    rw [e]
    have k1 := toNat_add_le (giS s (growthNow p r) - laS s (recordOf p r)) (accS s r.1 r.2 log)
    have k2 := accS_le s r log
    have k3 := Nat.mul_le_mul_left (recordOf p r).liquidity.toNat (k1.trans (Nat.add_le_add_left k2 _))
    unfold liqOf
    rw [Nat.mul_add] at k3
    omega

/-- All claims when no record is used. -/
theorem pots_step {h h' : List Entry} {p p' : Pool} {log : List Accrual} {rs : List (Int × Int)} (hn : rs.Nodup) (hi : Inv h p)
    (hi' : Inv h' p') (hg : GrowthStep p p' log) (hpos : p'.positions = p.positions)
    (h1 : ∀ r ∈ rs, (liqOf p r : Int) ≤ outstanding h r.1 r.2) (h2 : ∀ r ∈ rs, (liqOf p r : Int) ≤ outstanding h' r.1 r.2) (s : Bool) :
    (rs.map (pot s p')).sum ≤ (rs.map (pot s p)).sum + feeN s h log := by
  have k1 : (rs.map (pot s p')).sum ≤ (rs.map fun r => pot s p r + liqOf p r * accN s r log).sum :=
    sum_le fun r hr => pot_step hi hi' hg (by rw [hpos]) (h1 r hr) (h2 r hr) s
  rw [sum_add] at k1
  have k2 := sum_accN hn hi.cov h1 s log
  omega

/-! ### Fees -/

theorem feePerUnit_le {f : Nat} {A : Int} :
    (feePerUnit f A).toNat * A.toNat ≤ f * 2 ^ 128 := by
  unfold feePerUnit
  by_cases h0 : A = 0
  · rw [if_pos h0, h0]
    simp
  · rw [if_neg h0]
    have h1 : (ofNat (f * 2 ^ 128 / A.toNat)).toNat ≤ f * 2 ^ 128 / A.toNat := by
      rw [toNat_ofNat]; exact Nat.mod_le _ _
    calc (ofNat (f * 2 ^ 128 / A.toNat)).toNat * A.toNat ≤ (f * 2 ^ 128 / A.toNat) * A.toNat := Nat.mul_le_mul_right _ h1
      _ ≤ _ := Nat.div_mul_le_self _ _

theorem feeN_swap {h : List Entry} {z : Bool} {log : List Accrual} {fees : List Nat}
    (hf : List.Forall₂ (FeeOf h z) log fees) (s : Bool) : feeN s h log ≤ if s = z then fees.sum * 2 ^ 128 else 0 := by
  induction hf with
  | nil => exact Nat.zero_le _
  | @cons e f log' fees' he _ ih =>
    obtain ⟨e1, e2⟩ := he
    unfold feeN
    rw [List.sum_cons]
    by_cases hs : s = z
    · subst hs
      rw [if_pos rfl] at ih ⊢
      have : ddS s e = feePerUnit f (active h e.tick) := e1
      rw [this]
      have := feePerUnit_le (f := f) (A := active h e.tick)
      rw [Nat.add_mul]
      omega
    · rw [if_neg hs] at ih ⊢
      have : ddS s e = zero := by
        rw [← e2]
        cases s <;> cases z <;> first | rfl | exact absurd rfl hs
      rw [this, show zero.toNat = 0 by decide, Nat.zero_mul]
      omega

/-! ### A record that is used -/

theorem share_le (liq g : U256) : (share liq g).toNat * 2 ^ 128 ≤ liq.toNat * g.toNat := by
  unfold share
  rw [toNat_ofNat]
  calc _ ≤ liq.toNat * g.toNat / 2 ^ 128 * 2 ^ 128 := Nat.mul_le_mul_right _ (Nat.mod_le _ _)
    _ ≤ _ := Nat.div_mul_le_self _ _

/-- The claims of a range whose record is touched: the fees move from the pending part to the owed part. -/
theorem touch_pot {h h' : List Entry} {p p' : Pool} (hi : Inv h p) (hi' : Inv h' p') {pos : Info} {l u : Int} {d a0 a1 : U256}
    (hx : p.modifyPositionStrategy l u d = .ok (pos, a0, a1, p'))
    (h1 : (liqOf p (l, u) : Int) ≤ outstanding h l u) (h2 : (pos.liquidity.toNat : Int) ≤ outstanding h' l u) (s : Bool) :
    (owS s pos).toNat * 2 ^ 128 ≤ pot s p (l, u) ∧
      pos.liquidity.toNat * (giS s (growthNow p' (l, u)) - laS s pos).toNat = 0 := by
  obtain ⟨ins, k1, k2, k3⟩ := touch_inside hi hx
  obtain ⟨u1, u2, u3, u4, u5⟩ := update_ok k1
  have hrec : recordOf p (l, u) = posOrNew (p.positions (posKey l u)) := record_posOrNew p (l, u)
  rw [← hrec] at u4 u5
  constructor
  · have e : owS s pos = owS s (recordOf p (l, u)) + share (recordOf p (l, u)).liquidity (giS s ins - laS s (recordOf p (l, u))) := by
      cases s
      · exact u5
      · exact u4
    rw [e]
    unfold pot
    have g1 := toNat_add_le (owS s (recordOf p (l, u))) (share (recordOf p (l, u)).liquidity (giS s ins - laS s (recordOf p (l, u))))
    have g2 := share_le (recordOf p (l, u)).liquidity (giS s ins - laS s (recordOf p (l, u)))
    have g3 := Nat.mul_le_mul_right (2 ^ 128) g1
    rw [Nat.add_mul] at g3
    rcases Nat.eq_zero_or_pos (liqOf p (l, u)) with h0 | h0
    · unfold liqOf at h0
      rw [h0, Nat.zero_mul] at g2 ⊢
      exact le_trans g3 (Nat.add_le_add_left g2 _)
    · have e2 : growthNow p (l, u) = ins := growthNow_ok (r := (l, u)) (k2 (init_of_out hi (by omega)))
      rw [e2]
      exact le_trans g3 (Nat.add_le_add_left g2 _)
  · rcases Nat.eq_zero_or_pos pos.liquidity.toNat with h0 | h0
    · rw [h0, Nat.zero_mul]
    · obtain ⟨_, f2⟩ := k3 (init_of_out hi' (by omega))
      have e2 : growthNow p' (l, u) = (pos.inside0, pos.inside1) := growthNow_ok (r := (l, u)) f2
      rw [e2]
      have : giS s (pos.inside0, pos.inside1) - laS s pos = zero := by
        cases s
        · exact sub_self _
        · exact sub_self _
      rw [this, show zero.toNat = 0 by decide, Nat.mul_zero]

theorem ranges_key {rs : List (Int × Int)} (ho : OwnRecords rs) {r : Int × Int} {l u : Int} (hr : r ∈ rs) (hlu : (l, u) ∈ rs)
    (hne : r ≠ (l, u)) : posKey r.1 r.2 ≠ posKey l u := fun he => hne (ho.2 r hr (l, u) hlu he)

/-- What a step has to show. -/
structure CashStep (rs : List (Int × Int)) (s : Bool) (h h' : List Entry) (p p' : Pool) (c : Int) : Prop where
  recorded : ∀ r ∈ rs, (liqOf p' r : Int) ≤ outstanding h' r.1 r.2
  paid : ∃ y : Int, prinS s h' p'.price.toNat - prinS s h p.price.toNat + y ≤ (c : ℚ) ∧
    (((rs.map (pot s p')).sum : Nat) : Int) ≤ ((rs.map (pot s p)).sum : Nat) + y * 2 ^ 128

theorem principalS {h : List Entry} {p p' : Pool} (hi : Inv h p) {fuel : Nat} {op : PoolOp} (ha : op.Admissible p h)
    (hs : op.Safe p) (hx : op.exec fuel p = .ok p') (s : Bool) :
    prinS s (op.ledger h) p'.price.toNat - prinS s h p.price.toNat ≤ ((pairS s (op.flow fuel p) : Int) : ℚ) := by
  obtain ⟨e0, e1⟩ := exec_principal hi ha hs hx
  cases s
  · exact e1
  · exact e0

/-- Steps that use no record. -/
theorem idle_step {h h' : List Entry} {p p' : Pool} {log : List Accrual} {rs : List (Int × Int)} (hn : rs.Nodup) (hi : Inv h p)
    (hi' : Inv h' p') (hg : GrowthStep p p' log) (hpos : p'.positions = p.positions)
    (h1 : ∀ r ∈ rs, (liqOf p r : Int) ≤ outstanding h r.1 r.2) (h2 : ∀ r ∈ rs, (liqOf p r : Int) ≤ outstanding h' r.1 r.2) {s : Bool}
    {c : Int} {f : Nat} (hf : feeN s h log ≤ f * 2 ^ 128) (hc : prinS s h' p'.price.toNat - prinS s h p.price.toNat + f ≤ (c : ℚ)) :
    CashStep rs s h h' p p' c := by
  refine ⟨fun r hr => ?_, f, by exact_mod_cast hc, ?_⟩
  · have := h2 r hr
    have e : recordOf p' r = recordOf p r := record_congr (by rw [hpos])
    unfold liqOf at this ⊢
    rw [e]
    exact this
  · have := pots_step hn hi hi' hg hpos h1 h2 s
    have h3 := this.trans (Nat.add_le_add_left hf _)
    exact_mod_cast h3

/-- Steps that use one record. -/
theorem touch_step {h h' : List Entry} {p p' : Pool} {rs : List (Int × Int)} (ho : OwnRecords rs) (hi : Inv h p)
    (hi' : Inv h' p') (hg : GrowthStep p p' []) {l u : Int} {pos : Info} (hlu : (l, u) ∈ rs)
    (hpos : p'.positions = setPos p.positions (posKey l u) pos)
    (h1 : ∀ r ∈ rs, (liqOf p r : Int) ≤ outstanding h r.1 r.2)
    (h2 : ∀ r ∈ rs, r ≠ (l, u) → outstanding h r.1 r.2 ≤ outstanding h' r.1 r.2)
    (h3 : (pos.liquidity.toNat : Int) ≤ outstanding h' l u) {s : Bool} {x y : Nat} {c : Int}
    (h4 : (owS s pos).toNat * 2 ^ 128 + pos.liquidity.toNat * (giS s (growthNow p' (l, u)) - laS s pos).toNat + x * 2 ^ 128 ≤
      pot s p (l, u) + y * 2 ^ 128)
    (hc : prinS s h' p'.price.toNat - prinS s h p.price.toNat + (y - x) ≤ (c : ℚ)) : CashStep rs s h h' p p' c := by
  have hrec : recordOf p' (l, u) = pos := by
    unfold recordOf
    rw [hpos, setPos_same]
  have hoth : ∀ r ∈ rs, r ≠ (l, u) → p'.positions (posKey r.1 r.2) = p.positions (posKey r.1 r.2) := by
    intro r hr hne
    rw [hpos, setPos_ne (ranges_key ho hr hlu hne)]
  refine ⟨fun r hr => ?_, (y : Int) - x, by push_cast; linarith, ?_⟩
  · by_cases he : r = (l, u)
    · subst he
      unfold liqOf
      rw [hrec]
      exact h3
    · have := (h1 r hr).trans (h2 r hr he)
      unfold liqOf at this ⊢
      rw [record_congr (hoth r hr he)]
      exact this
  · have hm : (rs.map (pot s p')).sum + x * 2 ^ 128 ≤ (rs.map (pot s p)).sum + y * 2 ^ 128 := by
      refine sum_one ho.1 hlu (fun r hr hne => ?_) ?_
      · have := pot_step hi hi' hg (hoth r hr hne) (h1 r hr) ((h1 r hr).trans (h2 r hr hne)) s
        simpa [accN] using this
      · refine le_trans (le_of_eq ?_) h4
        unfold pot
        rw [hrec]
    have : (((rs.map (pot s p')).sum : Nat) : Int) + x * 2 ^ 128 ≤ ((rs.map (pot s p)).sum : Nat) + y * 2 ^ 128 := by exact_mod_cast hm
    linarith

theorem swap_step {h : List Entry} {p p' : Pool} {rs : List (Int × Int)} (hn : rs.Nodup) (hi : Inv h p) (hi' : Inv h p')
    (h1 : ∀ r ∈ rs, (liqOf p r : Int) ≤ outstanding h r.1 r.2) {fuel : Nat} {z : Bool} {a l r0 r1 : U256}
    (hg : GrowthStep p p' (callLog fuel p z a l)) (ha : a.toInt < 2 ^ 160) (hgood : z = true → Good p.spacing p.tick)
    (hx : p.swap fuel z a l = .ok (r0, r1, p')) (s : Bool) : CashStep rs s h h p p' (pairS s (r0.toInt, r1.toInt)) := by
  obtain ⟨fees, hf, e0, e1⟩ := swap_principal hi ha hgood hx
  have hN := feeN_swap hf s
  refine idle_step hn hi hi' hg (swap_pos hx) h1 h1 (f := if s = z then fees.sum else 0) (by
    refine hN.trans (le_of_eq ?_)
    split
    · rfl
    · exact (Nat.zero_mul _).symm) ?_
  cases s <;> cases z
  · exact_mod_cast e1
  · exact_mod_cast e1
  · exact_mod_cast e0
  · exact_mod_cast e0

theorem cash_step {rs : List (Int × Int)} (ho : OwnRecords rs) {h : List Entry} {p p' : Pool} (hi : Inv h p)
    (h1 : ∀ r ∈ rs, (liqOf p r : Int) ≤ outstanding h r.1 r.2) {fuel : Nat} {op : PoolOp} (ha : op.Admissible p h)
    (hs : op.Safe p) (hfair : op.Fair rs p h) (hx : op.exec fuel p = .ok p') (s : Bool) :
    CashStep rs s h (op.ledger h) p p' (pairS s (op.cash fuel p)) := by
  have hi' := exec_inv hi ha hx
  have hg := exec_growth hi ha hx
  have hp := principalS hi ha hs hx s
  cases op with
  | mint l u a =>
    obtain ⟨_, _, h3⟩ := bind_ok hx
    refine idle_step ho.1 hi hi' hg (modifyPosition_pos h3) h1 (fun r hr => ?_) (f := 0) (by cases s <;> exact Nat.zero_le _) (by
      push_cast; rw [add_zero]; exact hp)
    refine (h1 r hr).trans ?_
    show _ ≤ outstanding (⟨l, u, a.toNat⟩ :: h) _ _
    rw [outstanding_cons]
    dsimp only
    split <;> omega
  | burn l u a =>
    refine idle_step ho.1 hi hi' hg (modifyPosition_pos hx) h1 (fun r hr => ?_) (f := 0) (by cases s <;> exact Nat.zero_le _) (by
      push_cast; rw [add_zero]; exact hp)
    show _ ≤ outstanding (if a.toNat = 0 then h else ⟨l, u, -a.toNat⟩ :: h) _ _
    by_cases h0 : a.toNat = 0
    · rw [if_pos h0]; exact h1 r hr
    · rw [if_neg h0, outstanding_cons]
      dsimp only
      by_cases he : l = r.1 ∧ u = r.2
      · rw [if_pos he]
        have e : (l, u) = r := Prod.ext he.1 he.2
        have h5 : ((recordOf p (l, u)).liquidity.toNat : Int) + a.toNat ≤ outstanding h l u := hfair (e ▸ hr)
        unfold liqOf
        rw [← e]
        dsimp only
        omega
      · rw [if_neg he]
        have := h1 r hr
        omega
  | mintStrategy l u a =>
    obtain ⟨⟨r0, r1, q⟩, h3, h4⟩ := bind_ok hx
    cases h4
    dsimp only at hi' hg hp ⊢
    obtain ⟨_, _, pos, h5⟩ := mintStrategy_eq h3
    have hlu : (l, u) ∈ rs := hfair
    obtain ⟨ins, k0, _⟩ := touch_inside hi h5
    obtain ⟨_, _, k1, _, _⟩ := update_ok k0
    have hl : (pos.liquidity.toNat : Int) ≤ outstanding (⟨l, u, a.toNat⟩ :: h) l u := by
      rw [outstanding_cons, if_pos ⟨rfl, rfl⟩]
      dsimp only
      have e1 := h1 (l, u) hlu
      unfold liqOf at e1
      rw [record_posOrNew] at e1
      have e2 := toNat_add_le (posOrNew (p.positions (posKey l u))).liquidity a
      rw [← k1] at e2
      dsimp only at e1
      omega
    obtain ⟨t1, t2⟩ := touch_pot hi hi' h5 (h1 (l, u) hlu) hl s
    refine touch_step ho hi hi' hg hlu (modifyStrategy_pos h5) h1 (fun r hr _ => ?_) hl (x := 0) (y := 0) ?_ ?_
    · show _ ≤ outstanding (⟨l, u, a.toNat⟩ :: h) _ _
      rw [outstanding_cons]
      dsimp only
      split <;> omega
    · rw [t2, Nat.zero_mul, Nat.add_zero, Nat.add_zero]
      exact t1
    · have e : PoolOp.cash fuel p (.mintStrategy l u a) = PoolOp.flow fuel p (.mintStrategy l u a) := rfl
      rw [e]
      simpa using hp
  | burnStrategy l u a =>
    obtain ⟨⟨r0, r1, q'⟩, h3, h4⟩ := bind_ok hx
    cases h4
    dsimp only at hi' hg hp ⊢
    have hfl : PoolOp.flow fuel p (.burnStrategy l u a) = (-(r0.toNat : Int), -(r1.toNat : Int)) := by
      simp only [PoolOp.flow, h3]
    obtain ⟨pos, a0, a1, q, h5, _, _, h6⟩ := burnStrategy_eq h3
    obtain ⟨hlu, hle⟩ : (l, u) ∈ rs ∧ a.toNat ≤ (recordOf p (l, u)).liquidity.toNat := hfair
    obtain ⟨ins, k0, _⟩ := touch_inside hi h5
    obtain ⟨_, _, k1, _, _⟩ := update_ok k0
    have hiq : Inv (PoolOp.ledger h (.burnStrategy l u a)) q := by
      rw [h6] at hi'
      exact inv_same hi' rfl rfl rfl rfl rfl rfl hi'.ticks.inc (fun _ => rfl)
    have hout : outstanding (PoolOp.ledger h (.burnStrategy l u a)) l u = outstanding h l u - a.toNat := by
      show outstanding (if a.toNat = 0 then h else ⟨l, u, -a.toNat⟩ :: h) l u = _
      by_cases h0 : a.toNat = 0
      · rw [if_pos h0, h0]; simp
      · rw [if_neg h0, outstanding_cons, if_pos ⟨rfl, rfl⟩]
        dsimp only
        omega
    have hl : (pos.liquidity.toNat : Int) ≤ outstanding (PoolOp.ledger h (.burnStrategy l u a)) l u := by
      rw [hout]
      have e1 := h1 (l, u) hlu
      unfold liqOf at e1
      dsimp only at e1
      rw [record_posOrNew] at e1 hle
      dsimp only at e1 hle
      have e2 : pos.liquidity.toNat = (posOrNew (p.positions (posKey l u))).liquidity.toNat - a.toNat := by
        have : pos.liquidity = sub (posOrNew (p.positions (posKey l u))).liquidity a := by
          rw [k1, neg_def, sub_def]; abel
        rw [this, toNat_sub]
        have l1 := U256.toNat_lt (posOrNew (p.positions (posKey l u))).liquidity
        have l2 := U256.toNat_lt a
        omega
      omega
    obtain ⟨t1, t2⟩ := touch_pot hi hiq h5 (h1 (l, u) hlu) hl s
    have hpos : q'.positions = setPos p.positions (posKey l u) { pos with owed0 := add pos.owed0 r0, owed1 := add pos.owed1 r1 } := by
      rw [h6]
      show setPos q.positions _ _ = _
      rw [modifyStrategy_pos h5, setPos_setPos]
    have hgr : growthNow q' (l, u) = growthNow q (l, u) := by rw [h6]; rfl
    refine touch_step ho hi hi' hg hlu hpos h1 (fun r hr hne => ?_) hl (x := 0)
      (y := (if s then r0 else r1).toNat) ?_ ?_
    · show _ ≤ outstanding (if a.toNat = 0 then h else ⟨l, u, -a.toNat⟩ :: h) _ _
      by_cases h0 : a.toNat = 0
      · rw [if_pos h0]
      · rw [if_neg h0, outstanding_cons, if_neg]
        · omega
        · rintro ⟨e1, e2⟩; exact hne (Prod.ext e1.symm e2.symm)
    · have e : owS s { pos with owed0 := add pos.owed0 r0, owed1 := add pos.owed1 r1 } = owS s pos + (if s then r0 else r1) := by
        cases s <;> rfl
      have e' : laS s { pos with owed0 := add pos.owed0 r0, owed1 := add pos.owed1 r1 } = laS s pos := by
        cases s <;> rfl
      rw [e, e', hgr]
      dsimp only
      rw [t2, Nat.zero_mul, Nat.add_zero]
      have := toNat_add_le (owS s pos) (if s then r0 else r1)
      have h7 := Nat.mul_le_mul_right (2 ^ 128) this
      rw [Nat.add_mul] at h7
      exact h7.trans (Nat.add_le_add_right t1 _)
    · rw [hfl] at hp
      cases s
      · simp only [pairS, PoolOp.cash, Bool.false_eq_true, if_false] at hp ⊢
        push_cast at hp ⊢
        linarith
      · simp only [pairS, PoolOp.cash, if_true] at hp ⊢
        push_cast at hp ⊢
        linarith
  | collectStrategy l u =>
    obtain ⟨⟨r0, r1, q⟩, h3, h4⟩ := bind_ok hx
    cases h4
    have hlu : (l, u) ∈ rs := hfair
    have hz : (zero : U256).toNat = 0 := by decide
    have hca : PoolOp.cash fuel p (.collectStrategy l u) = (-(r0.toNat : Int), -(r1.toNat : Int)) := by
      simp only [PoolOp.cash, h3]
    rw [hca]
    rcases hq : p.positions (posKey l u) with _ | pos
    · unfold collectStrategy at h3; rw [hq] at h3; cases h3
    have h5 := h3
    unfold collectStrategy at h5
    rw [hq] at h5
    cases h5
    have hrec : recordOf p (l, u) = pos := by unfold recordOf; rw [hq]
    have e1 := h1 (l, u) hlu
    unfold liqOf at e1
    rw [hrec] at e1
    refine touch_step ho hi hi' hg hlu (pos := { pos with owed0 := zero, owed1 := zero }) rfl h1 (fun r hr hne => le_refl _) e1
      (x := (owS s pos).toNat) (y := 0) ?_ ?_
    · unfold pot
      rw [hrec]
      have e : (owS s { pos with owed0 := zero, owed1 := zero }).toNat = 0 := by
        cases s
        · exact hz
        · exact hz
      have e' : laS s { pos with owed0 := zero, owed1 := zero } = laS s pos := by cases s <;> rfl
      have e'' : growthNow ({ p with positions := setPos p.positions (posKey l u) { pos with owed0 := zero, owed1 := zero } } : Pool) (l, u) =
          growthNow p (l, u) := rfl
      dsimp only
      rw [e, e', e'', Nat.zero_mul, Nat.zero_add, Nat.add_zero, Nat.add_comm]
    · cases s
      · simp [pairS, owS, prinS, PoolOp.ledger]
      · simp [pairS, owS, prinS, PoolOp.ledger]
  | flash a b =>
    obtain ⟨e, _⟩ := Props.flash_exact hi hx
    have hpos : p'.positions = p.positions := by rw [e]
    have hpr : p'.price = p.price := by rw [e]
    refine idle_step ho.1 hi hi' hg hpos h1 h1
      (f := if s then ceilDiv (a.toNat * p.fee.toNat) 1000000 else ceilDiv (b.toNat * p.fee.toNat) 1000000) ?_ ?_
    · have hd : ddS s { tick := p.tick, d0 := sub p'.growth0 p.growth0, d1 := sub p'.growth1 p.growth1 } =
          feePerUnit (if s then ceilDiv (a.toNat * p.fee.toNat) 1000000 else ceilDiv (b.toNat * p.fee.toNat) 1000000) (active h p.tick) := by
        cases s
        · show sub p'.growth1 p.growth1 = feePerUnit _ _
          rw [e]
          show add p.growth1 (feePerUnit _ _) - p.growth1 = _
          rw [show ∀ x y : U256, add x y = x + y from fun _ _ => rfl, add_sub_cancel_left]
          simp only [Bool.false_eq_true, if_true, if_false]
        · show sub p'.growth0 p.growth0 = feePerUnit _ _
          rw [e]
          show add p.growth0 (feePerUnit _ _) - p.growth0 = _
          rw [show ∀ x y : U256, add x y = x + y from fun _ _ => rfl, add_sub_cancel_left]
          simp only [Bool.false_eq_true, if_true, if_false]
      have hl : feeN s h (PoolOp.log fuel p p' (.flash a b)) =
          (ddS s { tick := p.tick, d0 := sub p'.growth0 p.growth0, d1 := sub p'.growth1 p.growth1 }).toNat * (active h p.tick).toNat :=
        Nat.add_zero _
      rw [hl, hd]
      exact feePerUnit_le
    · rw [hpr, show PoolOp.ledger h (.flash a b) = h from rfl, sub_self]
      cases s
      · simp [pairS, PoolOp.cash]
      · simp [pairS, PoolOp.cash]
  | exactInput a t l =>
    obtain ⟨⟨r0, r1, q'⟩, h3, h4⟩ := bind_ok hx
    cases h4
    have e : PoolOp.cash fuel p (.exactInput a t l) = (r0.toInt, r1.toInt) := by simp only [PoolOp.cash, PoolOp.flow, h3]
    rw [e]
    exact swap_step ho.1 hi hi' h1 hg ha.1 (fun hz => hs (of_decide_eq_true hz)) h3 s
  | exactOutput a t l =>
    obtain ⟨⟨r0, r1, q'⟩, h3, h4⟩ := bind_ok hx
    cases h4
    have e : PoolOp.cash fuel p (.exactOutput a t l) = (r0.toInt, r1.toInt) := by simp only [PoolOp.cash, PoolOp.flow, h3]
    rw [e]
    exact swap_step ho.1 hi hi' h1 hg ha.1 (fun hz => hs (of_decide_eq_true hz)) h3 s

theorem cash_inv {rs : List (Int × Int)} (ho : OwnRecords rs) {p0 p : Pool} {h : List Entry} {b0 b1 : Int} (h0 : Inv [] p0)
    (hnone : p0.positions = fun _ => none) (hb : Cash rs p0 h p b0 b1) :
    Inv h p ∧ (∀ r ∈ rs, (liqOf p r : Int) ≤ outstanding h r.1 r.2) ∧
      ∀ s, prinS s h p.price.toNat * 2 ^ 128 + ((rs.map (pot s p)).sum : Nat) ≤ ((pairS s (b0, b1) : Int) : ℚ) * 2 ^ 128 := by
  induction hb with
  | start =>
    have hrec : ∀ r, recordOf p0 r = ⟨zero, zero, zero, zero, zero⟩ := by
      intro r; unfold recordOf; rw [hnone]
    have hz : (zero : U256).toNat = 0 := by decide
    refine ⟨h0, ?_, ?_⟩
    · intro r _
      unfold liqOf
      rw [hrec]
      dsimp only
      rw [hz]
      exact h0.cov.nonneg _ _
    · intro s
      have : (rs.map (pot s p0)).sum ≤ (rs.map fun _ => 0).sum := sum_le fun r _ => by
        unfold pot
        rw [hrec]
        dsimp only
        rw [hz, Nat.zero_mul]
        cases s <;> simp [owS, hz]
      have h2 : ∀ l : List (Int × Int), (l.map fun _ => 0).sum = 0 := by
        intro l
        induction l with
        | nil => rfl
        | cons x l ih => rw [List.map_cons, List.sum_cons, ih]
      rw [h2] at this
      rw [Nat.le_zero.1 this]
      cases s <;> simp [prinS, principal0, principal1, wsum, pairS]
  | @step h p p' b0 b1 fuel op hr ha hsafe hfair hx ih =>
    obtain ⟨i1, i2, i3⟩ := ih
    refine ⟨exec_inv i1 ha hx, (cash_step ho i1 i2 ha hsafe hfair hx true).recorded, fun s => ?_⟩
    obtain ⟨_, y, k1, k2⟩ := cash_step ho i1 i2 ha hsafe hfair hx s
    have k3 := i3 s
    have k4 : (((rs.map (pot s p')).sum : Nat) : ℚ) ≤ ((rs.map (pot s p)).sum : Nat) + y * 2 ^ 128 := by exact_mod_cast k2
    have k5 : ((pairS s (b0 + (op.cash fuel p).1, b1 + (op.cash fuel p).2) : Int) : ℚ) =
        ((pairS s (b0, b1) : Int) : ℚ) + ((pairS s (op.cash fuel p) : Int) : ℚ) := by
      cases s
      · exact Int.cast_add _ _
      · exact Int.cast_add _ _
    rw [k5]
    have k6 := mul_le_mul_of_nonneg_right k1 (show (0 : ℚ) ≤ 2 ^ 128 by norm_num)
    linarith

end Pool
end Uni
