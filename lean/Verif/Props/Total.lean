import Verif.Proofs.Liquidate
import Verif.Proofs.Restore
import Verif.Props.Strategy
import Verif.Props.Positions
/-! # C80, C81: when pool calls fail, and when a strategy can be liquidated -/
namespace Uni
namespace Props
open U256 Spec TickData TickMath SwapMath FullMath SqrtPriceMath LiquidityAmounts Pool

/-! ### C80: the calls on positions fail exactly in the stated situations -/

/-- C80, `Mint`: in every reachable state it returns exactly for a positive amount and a valid range. -/
theorem C80_mint {h : List Entry} {p : Pool} (hr : Reachable h p) (l u : Int) (a : U256) :
    (∃ p', p.mint l u a = .ok p') ↔ 0 < a.toInt ∧ ValidRange l u := by
  have hi := reachable_inv hr
  unfold Pool.mint
  constructor
  · rintro ⟨p', hx⟩
    obtain ⟨_, h0, hx⟩ := bind_ok hx
    unfold modifyPosition at hx
    obtain ⟨_, h1, _⟩ := bind_ok hx
    exact ⟨(sgt_zero_pos h0).1, (checkTicks_iff l u).1 h1⟩
  · rintro ⟨h0, h1, h2, h3⟩
    rw [positive_ok h0, Except_bind_ok]
    exact modifyPosition_total a hi.ticks.inc h1 h2 h3

/-- C80, `Burn`: it returns exactly for a valid range (the amount is not checked, see C10). -/
theorem C80_burn {h : List Entry} {p : Pool} (hr : Reachable h p) (l u : Int) (a : U256) :
    (∃ p', p.burn l u a = .ok p') ↔ ValidRange l u := by
  have hi := reachable_inv hr
  unfold Pool.burn
  constructor
  · rintro ⟨p', hx⟩
    unfold modifyPosition at hx
    obtain ⟨_, h1, _⟩ := bind_ok hx
    exact (checkTicks_iff l u).1 h1
  · rintro ⟨h1, h2, h3⟩
    exact modifyPosition_total _ hi.ticks.inc h1 h2 h3

/-- C80, `MintStrategy`: it returns exactly for a positive amount and a valid range whose earned fees can be credited and
whose token0 amount can be computed. -/
theorem C80_mintStrategy {h : List Entry} {p : Pool} (hr : Reachable h p) (l u : Int) {a : U256} (ha : total h + a.toNat < 2 ^ 128) :
    (∃ r, p.mintStrategy l u a = .ok r) ↔ 0 < a.toNat ∧ ValidRange l u ∧ Creditable p l u ∧
      ¬ Unpriceable (clamp p.price.toNat (tickPrice l) (tickPrice u)) (tickPrice u) a.toNat := by
  have hi := reachable_inv hr
  have h0 : 0 ≤ total h := wsum_nonneg hi.cov.nonneg (fun _ _ _ => by norm_num)
  have e : a.toInt = a.toNat := toInt_of_lt (by omega)
  rw [mintStrategy_total]
  constructor
  · rintro ⟨h1, h2⟩
    obtain ⟨h3, h4, h5⟩ := (modifyStrategy_total hi (by omega) (by omega) (by omega)).1 h2
    have := h3.1
    rw [tickPrice_eq h3.2.1 (by have := h3.2.2; omega), tickPrice_eq (by have := h3.2.1; omega) h3.2.2]
    exact ⟨by omega, h3, h4, h5 h1⟩
  · rintro ⟨h1, h3, h4, h5⟩
    have := h3.1
    rw [tickPrice_eq h3.2.1 (by have := h3.2.2; omega), tickPrice_eq (by have := h3.2.1; omega) h3.2.2] at h5
    exact ⟨by omega, (modifyStrategy_total hi (by omega) (by omega) (by omega)).2 ⟨h3, h4, fun _ => h5⟩⟩

/-- C80, `BurnStrategy`: taking out liquidity that is there returns exactly if the earned fees can be credited. -/
theorem C80_burnStrategy {h : List Entry} {p : Pool} (hr : Reachable h p) {l u : Int} {a : U256} (h1 : 0 < a.toNat)
    (h2 : (a.toNat : Int) ≤ outstanding h l u) : (∃ r, p.burnStrategy l u a = .ok r) ↔ Creditable p l u := by
  have hi := reachable_inv hr
  have hlt := hi.cov.outstanding_lt l u
  have hv : ValidRange l u := by
    obtain ⟨e, he, e1, e2⟩ := exists_of_outstanding (show outstanding h l u ≠ 0 by omega)
    have h3 := hi.cov.range e he
    have h4 := hi.bounds e he
    rw [e1, e2] at h3 h4
    exact ⟨h3, h4.1, h4.2⟩
  have e : (neg a).toInt = - (a.toNat : Int) := by
    have e1 : a.toInt = a.toNat := toInt_of_lt (by omega)
    rw [toInt_neg_of _ (by omega), e1]
  rw [burnStrategy_total, modifyStrategy_total hi (by omega) (by omega) (by omega)]
  exact ⟨fun h3 => h3.2.1, fun h3 => ⟨hv, h3, fun h4 => by omega⟩⟩

/-- C80, the poke: burning nothing returns exactly for a valid range with both boundaries in use whose earned fees can be
credited. -/
theorem C80_poke {h : List Entry} {p : Pool} (hr : Reachable h p) (l u : Int) :
    (∃ r, p.burnStrategy l u zero = .ok r) ↔ ValidRange l u ∧ grossAt h l ≠ 0 ∧ grossAt h u ≠ 0 ∧ Creditable p l u := by
  have hi := reachable_inv hr
  rw [burnStrategy_total, modifyStrategy_zero hi (by decide +kernel)]
  have e : ∀ t, Pool.Initialized p t ↔ grossAt h t ≠ 0 := fun t => hi.ticks.has
  rw [e, e]
  exact ⟨fun ⟨a, b, c⟩ => ⟨a, b.1, b.2, c⟩, fun ⟨a, b, c, d⟩ => ⟨a, ⟨b, c⟩, d⟩⟩

/-- C80, `CollectStrategy`: it returns exactly if the range has a record. -/
theorem C80_collect (p : Pool) (l u : Int) :
    (∃ r, p.collectStrategy l u = .ok r) ↔ (p.positions (posKey l u)).isSome := by
  unfold collectStrategy
  cases p.positions (posKey l u) with
  | none => 
    constructor
    · rintro ⟨r, h⟩; cases h
    · intro h; cases h
  | some i => exact ⟨fun _ => rfl, fun _ => ⟨_, rfl⟩⟩

/-- C80: a record that holds nothing, or between `2^64` and `2^128`, can always be credited. -/
theorem C80_large {p : Pool} {l u : Int}
    (h : (recordOf p (l, u)).liquidity.toNat = 0 ∨
      (2 ^ 64 ≤ (recordOf p (l, u)).liquidity.toNat ∧ (recordOf p (l, u)).liquidity.toNat < 2 ^ 128)) : Creditable p l u := by
  rcases h with h | ⟨h1, h2⟩
  · exact ⟨Or.inl (by rw [h, Nat.zero_mul]), Or.inl (by rw [h, Nat.zero_mul])⟩
  · exact Strat.creditable_of_large h1 h2

/-! ### C81: liquidation -/

/-- C81: in every state of every run of every strategy, the record of a range holds exactly the liquidity of the open
positions on this range. -/
theorem C81_records {m : List Entry} {s : Strat} (hr : Runs m s) (l u : Int) :
    (recordOf s.pool (l, u)).liquidity.toNat =
      (s.positions.map (fun q => if posKey q.lower q.upper = posKey l u then q.amount.toNat else 0)).sum := by
  rw [← Strat.liqAt_record, Strat.runs_liq hr]
  exact Strat.sumAt_toNat (lt_of_lt_of_le (Strat.owns_total (Strat.runs_owns hr) _) (by norm_num))

/-- C81: with positions on different ranges, `BurnAll` returns exactly if the fees of every position can be credited. -/
theorem C81_exact {m : List Entry} {s : Strat} (hr : Runs m s)
    (hd : s.positions.Pairwise (fun q q' => posKey q.lower q.upper ≠ posKey q'.lower q'.upper)) :
    (∃ r, s.burnAll = .ok r) ↔ ∀ q ∈ s.positions, Creditable s.pool q.lower q.upper := by
  rw [Strat.burnAll_total, Strat.burnLoop_exact (Strat.runs_owns hr) hd]
  constructor
  · rintro (h | h)
    · rw [Strat.runs_idle hr h]; intro q hq; exact (List.not_mem_nil hq).elim
    · exact h
  · exact Or.inr

/-- C81: `BurnAll` returns in every state of every run in which every position holds at least `2^64`. -/
theorem C81_large {m : List Entry} {s : Strat} (hr : Runs m s) (hl : ∀ q ∈ s.positions, 2 ^ 64 ≤ q.amount.toNat) :
    ∃ r, s.burnAll = .ok r := by
  rw [Strat.burnAll_total]
  exact Or.inr (Strat.burnLoop_large (Strat.runs_owns hr) (Strat.runs_liq hr) hl)

/-! ### Examples -/

namespace TotalDemo
open StratDemo

def isPanic {α : Type} : Go α → Bool
  | .error .panic => true
  | _ => false

theorem eq_panic {α : Type} {x : Go α} (h : isPanic x = true) : x = .error .panic := by
  unfold isPanic at h
  split at h
  · rfl
  · cases h

/-- A dust position of 1000 beside `2^100` of somebody else; then a swap. -/
def op1 : PoolOp := .mintStrategy (-120) 180 (ofNat 1000)
def op2 : PoolOp := .mint (-120) 180 (ofNat (2 ^ 100))
def op3 : PoolOp := .exactInput (ofNat 1000000) "USDC" zero
def q1 : Pool := getOk (op1.exec 10 Demo.p0) (by decide +kernel)
def q2 : Pool := getOk (op2.exec 10 q1) (by decide +kernel)
def q3 : Pool := getOk (op3.exec 10 q2) (by decide +kernel)
def h1 : List Entry := [⟨-120, 180, 1000⟩]
def h3 : List Entry := [⟨-120, 180, 2 ^ 100⟩, ⟨-120, 180, 1000⟩]

theorem led1 : op1.ledger [] = h1 := by decide +kernel
theorem led2 : op2.ledger h1 = h3 := by decide +kernel
theorem led3 : op3.ledger h3 = h3 := by decide +kernel

theorem reach1 : Reachable h1 q1 := by
  have := Strat.reachable_step (Demo.reachable Demo.r0) 10 op1 (show total [] + ((ofNat 1000).toNat : Int) < 2 ^ 128 by decide +kernel)
    (eq_getOk (op1.exec 10 Demo.p0) (by decide +kernel))
  rw [led1] at this
  exact this
theorem reach2 : Reachable h3 q2 := by
  have := Strat.reachable_step reach1 10 op2 (show total h1 + ((ofNat (2 ^ 100)).toNat : Int) < 2 ^ 128 by decide +kernel)
    (eq_getOk (op2.exec 10 q1) (by decide +kernel))
  rw [led2] at this
  exact this
theorem reach3 : Reachable h3 q3 := by
  have := Strat.reachable_step reach2 10 op3 (show (ofNat 1000000).toInt < 2 ^ 160 ∧ ("USDC" = q2.token0 → _) from
    ⟨by decide +kernel, fun h => absurd h (by decide +kernel)⟩) (eq_getOk (op3.exec 10 q2) (by decide +kernel))
  rw [led3] at this
  exact this

/-- The strategy of C40's example with two million tokens, beside `2^100` of somebody else; then a small swap. -/
def op4 : PoolOp := .exactInput (ofNat 10000) "USDC" zero
def m2 : List Entry := [⟨-120, 180, 2 ^ 100⟩, ⟨-600, 600, 50000000⟩]
def d1 : Strat := { c2 with pool := getOk (op2.exec 10 c2.pool) (by decide +kernel) }
def d2 : Strat := { d1 with pool := getOk (op4.exec 10 d1.pool) (by decide +kernel) }
theorem runs1 : Runs m2 d1 := by
  have := Runs.trade (m := m1) (s := c2) 10 op2 t2 (show total (book m1 c2) + ((ofNat (2 ^ 100)).toNat : Int) < 2 ^ 128 by decide +kernel)
    (eq_getOk (op2.exec 10 c2.pool) (by decide +kernel))
  rw [show op2.ledger m1 = m2 by decide +kernel] at this
  exact this
theorem runs2 : Runs m2 d2 := by
  have := Runs.trade (m := m2) (s := d1) 10 op4 runs1 ⟨by decide +kernel, fun h => absurd h (by decide +kernel)⟩
    (eq_getOk (op4.exec 10 d1.pool) (by decide +kernel))
  rw [show op4.ledger m2 = m2 by decide +kernel] at this
  exact this

/-- The same strategy with `10^27` of each token and a swap. -/
def e0 : Strat := getOk (Strat.new (.constantInterval 120) (ofNat (10 ^ 27)) (ofNat (10 ^ 27)) Demo.p0) (by decide +kernel)
def e1 : Strat := (getOk (e0.init 10) (by decide +kernel)).2
def e2 : Strat := { e1 with pool := getOk (op4.exec 10 e1.pool) (by decide +kernel) }
theorem big0 : Runs [] e0 := .start (Or.inr (Or.inl rfl)) Demo.n0 (eq_getOk _ (by decide +kernel))
theorem big1 : Runs [] e1 := .init 10 big0 (eq_getOk _ (by decide +kernel)) (by unfold Fits; decide +kernel) (by
  intro w hw
  rw [show e0.kind = .constantInterval 120 by decide +kernel] at hw
  cases hw)
theorem big2 : Runs [] e2 := by
  have := Runs.trade (m := []) (s := e1) 10 op4 big1 ⟨by decide +kernel, fun h => absurd h (by decide +kernel)⟩
    (eq_getOk (op4.exec 10 e1.pool) (by decide +kernel))
  rw [show op4.ledger [] = [] by decide +kernel] at this
  exact this

/-- A new pool whose price is just below the one of tick 700080. -/
def highPrice : U256 := ofNat (tickPrice 700080 - 1)
def high : Pool := getOk (Pool.new "WETH" "USDC" 3000 highPrice) (by decide +kernel)
theorem highReach : Reachable [] high := ⟨_, _, _, _, high, Or.inr (Or.inl rfl), eq_getOk _ (by decide +kernel), .start⟩

end TotalDemo

open TotalDemo in
/-- C80: the hypotheses are met, and both answers occur: the same position can be closed before the swap and cannot after
it, although it holds the liquidity and everything else is in order. -/
theorem C80_stuck : Reachable h3 q2 ∧ Reachable h3 q3 ∧ ((ofNat 1000).toNat : Int) ≤ outstanding h3 (-120) 180 ∧
    (recordOf q3 (-120, 180)).liquidity = ofNat 1000 ∧ isOk (q2.burnStrategy (-120) 180 (ofNat 1000)) = true ∧
    q3.burnStrategy (-120) 180 (ofNat 1000) = .error .panic ∧ q3.burnStrategy (-120) 180 (ofNat 1) = .error .panic ∧
    q3.mintStrategy (-120) 180 (ofNat (2 ^ 64)) = .error .panic :=
  ⟨reach2, reach3, by decide +kernel, by decide +kernel, by decide +kernel, eq_panic (by decide +kernel), eq_panic (by decide +kernel),
    eq_panic (by decide +kernel)⟩

open TotalDemo in
/-- C80: a token0 amount that cannot be computed: just below the price of the upper boundary, which is above `2^128`, a
mint of 1 panics, and a mint of `2^120` returns. -/
example : Reachable [] high ∧ total [] + ((ofNat 1).toNat : Int) < 2 ^ 128 ∧ ValidRange 700020 700080 ∧
    high.mintStrategy 700020 700080 (ofNat 1) = .error .panic ∧
    isOk (high.mintStrategy 700020 700080 (ofNat (2 ^ 120))) = true :=
  ⟨highReach, by decide +kernel, by unfold ValidRange; decide, eq_panic (by decide +kernel), by decide +kernel⟩

open TotalDemo in
/-- C81: in a run that meets all hypotheses, `BurnAll` returns before the swap of somebody else and panics after it. -/
theorem C81_stuck : Runs m2 d1 ∧ Runs m2 d2 ∧ d2.positions = [⟨ofNat 167175499, -120, 120⟩] ∧
    isOk d1.burnAll = true ∧ d2.burnAll = .error .panic :=
  ⟨runs1, runs2, by decide +kernel, by decide +kernel, eq_panic (by decide +kernel)⟩

open TotalDemo in
/-- C81: a run with a large position, and fees to credit. -/
example : Runs [] e2 ∧ (∀ q ∈ e2.positions, 2 ^ 64 ≤ q.amount.toNat) ∧ e2.positions.length = 1 ∧
    e2.positions.Pairwise (fun q q' => posKey q.lower q.upper ≠ posKey q'.lower q'.upper) ∧ e2.pool.growth1 ≠ zero :=
  ⟨big2, by decide +kernel, by decide +kernel, by decide +kernel, by decide +kernel⟩

end Props
end Uni
