import Verif.Proofs.Harvest
import Verif.Props.Growth
import Verif.Proofs.Demo
/-! # C111: how often fees are collected -/
namespace Uni
namespace Props
open U256 Spec TickData TickMath _root_.Uni.Pool

theorem touch_lt {l u : Int} {op : PoolOp} {fuel : Nat} {p p1 : Pool} (ht : IsTouch l u op) (hx : op.exec fuel p = .ok p1) : l < u := by
  rcases ht with ⟨a, rfl⟩ | ⟨a, rfl⟩
  · obtain ⟨⟨r0, r1, q'⟩, h3, _⟩ := bind_ok hx
    obtain ⟨_, _, pos, h5⟩ := mintStrategy_eq h3
    exact (modifyStrategy_eq h5).1
  · obtain ⟨⟨r0, r1, q'⟩, h3, _⟩ := bind_ok hx
    obtain ⟨pos, a0, a1, q, h5, _⟩ := burnStrategy_eq h3
    exact (modifyStrategy_eq h5).1

/-- C111: a position is touched by a strategy mint or burn that leaves liquidity in it; its record is then `i`.  Afterwards its
owner collects as often as wanted, and at the end, while the others do anything that leaves the position alone.  What the
owner receives is at most what was owed plus the liquidity times the growth of the fees, rounded down once, and it is less by at
most one unit for every collection but the last.  (The fees per unit of liquidity, and what is due, fit in 256 bits.) -/
theorem C111_received {h h' : List Entry} {p p1 p' : Pool} (hr : Reachable h p) {l u : Int} {fuel : Nat} {op : PoolOp}
    (ht : IsTouch l u op) (ha : op.Admissible p h) (hx : op.exec fuel p = .ok p1) (ho : 0 < outstanding (op.ledger h) l u)
    {i : Info} (hi : p1.positions (posKey l u) = some i) {es : List HarvestEvent} {log : List Accrual} {r0 r1 : Nat}
    (hh : Holds l u (op.ledger h) p1 (es ++ [.harvest]) log h' p' r0 r1) :
    (grown0 l u log < 2 ^ 256 → due i.owed0 i.liquidity (grown0 l u log) < 2 ^ 256 →
      r0 ≤ due i.owed0 i.liquidity (grown0 l u log) ∧ due i.owed0 i.liquidity (grown0 l u log) ≤ r0 + harvests es) ∧
    (grown1 l u log < 2 ^ 256 → due i.owed1 i.liquidity (grown1 l u log) < 2 ^ 256 →
      r1 ≤ due i.owed1 i.liquidity (grown1 l u log) ∧ due i.owed1 i.liquidity (grown1 l u log) ≤ r1 + harvests es) := by
  have hinv := reachable_inv hr
  obtain ⟨j, hj⟩ := touch_fresh hinv ht ha hx ho
  have hji : j = i := by have := hj.1; rw [hi] at this; exact (Option.some.inj this).symm
  subst hji
  obtain ⟨log1, log2, plain, k, S, hlast, b0, b1⟩ := holds_standing (touch_lt ht hx) (exec_inv hinv ha hx) ho hj hh
  obtain ⟨rfl, k0, k1⟩ := hlast es rfl
  have hl := S.log
  rw [List.append_nil] at hl
  subst hl
  have hn : harvests (es ++ [.harvest]) = harvests es + 1 := harvests_append _ _
  rw [hn, k0] at b0
  rw [hn, k1] at b1
  have hz : zero.toNat = 0 := by decide
  rw [hz] at b0 b1
  unfold Books at b0 b1
  unfold due at *
  constructor
  · intro g1 g2
    obtain ⟨m1, m2⟩ := b0 g1 g2
    generalize j.liquidity.toNat * grown0 l u log = x at *
    omega
  · intro g1 g2
    obtain ⟨m1, m2⟩ := b1 g1 g2
    generalize j.liquidity.toNat * grown1 l u log = x at *
    omega

/-- C111: two owners' schedules for the same position, while the others do the same in the same order: at the end the pools are
equal - prices, ticks, records, everything - and so are the accruals and the ledgers. -/
theorem C111_same {h h1 h2 : List Entry} {p p1 q1 q2 : Pool} (hr : Reachable h p) {l u : Int} {fuel : Nat} {op : PoolOp}
    (ht : IsTouch l u op) (ha : op.Admissible p h) (hx : op.exec fuel p = .ok p1) (ho : 0 < outstanding (op.ledger h) l u)
    {es es' : List HarvestEvent} (he : others es = others es') {log log' : List Accrual} {r0 r1 s0 s1 : Nat}
    (hh : Holds l u (op.ledger h) p1 (es ++ [.harvest]) log h1 q1 r0 r1)
    (hh' : Holds l u (op.ledger h) p1 (es' ++ [.harvest]) log' h2 q2 s0 s1) : q1 = q2 ∧ log = log' ∧ h1 = h2 := by
  have hinv := reachable_inv hr
  obtain ⟨j, hj⟩ := touch_fresh hinv ht ha hx ho
  obtain ⟨log1, log2, plain, k, S, hlast, _⟩ := holds_standing (touch_lt ht hx) (exec_inv hinv ha hx) ho hj hh
  obtain ⟨log1', log2', plain', k', S', hlast', _⟩ := holds_standing (touch_lt ht hx) (exec_inv hinv ha hx) ho hj hh'
  obtain ⟨rfl, z0, z1⟩ := hlast es rfl
  obtain ⟨rfl, z0', z1'⟩ := hlast' es' rfl
  have e1 : others (es ++ [.harvest]) = others (es' ++ [.harvest]) := by rw [others_append, others_append, he]
  have e2 := S.play
  rw [e1, S'.play] at e2
  cases e2
  refine ⟨?_, rfl, rfl⟩
  have hl := S.log
  have hl' := S'.log
  rw [List.append_nil] at hl hl'
  subst hl
  subst hl'
  rw [S.pool, S'.pool]
  congr 2
  obtain ⟨a, b, c, d, e⟩ := k
  obtain ⟨a', b', c', d', e'⟩ := k'
  have x1 := S.liquidity; have x2 := S.inside0; have x3 := S.inside1
  have y1 := S'.liquidity; have y2 := S'.inside0; have y3 := S'.inside1
  dsimp only at x1 x2 x3 y1 y2 y3 z0 z1 z0' z1'
  rw [x1, x2, x3, z0, z1, y1, y2, y3, z0', z1']

/-- C111: how often the owner collects changes what is received by rounding only: a schedule pays at most one unit more than
another for every collection of the other one but the last.  In particular collecting once, at the end, pays most. -/
theorem C111_schedule {h h1 h2 : List Entry} {p p1 q1 q2 : Pool} (hr : Reachable h p) {l u : Int} {fuel : Nat} {op : PoolOp}
    (ht : IsTouch l u op) (ha : op.Admissible p h) (hx : op.exec fuel p = .ok p1) (ho : 0 < outstanding (op.ledger h) l u)
    {i : Info} (hi : p1.positions (posKey l u) = some i)
    {es es' : List HarvestEvent} (he : others es = others es') {log log' : List Accrual} {r0 r1 s0 s1 : Nat}
    (hh : Holds l u (op.ledger h) p1 (es ++ [.harvest]) log h1 q1 r0 r1)
    (hh' : Holds l u (op.ledger h) p1 (es' ++ [.harvest]) log' h2 q2 s0 s1)
    (g0 : grown0 l u log < 2 ^ 256) (d0 : due i.owed0 i.liquidity (grown0 l u log) < 2 ^ 256)
    (g1 : grown1 l u log < 2 ^ 256) (d1 : due i.owed1 i.liquidity (grown1 l u log) < 2 ^ 256) :
    r0 ≤ s0 + harvests es' ∧ s0 ≤ r0 + harvests es ∧ r1 ≤ s1 + harvests es' ∧ s1 ≤ r1 + harvests es := by
  obtain ⟨_, rfl, _⟩ := C111_same hr ht ha hx ho he hh hh'
  obtain ⟨a0, a1⟩ := C111_received hr ht ha hx ho hi hh
  obtain ⟨b0, b1⟩ := C111_received hr ht ha hx ho hi hh'
  have := a0 g0 d0
  have := a1 g1 d1
  have := b0 g0 d0
  have := b1 g1 d1
  omega

/-! ### A concrete position -/

namespace HarvestDemo

def buy : PoolOp := .exactInput (ofNat 1111) "USDC" zero
def l : Int := -120
def u : Int := 180

theorem eq_getOk3 {α β γ : Type} (x : Go (α × β × γ)) (h : isOk x = true) : x = .ok ((getOk x h).1, (getOk x h).2.1, (getOk x h).2.2) :=
  eq_getOk x h

theorem touched : PoolOp.exec 10 Demo.p0 Demo.op1 = .ok Demo.p1 :=
  demo_mintStrategy (i := ⟨ofNat 1000000, zero, zero, zero, zero⟩) (by decide +kernel) (by decide +kernel) rfl

theorem minted : PoolOp.exec 10 Demo.p1 Demo.op2 = .ok Demo.p2 := demo_mint (by decide +kernel) rfl

theorem buyOk (p : Pool) (h : List Entry) (ht : p.token0 = "WETH") : buy.Admissible p h :=
  ⟨by decide +kernel, fun hh => absurd (hh.trans ht) (by decide +kernel)⟩

-- collecting after every purchase
def a1 : Pool := getOk (buy.exec 10 Demo.p2) (by decide +kernel)
theorem a1_eq : buy.exec 10 Demo.p2 = .ok a1 := eq_getOk (buy.exec 10 Demo.p2) (by decide +kernel)
def a2 : U256 × U256 × Pool := getOk (harvest l u a1) (by decide +kernel)
theorem a2_eq : harvest l u a1 = .ok (a2.1, a2.2.1, a2.2.2) := eq_getOk3 _ (by decide +kernel)
def a3 : Pool := getOk (buy.exec 10 a2.2.2) (by decide +kernel)
theorem a3_eq : buy.exec 10 a2.2.2 = .ok a3 := eq_getOk (buy.exec 10 a2.2.2) (by decide +kernel)
def a4 : U256 × U256 × Pool := getOk (harvest l u a3) (by decide +kernel)
theorem a4_eq : harvest l u a3 = .ok (a4.1, a4.2.1, a4.2.2) := eq_getOk3 _ (by decide +kernel)
def a5 : Pool := getOk (buy.exec 10 a4.2.2) (by decide +kernel)
theorem a5_eq : buy.exec 10 a4.2.2 = .ok a5 := eq_getOk (buy.exec 10 a4.2.2) (by decide +kernel)
def a6 : U256 × U256 × Pool := getOk (harvest l u a5) (by decide +kernel)
theorem a6_eq : harvest l u a5 = .ok (a6.1, a6.2.1, a6.2.2) := eq_getOk3 _ (by decide +kernel)
-- collecting once
def b2 : Pool := getOk (buy.exec 10 a1) (by decide +kernel)
theorem b2_eq : buy.exec 10 a1 = .ok b2 := eq_getOk (buy.exec 10 a1) (by decide +kernel)
def b3 : Pool := getOk (buy.exec 10 b2) (by decide +kernel)
theorem b3_eq : buy.exec 10 b2 = .ok b3 := eq_getOk (buy.exec 10 b2) (by decide +kernel)
def b4 : U256 × U256 × Pool := getOk (harvest l u b3) (by decide +kernel)
theorem b4_eq : harvest l u b3 = .ok (b4.1, b4.2.1, b4.2.2) := eq_getOk3 _ (by decide +kernel)


theorem often : ∃ log h', Holds l u Demo.h1 Demo.p1
    (([.other 10 Demo.op2, .other 10 buy, .harvest, .other 10 buy, .harvest, .other 10 buy] : List HarvestEvent) ++ [.harvest]) log h' a6.2.2 0 9 := by
  have e0 := Holds.other 10 Demo.op2 (Holds.start (l := l) (u := u) (h := Demo.h1) (p := Demo.p1)) trivial Demo.a2 minted
  have e1 := Holds.other 10 buy e0 trivial (buyOk _ _ rfl) a1_eq
  have e2 := Holds.harvest e1 a2_eq
  have e3 := Holds.other 10 buy e2 trivial (buyOk _ _ (by decide +kernel)) a3_eq
  have e4 := Holds.harvest e3 a4_eq
  have e5 := Holds.other 10 buy e4 trivial (buyOk _ _ (by decide +kernel)) a5_eq
  have e6 := Holds.harvest e5 a6_eq
  have n0 : 0 + a2.1.toNat + a4.1.toNat + a6.1.toNat = 0 := by decide +kernel
  have n1 : 0 + a2.2.1.toNat + a4.2.1.toNat + a6.2.1.toNat = 9 := by decide +kernel
  exact ⟨_, _, by rw [← n0, ← n1]; exact e6⟩

theorem once : ∃ log h', Holds l u Demo.h1 Demo.p1
    (([.other 10 Demo.op2, .other 10 buy, .other 10 buy, .other 10 buy] : List HarvestEvent) ++ [.harvest]) log h' b4.2.2 0 11 ∧
    grown0 l u log = 0 ∧ grown1 l u log = 3856533491770635919251578884226704 := by
  have e0 := Holds.other 10 Demo.op2 (Holds.start (l := l) (u := u) (h := Demo.h1) (p := Demo.p1)) trivial Demo.a2 minted
  have e1 := Holds.other 10 buy e0 trivial (buyOk _ _ rfl) a1_eq
  have e3 := Holds.other 10 buy e1 trivial (buyOk _ _ (by decide +kernel)) b2_eq
  have e5 := Holds.other 10 buy e3 trivial (buyOk _ _ (by decide +kernel)) b3_eq
  have e6 := Holds.harvest e5 b4_eq
  have n0 : 0 + b4.1.toNat = 0 := by decide +kernel
  have n1 : 0 + b4.2.1.toNat = 11 := by decide +kernel
  refine ⟨_, _, by rw [← n0, ← n1]; exact e6, ?_, ?_⟩
  · decide +kernel
  · decide +kernel

-- the two schedules meet the hypotheses of `C111_schedule`; they pay 9 and 11, so the bound of one unit for each of the two
-- collections before the last is attained
example : a6.2.2 = b4.2.2 ∧ Reachable [] Demo.p0 ∧ IsTouch l u Demo.op1 ∧ 0 < outstanding (Demo.op1.ledger []) l u ∧
    Demo.p1.positions (posKey l u) = some ⟨ofNat 1000000, zero, zero, zero, zero⟩ ∧
    due zero (ofNat 1000000) 3856533491770635919251578884226704 = 11 := by
  obtain ⟨log, h', ho⟩ := often
  obtain ⟨log', h'', hp, _⟩ := once
  exact ⟨(C111_same (Demo.reachable .start) (Or.inl ⟨_, rfl⟩) Demo.a1 touched (by decide +kernel)
      (es := [.other 10 Demo.op2, .other 10 buy, .harvest, .other 10 buy, .harvest, .other 10 buy])
      (es' := [.other 10 Demo.op2, .other 10 buy, .other 10 buy, .other 10 buy]) rfl ho hp).1,
    Demo.reachable .start, Or.inl ⟨_, rfl⟩, by decide +kernel, by decide +kernel, by decide +kernel⟩

/-! Collecting too early -/

def deep : PoolOp := .mint (-600) 600 (ofNat (10 ^ 21))
def own : PoolOp := .mintStrategy (-60) 60 (ofNat 1)
def loan : PoolOp := .flash (ofNat 1) (ofNat 1)
def big : PoolOp := .flash (ofNat 1000000) (ofNat 1000000)
def c1 : Pool := getOk (deep.exec 0 Demo.p0) (by decide +kernel)
def c2 : Pool := getOk (own.exec 0 c1) (by decide +kernel)
def c3 : Pool := getOk (loan.exec 0 c2) (by decide +kernel)
def c4 : Pool := getOk (big.exec 0 c3) (by decide +kernel)

end HarvestDemo

/-- C111: collecting too early fails.  From a reachable pool, where a small position shares a deep market, the position can
be collected; after a loan with the smallest fee the call panics; after a larger loan it returns again. -/
theorem C111_early : ∃ h p p1 p2, Reachable h p ∧ 0 < outstanding h (-60) 60 ∧ isOk (harvest (-60) 60 p) = true ∧
    HarvestDemo.loan.exec 0 p = .ok p1 ∧ harvest (-60) 60 p1 = goPanic ∧
    HarvestDemo.big.exec 0 p1 = .ok p2 ∧ isOk (harvest (-60) 60 p2) = true := by
  refine ⟨_, HarvestDemo.c2, HarvestDemo.c3, HarvestDemo.c4, Demo.reachable (.step 0 HarvestDemo.own (.step 0 HarvestDemo.deep .start ?_
    (eq_getOk (HarvestDemo.deep.exec 0 Demo.p0) (by decide +kernel))) ?_ (eq_getOk (HarvestDemo.own.exec 0 HarvestDemo.c1) (by decide +kernel))), ?_, ?_,
    eq_getOk (HarvestDemo.loan.exec 0 HarvestDemo.c2) (by decide +kernel), ?_, eq_getOk (HarvestDemo.big.exec 0 HarvestDemo.c3) (by decide +kernel), ?_⟩
  · show total [] + ((ofNat (10 ^ 21)).toNat : Int) < 2 ^ 128
    decide +kernel
  · show total (HarvestDemo.deep.ledger []) + ((ofNat 1).toNat : Int) < 2 ^ 128
    decide +kernel
  · decide +kernel
  · decide +kernel
  · have : (match harvest (-60) 60 HarvestDemo.c3 with | .error .panic => true | _ => false) = true := by decide +kernel
    revert this
    rcases harvest (-60) 60 HarvestDemo.c3 with e | x
    · cases e <;> intro h <;> first | rfl | cases h
    · intro h; cases h
  · decide +kernel

end Props
end Uni
